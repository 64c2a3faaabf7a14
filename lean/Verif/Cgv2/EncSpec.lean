/-!
# An x86 instruction reader

Written from the Intel SDM (vol. 2, chapter 2: instruction format, REX, VEX, EVEX) and used as
specification of the bytes the assembler emits.  It does not use the model.  32-bit and 64-bit
code.
-/

namespace Verif.Cgv2.Isa

/-- Legacy prefixes met before an instruction. -/
structure Legacy where
  /-- 66h -/
  osz : Bool := false
  /-- 67h -/
  asz : Bool := false
  lock : Bool := false
  /-- F2h or F3h, 0 if none -/
  rep : Nat := 0
  /-- segment override byte, 0 if none -/
  seg : Nat := 0
  deriving DecidableEq, Repr

/-- Read the legacy prefixes. -/
def prefixes : Legacy → List Nat → Legacy × List Nat
  | p, [] => (p, [])
  | p, b :: bs =>
    if b = 0x66 then prefixes { p with osz := true } bs
    else if b = 0x67 then prefixes { p with asz := true } bs
    else if b = 0xf0 then prefixes { p with lock := true } bs
    else if b = 0xf2 ∨ b = 0xf3 then prefixes { p with rep := b } bs
    else if b = 0x26 ∨ b = 0x2e ∨ b = 0x36 ∨ b = 0x3e ∨ b = 0x64 ∨ b = 0x65 then
      prefixes { p with seg := b } bs
    else (p, b :: bs)

/-- Encoding space. -/
inductive Kind | legacy | vex | evex
  deriving DecidableEq, Repr

/-- Everything read up to and including the opcode byte. -/
structure Head where
  kind : Kind
  pfx : Legacy
  /-- a REX prefix is present -/
  rex : Bool
  w : Bool
  /-- what is added to ModRM.reg: 0, 8, 16 or 24 -/
  rAdd : Nat
  /-- REX.X / inverted VEX.X̅ -/
  x : Bool
  /-- REX.B / inverted VEX.B̅ -/
  b : Bool
  /-- register named by vvvv (EVEX: V'vvvv) -/
  vvvv : Nat
  /-- inverted EVEX.V' -/
  v' : Bool
  /-- vector length (or rounding) field -/
  ll : Nat
  /-- mandatory prefix: 0 none, 1 66h, 2 F3h, 3 F2h -/
  pp : Nat
  /-- opcode map: 0 one-byte, 1 0F, 2 0F38, 3 0F3A -/
  map : Nat
  opcode : Nat
  /-- EVEX mask, zeroing, broadcast/rounding -/
  aaa : Nat
  z : Bool
  bc : Bool
  deriving DecidableEq, Repr

/-- Bit `i` of a byte. -/
def bit (b i : Nat) : Bool := b / 2 ^ i % 2 == 1

/-- `if c then n else 0` -/
def addIf (c : Bool) (n : Nat) : Nat := if c then n else 0

/-- Mandatory prefix of a legacy-encoded instruction: F3/F2 win over 66. -/
def legacyPP (p : Legacy) : Nat :=
  if p.rep = 0xf3 then 2 else if p.rep = 0xf2 then 3 else if p.osz then 1 else 0

/-- Opcode of a legacy-encoded instruction: map and byte. -/
def legacyOpcode : List Nat → Option (Nat × Nat × List Nat)
  | 0x0f :: 0x38 :: op :: r => some (2, op, r)
  | 0x0f :: 0x3a :: op :: r => some (3, op, r)
  | 0x0f :: op :: r => some (1, op, r)
  | op :: r => some (0, op, r)
  | [] => none

/-- VEX and EVEX may not be preceded by 66, F2, F3 or LOCK. -/
def plain (p : Legacy) : Bool := !p.osz && p.rep == 0 && !p.lock

/-- Instruction without REX, VEX, EVEX, or after a REX byte. -/
def legacyHead (p : Legacy) (rex : Option Nat) (bs : List Nat) : Option (Head × List Nat) :=
  match legacyOpcode bs with
  | none => none
  | some (m, op, r) =>
    let x := rex.getD 0
    some (⟨.legacy, p, rex.isSome, bit x 3, addIf (bit x 2) 8, bit x 1, bit x 0, 0, false, 0,
      legacyPP p, m, op, 0, false, false⟩, r)

/-- Three-byte VEX: `C4, R̅X̅B̅mmmmm, W v̅v̅v̅v̅ L pp`. -/
def vex3 (p : Legacy) : List Nat → Option (Head × List Nat)
  | b1 :: b2 :: op :: r =>
    if plain p then
      some (⟨.vex, p, false, bit b2 7, addIf (!bit b1 7) 8, !bit b1 6, !bit b1 5,
        15 - b2 / 8 % 16, false, addIf (bit b2 2) 1, b2 % 4, b1 % 32, op, 0, false, false⟩, r)
    else none
  | _ => none

/-- Two-byte VEX: `C5, R̅ v̅v̅v̅v̅ L pp`. -/
def vex2 (p : Legacy) : List Nat → Option (Head × List Nat)
  | b1 :: op :: r =>
    if plain p then
      some (⟨.vex, p, false, false, addIf (!bit b1 7) 8, false, false,
        15 - b1 / 8 % 16, false, addIf (bit b1 2) 1, b1 % 4, 1, op, 0, false, false⟩, r)
    else none
  | _ => none

/-- EVEX: `62, R̅X̅B̅R̅'00mm, W v̅v̅v̅v̅ 1 pp, z L'L b V̅' aaa`. -/
def evex (p : Legacy) : List Nat → Option (Head × List Nat)
  | b1 :: b2 :: b3 :: op :: r =>
    if plain p ∧ bit b1 3 = false ∧ bit b1 2 = false ∧ bit b2 2 = true then
      some (⟨.evex, p, false, bit b2 7, addIf (!bit b1 7) 8 + addIf (!bit b1 4) 16, !bit b1 6,
        !bit b1 5, (15 - b2 / 8 % 16) + addIf (!bit b3 3) 16, !bit b3 3, b3 / 32 % 4, b2 % 4,
        b1 % 4, op, b3 % 8, bit b3 7, bit b3 4⟩, r)
    else none
  | _ => none

/-- Outside 64-bit code C4, C5 and 62 are LES, LDS and BOUND unless the next byte has the
form of a register ModRM. -/
def vexAllowed (m64 : Bool) : List Nat → Bool
  | b :: _ => m64 || decide (0xc0 ≤ b)
  | [] => m64

/-- Read prefixes and opcode. -/
def head (m64 : Bool) (bs : List Nat) : Option (Head × List Nat) :=
  match prefixes {} bs with
  | (_, []) => none
  | (p, b :: r) =>
    if b = 0xc4 ∧ vexAllowed m64 r then vex3 p r
    else if b = 0xc5 ∧ vexAllowed m64 r then vex2 p r
    else if b = 0x62 ∧ vexAllowed m64 r then evex p r
    else if m64 ∧ 0x40 ≤ b ∧ b < 0x50 then legacyHead p (some b) r
    else legacyHead p none (b :: r)

/-- An operand selected by ModRM.rm. -/
inductive RM
  | reg (n : Nat)
  /-- address `base + index * scale + disp`, registers by number; `rip`: relative to the
  next instruction; `width`: 2, 4 or 8 byte address registers -/
  | mem (base : Option Nat) (index : Option Nat) (scale : Nat) (disp : Int) (rip : Bool)
      (width : Nat)
  deriving DecidableEq, Repr

/-- Signed value of the low `n` bits. -/
def signed (n v : Nat) : Int := if v < 2 ^ (n - 1) then v else (v : Int) - 2 ^ n

/-- Little-endian number. -/
def le : List Nat → Nat
  | [] => 0
  | b :: bs => b + 256 * le bs

/-- Take exactly `n` bytes. -/
def takeN (n : Nat) (bs : List Nat) : Option (List Nat × List Nat) :=
  if n ≤ bs.length then some (bs.take n, bs.drop n) else none

/-- The displacement selected by `mod` (or forced to 32 bits); one-byte displacements are
multiplied by `n` (1 unless EVEX). -/
def disp (mod : Nat) (force32 : Bool) (n : Nat) (bs : List Nat) : Option (Int × List Nat) :=
  if mod = 1 then
    match bs with
    | b :: r => some (signed 8 b * n, r)
    | [] => none
  else if mod = 2 ∨ force32 then
    match takeN 4 bs with
    | some (d, r) => some (signed 32 (le d), r)
    | none => none
  else some (0, bs)

/-- 16-bit address registers (BX=3, BP=5, SI=6, DI=7). -/
def rm16Regs : Nat → Option Nat × Option Nat
  | 0 => (some 3, some 6) | 1 => (some 3, some 7) | 2 => (some 5, some 6) | 3 => (some 5, some 7)
  | 4 => (some 6, none) | 5 => (some 7, none) | 6 => (some 5, none) | _ => (some 3, none)

/-- Read ModRM, SIB and displacement: `(reg field, operand, rest)`.  `vsib`: the index is a
vector register. -/
def modrm (m64 : Bool) (h : Head) (vsib : Bool) (n : Nat) : List Nat → Option (Nat × RM × List Nat)
  | [] => none
  | b :: r =>
    let mod := b / 64 % 4
    let reg := b / 8 % 8 + h.rAdd
    let rm := b % 8
    let width := if m64 then (if h.pfx.asz then 4 else 8) else (if h.pfx.asz then 2 else 4)
    if mod = 3 then
      some (reg, .reg (rm + addIf h.b 8 + (if h.kind = .evex then addIf h.x 16 else 0)), r)
    else if width = 2 then
      if mod = 0 ∧ rm = 6 then
        match takeN 2 r with
        | some (d, r) => some (reg, .mem none none 1 (signed 16 (le d)) false 2, r)
        | none => none
      else
        match (if mod = 0 then some (0, r) else if mod = 1 then
            (match r with | d :: r => some (signed 8 d * n, r) | [] => none)
          else (match takeN 2 r with | some (d, r) => some (signed 16 (le d), r) | none => none)
          : Option (Int × List Nat)) with
        | some (d, r) => some (reg, .mem (rm16Regs rm).1 (rm16Regs rm).2 1 d false 2, r)
        | none => none
    else if rm = 4 then
      match r with
      | [] => none
      | s :: r =>
        let noBase := decide (s % 8 = 5 ∧ mod = 0)
        let i := s / 8 % 8 + addIf h.x 8
        let index := if vsib then some (i + addIf h.v' 16) else if i = 4 then none else some i
        match disp mod noBase n r with
        | none => none
        | some (d, r) =>
          some (reg, .mem (if noBase then none else some (s % 8 + addIf h.b 8)) index
            (if index.isNone then 1 else 2 ^ (s / 64 % 4)) d false width, r)
    else
      let noBase := decide (rm = 5 ∧ mod = 0)
      match disp mod noBase n r with
      | none => none
      | some (d, r) =>
        some (reg, .mem (if noBase then none else some (rm + addIf h.b 8)) none 1 d
          (noBase && m64) width, r)

end Verif.Cgv2.Isa
