import Verif.Ins.Model
import Verif.ModRM.Spec
/-!
# Specification for C64 and C65: how the processor reads integer instructions

Intel 64 and IA-32 Architectures Software Developer's Manual, volume 2: instruction format (chapter 2), opcode maps (appendix A).
The effective address is read as in the specification of C19. Only the vocabulary (modes, registers, mnemonics) is shared with
the model.
-/
namespace Verif.Ins
open Verif.ModRM (Mode Seg EA Term Ctx leUnsigned leSigned)

/-! ### The decoder -/

/-- Width of an operand: a byte, the operand size, or a word. -/
inductive W | b | v | w
  deriving DecidableEq, Repr

/-- How an operand is encoded (appendix A.2): `E` by ModRM.rm, `G` register by ModRM.reg, `A` accumulator, `Z` register in the
low bits of the opcode, `M` memory only, without a size; constants: `Ib` a byte sign-extended, `I` of this width but at most 4
bytes, `U` an unsigned byte, 1, 3; the register CL. -/
inductive OE
  | E (w : W) | G (w : W) | A (w : W) | Z (w : W) | M
  | Ib (w : W) | I (w : W) | U | one | three | cl
  deriving DecidableEq, Repr

/-- An entry of the opcode map. `d64`: the operand size is 64 bits in 64-bit mode. -/
structure Entry where
  mn : Mn
  ops : List OE
  d64 : Bool := false
  deriving DecidableEq, Repr

/-- Order of the instructions in 00-3F and in group 1. -/
def arith (n : Nat) : Mn :=
  match n with
  | 0 => .add | 1 => .or | 2 => .adc | 3 => .sbb | 4 => .and | 5 => .sub | 6 => .xor | _ => .cmp

/-- Group 2. -/
def shifts (n : Nat) : Option Mn :=
  match n with
  | 0 => some .rol | 1 => some .ror | 2 => some .rcl | 3 => some .rcr | 4 => some .shl | 5 => some .shr | 7 => some .sar
  | _ => none

/-- Group 3, 2 to 7. -/
def group3 (n : Nat) : Option Mn :=
  match n with
  | 2 => some .not | 3 => some .neg | 4 => some .mul | 5 => some .imul | 6 => some .div | 7 => some .idiv
  | _ => none

/-- Group 8. -/
def bits (n : Nat) : Option Mn :=
  match n with
  | 4 => some .bt | 5 => some .bts | 6 => some .btr | 7 => some .btc
  | _ => none

/-- byte or operand size, by the lowest bit of the opcode -/
def wbit (opc : Nat) : W := if opc % 2 = 0 then .b else .v

/-- One-byte opcodes. `nop`: 90 is NOP (64-bit mode, 32-bit operand size, no REX.B). -/
def map1 (m : Mode) (nop : Bool) (opc digit : Nat) : Option Entry :=
  let w := wbit opc
  if opc < 0x40 then
    match opc % 8 with
    | 0 | 1 => some ⟨arith (opc / 8), [.E w, .G w], false⟩
    | 2 | 3 => some ⟨arith (opc / 8), [.G w, .E w], false⟩
    | 4 | 5 => some ⟨arith (opc / 8), [.A w, .I w], false⟩
    | _ => none
  else if opc < 0x48 then (if m = .u64 then none else some ⟨.inc, [.Z .v], false⟩)
  else if opc < 0x50 then (if m = .u64 then none else some ⟨.dec, [.Z .v], false⟩)
  else if opc < 0x58 then some ⟨.push, [.Z .v], true⟩
  else if opc < 0x60 then some ⟨.pop, [.Z .v], true⟩
  else if opc = 0x68 then some ⟨.push, [.I .v], true⟩
  else if opc = 0x69 then some ⟨.imul, [.G .v, .E .v, .I .v], false⟩
  else if opc = 0x6A then some ⟨.push, [.Ib .v], true⟩
  else if opc = 0x6B then some ⟨.imul, [.G .v, .E .v, .Ib .v], false⟩
  else if opc = 0x80 ∨ opc = 0x81 then some ⟨arith digit, [.E w, .I w], false⟩
  else if opc = 0x83 then some ⟨arith digit, [.E .v, .Ib .v], false⟩
  else if opc = 0x84 ∨ opc = 0x85 then some ⟨.test, [.E w, .G w], false⟩
  else if opc = 0x86 ∨ opc = 0x87 then some ⟨.xchg, [.E w, .G w], false⟩
  else if opc = 0x8D then some ⟨.lea, [.G .v, .M], false⟩
  else if opc = 0x8F ∧ digit = 0 then some ⟨.pop, [.E .v], true⟩
  else if opc = 0x90 ∧ nop = true then none
  else if 0x90 ≤ opc ∧ opc < 0x98 then some ⟨.xchg, [.Z .v, .A .v], false⟩
  else if opc = 0xA8 ∨ opc = 0xA9 then some ⟨.test, [.A w, .I w], false⟩
  else if opc = 0xC0 ∨ opc = 0xC1 then (shifts digit).map (⟨·, [.E w, .U], false⟩)
  else if opc = 0xCC then some ⟨.int, [.three], false⟩
  else if opc = 0xCD then some ⟨.int, [.U], false⟩
  else if opc = 0xD0 ∨ opc = 0xD1 then (shifts digit).map (⟨·, [.E w, .one], false⟩)
  else if opc = 0xD2 ∨ opc = 0xD3 then (shifts digit).map (⟨·, [.E w, .cl], false⟩)
  else if (opc = 0xF6 ∨ opc = 0xF7) ∧ digit = 0 then some ⟨.test, [.E w, .I w], false⟩
  else if opc = 0xF6 ∨ opc = 0xF7 then (group3 digit).map (⟨·, [.E w], false⟩)
  else if opc = 0xFE ∨ opc = 0xFF then
    if digit = 0 then some ⟨.inc, [.E w], false⟩
    else if digit = 1 then some ⟨.dec, [.E w], false⟩
    else if opc = 0xFF ∧ digit = 6 then some ⟨.push, [.E .v], true⟩
    else none
  else none

/-- A condition code. -/
def cc (n : Nat) : Fin 16 := ⟨n % 16, Nat.mod_lt _ (by decide)⟩

/-- Opcodes after 0F. -/
def map2 (opc digit : Nat) : Option Entry :=
  let w := wbit opc
  if 0x40 ≤ opc ∧ opc < 0x50 then some ⟨.cmov (cc opc), [.G .v, .E .v], false⟩
  else if 0x90 ≤ opc ∧ opc < 0xA0 then some ⟨.set (cc opc), [.E .b], false⟩
  else if opc = 0xA3 then some ⟨.bt, [.E .v, .G .v], false⟩
  else if opc = 0xA4 then some ⟨.shld, [.E .v, .G .v, .U], false⟩
  else if opc = 0xA5 then some ⟨.shld, [.E .v, .G .v, .cl], false⟩
  else if opc = 0xAB then some ⟨.bts, [.E .v, .G .v], false⟩
  else if opc = 0xAC then some ⟨.shrd, [.E .v, .G .v, .U], false⟩
  else if opc = 0xAD then some ⟨.shrd, [.E .v, .G .v, .cl], false⟩
  else if opc = 0xAF then some ⟨.imul, [.G .v, .E .v], false⟩
  else if opc = 0xB0 ∨ opc = 0xB1 then some ⟨.cmpxchg, [.E w, .G w], false⟩
  else if opc = 0xB3 then some ⟨.btr, [.E .v, .G .v], false⟩
  else if opc = 0xB6 then some ⟨.movzx, [.G .v, .E .b], false⟩
  else if opc = 0xB7 then some ⟨.movzx, [.G .v, .E .w], false⟩
  else if opc = 0xBA then (bits digit).map (⟨·, [.E .v, .U], false⟩)
  else if opc = 0xBB then some ⟨.btc, [.E .v, .G .v], false⟩
  else if opc = 0xBC then some ⟨.bsf, [.G .v, .E .v], false⟩
  else if opc = 0xBD then some ⟨.bsr, [.G .v, .E .v], false⟩
  else if opc = 0xBE then some ⟨.movsx, [.G .v, .E .b], false⟩
  else if opc = 0xBF then some ⟨.movsx, [.G .v, .E .w], false⟩
  else if opc = 0xC0 ∨ opc = 0xC1 then some ⟨.xadd, [.E w, .G w], false⟩
  else none

/-- Prefixes. -/
structure Pre where
  p66 : Bool := false
  p67 : Bool := false
  seg : Option Seg := none
  deriving DecidableEq, Repr

def segOf (b : Nat) : Option Seg :=
  if b = 0x26 then some .es else if b = 0x2E then some .cs else if b = 0x36 then some .ss else if b = 0x3E then some .ds
  else if b = 0x64 then some .fs else if b = 0x65 then some .gs else none

/-- Legacy prefixes, in any order. -/
def prefixes (p : Pre) : List Nat → Pre × List Nat
  | [] => (p, [])
  | b :: bs =>
    if b = 0x66 then prefixes { p with p66 := true } bs
    else if b = 0x67 then prefixes { p with p67 := true } bs
    else match segOf b with
      | some s => prefixes { p with seg := some s } bs
      | none => (p, b :: bs)

/-- REX: whether there is one, and its low 4 bits. -/
def rexOf (m : Mode) : List Nat → Bool × Nat × List Nat
  | [] => (false, 0, [])
  | b :: bs => if m = .u64 ∧ 0x40 ≤ b ∧ b < 0x50 then (true, b % 16, bs) else (false, 0, b :: bs)

/-- Operand size in bytes. -/
def operandSize (m : Mode) (p66 rexW d64 : Bool) : Nat :=
  match m with
  | .u16 => if p66 then 4 else 2
  | .u32 => if p66 then 2 else 4
  | .u64 => if rexW then 8 else if p66 then 2 else if d64 then 8 else 4

/-- An operand as the processor sees it. `mem`: size, effective address, segment prefix. `imm`: value, number of bytes of the
operation it takes part in. -/
inductive Opn
  | reg (r : GReg)
  | mem (size : Nat) (ea : EA) (seg : Option Seg)
  | imm (v : Int) (size : Nat)
  deriving DecidableEq, Repr

structure Dec where
  mn : Mn
  ops : List Opn
  deriving DecidableEq, Repr

def szOf (n : Nat) : Sz :=
  match n with
  | 1 => .b | 2 => .w | 4 => .d | _ => .q

/-- Register by number; without REX the byte registers 4 to 7 are AH, CH, DH, BH. -/
def gpr (hasRex : Bool) (size no : Nat) : GReg :=
  ⟨szOf size, no, size == 1 && !hasRex && decide (4 ≤ no ∧ no ≤ 7)⟩

/-- ModRM. -/
inductive RM
  | none
  | reg (rm reg : Nat)
  | mem (ea : EA) (reg : Nat)
  deriving DecidableEq, Repr

/-- State for the operands: operand size, prefixes. -/
structure DCx where
  osz : Nat
  hasRex : Bool
  rex : Nat
  seg : Option Seg
  opc : Nat
  rm : RM
  deriving DecidableEq, Repr

def width (osz : Nat) : W → Nat
  | .b => 1 | .w => 2 | .v => osz

/-- Reads a constant of `n` bytes, signed or unsigned. -/
def takeS (n : Nat) (size : Nat) (bs : List Nat) : Option (Opn × List Nat) :=
  if bs.length < n then none else some (.imm (leSigned (bs.take n)) size, bs.drop n)

def takeU (n : Nat) (bs : List Nat) : Option (Opn × List Nat) :=
  if bs.length < n then none else some (.imm (leUnsigned (bs.take n)) n, bs.drop n)

/-- An operand and the remaining bytes. -/
def readOp (c : DCx) (bs : List Nat) : OE → Option (Opn × List Nat)
  | .E w =>
    match c.rm with
    | .reg rm _ => some (.reg (gpr c.hasRex (width c.osz w) rm), bs)
    | .mem ea _ => some (.mem (width c.osz w) ea c.seg, bs)
    | .none => none
  | .M =>
    match c.rm with
    | .mem ea _ => some (.mem 0 ea c.seg, bs)
    | _ => none
  | .G w =>
    match c.rm with
    | .reg _ r => some (.reg (gpr c.hasRex (width c.osz w) r), bs)
    | .mem _ r => some (.reg (gpr c.hasRex (width c.osz w) r), bs)
    | .none => none
  | .A w => some (.reg (gpr c.hasRex (width c.osz w) 0), bs)
  | .Z w => some (.reg (gpr c.hasRex (width c.osz w) (c.opc % 8 + 8 * (c.rex % 2))), bs)
  | .Ib w => takeS 1 (width c.osz w) bs
  | .I w => takeS (min (width c.osz w) 4) (width c.osz w) bs
  | .U => takeU 1 bs
  | .one => some (.imm 1 1, bs)
  | .three => some (.imm 3 1, bs)
  | .cl => some (.reg ⟨.b, 1, false⟩, bs)

def readOps (c : DCx) (bs : List Nat) : List OE → Option (List Opn × List Nat)
  | [] => some ([], bs)
  | e :: es =>
    match readOp c bs e with
    | none => none
    | some (o, bs) =>
      match readOps c bs es with
      | none => none
      | some (os, bs) => some (o :: os, bs)

def OE.usesRM : OE → Bool
  | .E _ | .G _ | .M => true
  | _ => false

/-- Reads the ModRM byte and what belongs to it. -/
def readRM (m : Mode) (p67 : Bool) (rex : Nat) (bs : List Nat) : Option (RM × List Nat) :=
  match bs with
  | [] => none
  | b :: rest =>
    if b / 64 = 3 then some (.reg (b % 8 + 8 * (rex % 2)) (b / 8 % 8 + 8 * (rex / 4 % 2)), rest)
    else
      match ModRM.decode m p67 rex (b :: rest) with
      | some (ea, r, rest) => some (.mem ea r, rest)
      | none => none

/-- After prefixes and REX. -/
def decodeOp (m : Mode) (p : Pre) (hasRex : Bool) (rex : Nat) (esc : Bool) (opc : Nat) (bs : List Nat) : Option (Dec × List Nat) :=
  let digit := (bs.headD 0) / 8 % 8
  let nop := m == .u64 && operandSize m p.p66 (rex / 8 % 2 == 1) false == 4 && rex % 2 == 0
  match (if esc then map2 opc digit else map1 m nop opc digit) with
  | none => none
  | some e =>
    let osz := operandSize m p.p66 (rex / 8 % 2 == 1) e.d64
    match (if e.ops.any OE.usesRM then readRM m p.p67 rex bs else some (.none, bs)) with
    | none => none
    | some (rm, bs) =>
      match readOps ⟨osz, hasRex, rex, p.seg, opc, rm⟩ bs e.ops with
      | none => none
      | some (ops, bs) => some (⟨e.mn, ops⟩, bs)

/-- The instruction at the beginning of the bytes, and the remaining bytes. -/
def decode (m : Mode) (bs : List Nat) : Option (Dec × List Nat) :=
  let (p, bs) := prefixes {} bs
  let (hasRex, rex, bs) := rexOf m bs
  match bs with
  | [] => none
  | b :: bs =>
    if b = 0x0F then
      match bs with
      | [] => none
      | b :: bs => decodeOp m p hasRex rex true b bs
    else decodeOp m p hasRex rex false b bs

/-! ### What the source says -/

/-- The decoded operand is what the operand in the source says: the same register; memory of the given size (if one is given) at
the given address; a constant equal to the given one, as a number of the size of the operation. -/
def Means (cx : Ctx) : Src → Opn → Prop
  | .reg r, .reg r' => r' = r
  | .mem size ts, .mem n ea seg =>
    (∀ z, size = some z → n = z.bytes ∨ n = 0) ∧
    (∀ regs next, ea.addr regs next = ModRM.sumTerms regs next ts % 2 ^ ea.bits) ∧
    (∀ t ∈ ts, ∀ r ∈ t.regs, ea.bits = r.bits) ∧
    ((∀ t ∈ ts, t.regs = []) → ea.bits = ModRM.addrBits cx.dir false) ∧
    ModRM.usedSeg cx.mode seg ea.stack = ModRM.usedSeg cx.mode cx.seg ea.stack
  | .imm v _, .imm v' n => v' % 2 ^ (8 * n) = v % 2 ^ (8 * n)
  | _, _ => False

/-- The constant in the source, as a 32-bit number (0FFFFFFFFh is -1 too), is one of the operand size `n`. -/
def Fits : Src → Opn → Prop
  | .imm v _, .imm _ n =>
    v < 2 ^ 32 ∧ ∃ x : Int, (x = v ∨ x = v - 2 ^ 32) ∧ -2 ^ 31 ≤ x ∧
      (n = 1 → -128 ≤ x ∧ x ≤ 255) ∧ (n = 2 → -65535 ≤ x ∧ x ≤ 65535) ∧ (n = 8 → x < 2 ^ 31 ∧ x = v)
  | _, _ => True

/-- Operand lists with the same effect: TEST and XCHG do not depend on the order; `imul r,n` is `imul r,r,n`. -/
def SameOps (mn : Mn) (ops ops' : List Src) : Prop :=
  ops' = ops ∨ ((mn = .test ∨ mn = .xchg) ∧ ops' = ops.reverse) ∨
    (mn = .imul ∧ ∃ r v z, ops = [.reg r, .imm v z] ∧ ops' = [.reg r, .reg r, .imm v z])

/-- SAL is another name of SHL. -/
def Mn.canon : Mn → Mn
  | .sal => .shl
  | mn => mn

/-- Registers that exist in this mode. -/
def GReg.ok (m : Mode) (r : GReg) : Prop :=
  r.no < 16 ∧ (r.high = true → r.size = .b ∧ 4 ≤ r.no ∧ r.no ≤ 7) ∧
    (m ≠ .u64 → r.no < 8 ∧ r.size ≠ .q ∧ (r.size = .b → 4 ≤ r.no → r.high = true))

instance (m : Mode) (r : GReg) : Decidable (r.ok m) := by unfold GReg.ok; infer_instance

end Verif.Ins
