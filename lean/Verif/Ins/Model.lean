import Verif.ModRM.Model
/-!
# Model of the classic code generator for integer instructions: `/repo/parser.c` 449-493, 961-1075, 1459-1580, 1591-1700,
2085-2280, 2452-3025, 3898-4040, `/repo/codegen.c` 430-530, 2260-2310, 2690-2760, 2858-2935, 3030-3455, `/repo/H/instruct.h` 108-520,
`/repo/H/instr64.h` 36-45, `/repo/H/operands.h` 43-163, `/repo/H/special.h` 30-194

Instructions which CodeGenV2 does not know, so that codegen() assembles them in every mode. Operands: general registers, memory
operands made of registers and numbers (with or without a size; a number alone needs a segment register: `[5]` without one is
another path), numbers (with or without a size). All instructions are enabled
by the current cpu, OPTION NOSIGNEXTEND is not set, no register is assumed to ERROR, there are no LOCK/REP prefixes.

CodeInfo.prefix.rex is split: bit 40h (`rex40`), REX_W (`rexW`), and the bits R, X, B, which depend on register numbers only.
What depends on the kinds, sizes and ranges of the operands (`plan`) is separated from what depends on register numbers,
addresses and values (`encode`).
-/
namespace Verif.Ins
open Verif.ModRM (Mode Seg Term Ctx leBytes)

/-! ### The source -/

/-- Sizes of data. -/
inductive Sz | b | w | d | q
  deriving DecidableEq, Repr

def Sz.bytes : Sz → Nat
  | .b => 1 | .w => 2 | .d => 4 | .q => 8

/-- A general register: size in bytes and number; `high`: AH, CH, DH, BH (numbers 4 to 7). -/
structure GReg where
  size : Sz
  no : Nat
  high : Bool := false
  deriving DecidableEq, Repr

/-- An operand in the source: `rcx`; `word ptr [ebx+esi*2+5]`; `12`, `byte ptr 12`. -/
inductive Src
  | reg (r : GReg)
  | mem (size : Option Sz) (ts : List Term)
  | imm (v : Int) (size : Option Sz)
  deriving DecidableEq, Repr

/-- Mnemonics. `set cc` and `cmov cc`: condition codes 0 (O) to 15 (G). -/
inductive Mn
  | add | or | adc | sbb | and | sub | xor | cmp
  | rol | ror | rcl | rcr | sal | shl | shr | sar
  | not | neg | mul | div | idiv
  | inc | dec | test | xchg | imul | lea | movsx | movzx
  | bt | bts | btr | btc | bsf | bsr | cmpxchg | xadd
  | set (cc : Fin 16) | cmov (cc : Fin 16) | shld | shrd | push | pop | int
  deriving DecidableEq, Repr

/-- Instructions with the same operand columns in instruct.h. -/
inductive Fam
  | ari | shift | un | incdec | test | xchg | imul | lea | movx | bt | bs | xadd | set | cmov | shxd | push | pop | int
  deriving DecidableEq, Repr

def Mn.fam : Mn → Fam
  | .add | .or | .adc | .sbb | .and | .sub | .xor | .cmp => .ari
  | .rol | .ror | .rcl | .rcr | .sal | .shl | .shr | .sar => .shift
  | .not | .neg | .mul | .div | .idiv => .un
  | .inc | .dec => .incdec
  | .test => .test
  | .xchg => .xchg
  | .imul => .imul
  | .lea => .lea
  | .movsx | .movzx => .movx
  | .bt | .bts | .btr | .btc => .bt
  | .bsf | .bsr => .bs
  | .cmpxchg | .xadd => .xadd
  | .set _ => .set
  | .cmov _ => .cmov
  | .shld | .shrd => .shxd
  | .push => .push
  | .pop => .pop
  | .int => .int

/-! ### Operand types, H/operands.h 43-163 -/

def oR8 : Nat := 0x1
def oR16 : Nat := 0x2
def oR32 : Nat := 0x4
def oR64 : Nat := 0x8
def oA : Nat := 0x200
def oCLONLY : Nat := 0x400
def oCL : Nat := 0x401
def oRGT8 : Nat := 0xE
def oRGT16 : Nat := 0xC
def oR : Nat := 0xF
def oI8 : Nat := 0x20000
def oI16 : Nat := 0x40000
def oI32 : Nat := 0x80000
def oI : Nat := 0xE0000
def oIGE16 : Nat := 0xC0000
/-- OP_I_1, OP_I_3, OP_I8_U: told apart by the whole value -/
def oI1 : Nat := 0x420000
def oI3 : Nat := 0x420001
def oI8U : Nat := 0x4E0000
def oM08 : Nat := 0x800000
def oM16 : Nat := 0x1000000
def oM32 : Nat := 0x2000000
def oM64 : Nat := 0x4000000
def oMGT8 : Nat := 0x7000000
def oMGT16 : Nat := 0x6000000
def oMS : Nat := 0x7800000
/-- OP_M = OP_MS | OP_M80 | OP_M128 -/
def oM : Nat := 0x8F800000
def oRMS : Nat := 0x780000F

/-- Third operand, H/operands.h 152-163. -/
inductive T3 | none | cl | i8u | i
  deriving DecidableEq, Repr

/-- How the opcode byte and ModRM are written (`rm_info`). -/
inductive Kind | rm | noRM | inOp
  deriving DecidableEq, Repr

/-- The operand columns of a row of instruct.h: operand types, byte1_info (0F or not), opnd_dir, rm_info. `wds`: the wide bit is
added to the opcode (rm_info is neither no_WDS nor R_in_OP). -/
structure Form where
  t1 : Nat
  t2 : Nat
  t3 : T3 := .none
  esc : Bool := false
  dir : Bool := false
  kind : Kind := .rm
  wds : Bool := true
  deriving DecidableEq, Repr

/-- The rows of instruct.h 108-520 (instr64.h 36-45 for PUSH and POP in 64-bit code), operand columns. The rows for segment
registers are left out (no operand of the model has their type). In 64-bit code the first rows of INC and DEC are skipped
(reswords.c 1140). -/
def forms (m : Mode) : Fam → List Form
  | .ari => [
    { t1 := oRGT8, t2 := oI8, wds := false },
    { t1 := oR, t2 := oRMS, dir := true },
    { t1 := oA, t2 := oI, kind := .noRM },
    { t1 := oR, t2 := oI },
    { t1 := oMGT8, t2 := oI8, wds := false },
    { t1 := oMS, t2 := oR },
    { t1 := oMS, t2 := oI }]
  | .shift => [
    { t1 := oRMS, t2 := oCLONLY },
    { t1 := oRMS, t2 := oI1 },
    { t1 := oRMS, t2 := oI8U }]
  | .un => [
    { t1 := oR, t2 := 0 },
    { t1 := oM08, t2 := 0 },
    { t1 := oMGT8, t2 := 0 }]
  | .incdec => (if m = .u64 then [] else [{ t1 := oRGT8, t2 := 0, kind := .inOp, wds := false }]) ++ [
    { t1 := oR, t2 := 0 },
    { t1 := oM08, t2 := 0 },
    { t1 := oMGT8, t2 := 0 }]
  | .test => [
    { t1 := oA, t2 := oI, kind := .noRM },
    { t1 := oR, t2 := oRMS, dir := true },
    { t1 := oRMS, t2 := oI },
    { t1 := oMS, t2 := oR }]
  | .xchg => [
    { t1 := oA, t2 := oRGT8, kind := .inOp, wds := false },
    { t1 := oRGT8, t2 := oA, kind := .inOp, wds := false },
    { t1 := oR, t2 := oR, dir := true },
    { t1 := oR, t2 := oMS, dir := true },
    { t1 := oMS, t2 := oR }]
  | .imul => [
    { t1 := oR, t2 := 0 },
    { t1 := oM08, t2 := 0 },
    { t1 := oMGT8, t2 := 0 },
    { t1 := oRGT8, t2 := oRMS, esc := true, dir := true, wds := false },
    { t1 := oRGT8, t2 := oI8, dir := true, wds := false },
    { t1 := oRGT8, t2 := oI, dir := true, wds := false },
    { t1 := oRGT8, t2 := oRMS, t3 := .i8u, dir := true, wds := false },
    { t1 := oRGT8, t2 := oRMS, t3 := .i, dir := true, wds := false }]
  | .lea => [{ t1 := oRGT8, t2 := oMS, dir := true, wds := false }]
  | .movx => [{ t1 := oRGT8, t2 := oRMS, esc := true, dir := true }]
  | .bt => [
    { t1 := oRGT8, t2 := oRGT8, esc := true, wds := false },
    { t1 := oRGT8, t2 := oI8U, esc := true, wds := false },
    { t1 := oMGT8, t2 := oRGT8, esc := true, wds := false },
    { t1 := oMGT8, t2 := oI8U, esc := true, wds := false }]
  | .bs => [{ t1 := oRGT8, t2 := oRGT8 ||| oMS, esc := true, dir := true, wds := false }]
  | .xadd => [
    { t1 := oR, t2 := oR, esc := true },
    { t1 := oMS, t2 := oR, esc := true }]
  | .set => [{ t1 := oR8 ||| oM08, t2 := 0, esc := true, wds := false }]
  | .cmov => [{ t1 := oRGT8, t2 := oRMS, esc := true, dir := true, wds := false }]
  | .shxd => [
    { t1 := oRGT8 ||| oMGT8, t2 := oRGT8, t3 := .cl, esc := true, wds := false },
    { t1 := oRGT8 ||| oMGT8, t2 := oRGT8, t3 := .i8u, esc := true, wds := false }]
  | .push => if m = .u64 then [
      { t1 := oR16 ||| oR64, t2 := 0, kind := .inOp, wds := false },
      { t1 := oI8, t2 := 0, kind := .noRM, wds := false },
      { t1 := oI, t2 := 0, kind := .noRM, wds := false },
      { t1 := oM16 ||| oM64, t2 := 0, wds := false }]
    else [
      { t1 := oR16 ||| oR32, t2 := 0, kind := .inOp, wds := false },
      { t1 := oI8, t2 := 0, kind := .noRM, wds := false },
      { t1 := oI, t2 := 0, kind := .noRM, wds := false },
      { t1 := oM16 ||| oM32, t2 := 0, wds := false }]
  | .pop => if m = .u64 then [
      { t1 := oR16 ||| oR64, t2 := 0, kind := .inOp, wds := false },
      { t1 := oM16 ||| oM64, t2 := 0, wds := false }]
    else [
      { t1 := oR16 ||| oR32, t2 := 0, kind := .inOp, wds := false },
      { t1 := oM16 ||| oM32, t2 := 0, wds := false }]
  | .int => [
    { t1 := oI3, t2 := 0, kind := .noRM, wds := false },
    { t1 := oI8U, t2 := 0, kind := .noRM, wds := false }]

/-- The same rows, columns opcode and rm_byte (the rm_byte column divided by 8). -/
def codes (m : Mode) : Mn → List (Nat × Nat)
  | .add => ari 0x00
  | .or => ari 0x08
  | .adc => ari 0x10
  | .sbb => ari 0x18
  | .and => ari 0x20
  | .sub => ari 0x28
  | .xor => ari 0x30
  | .cmp => ari 0x38
  | .rcl => bsi 2
  | .rcr => bsi 3
  | .rol => bsi 0
  | .ror => bsi 1
  | .sal => bsi 4
  | .sar => bsi 7
  | .shl => bsi 4
  | .shr => bsi 5
  | .div => un 6
  | .idiv => un 7
  | .mul => un 4
  | .neg => un 3
  | .not => un 2
  | .inc => (if m = .u64 then [] else [(0x40, 0)]) ++ [(0xFE, 0), (0xFE, 0), (0xFF, 0)]
  | .dec => (if m = .u64 then [] else [(0x48, 0)]) ++ [(0xFE, 1), (0xFE, 1), (0xFF, 1)]
  | .test => [(0xA8, 0), (0x84, 0), (0xF6, 0), (0x84, 0)]
  | .xchg => [(0x90, 0), (0x90, 0), (0x86, 0), (0x86, 0), (0x86, 0)]
  | .imul => [(0xF6, 5), (0xF6, 5), (0xF7, 5), (0xAF, 0), (0x6B, 0), (0x69, 0), (0x6B, 0), (0x69, 0)]
  | .lea => [(0x8D, 0)]
  | .movsx => [(0xBE, 0)]
  | .movzx => [(0xB6, 0)]
  | .bt => [(0xA3, 0), (0xBA, 4), (0xA3, 0), (0xBA, 4)]
  | .btc => [(0xBB, 0), (0xBA, 7), (0xBB, 0), (0xBA, 7)]
  | .btr => [(0xB3, 0), (0xBA, 6), (0xB3, 0), (0xBA, 6)]
  | .bts => [(0xAB, 0), (0xBA, 5), (0xAB, 0), (0xBA, 5)]
  | .bsf => [(0xBC, 0)]
  | .bsr => [(0xBD, 0)]
  | .cmpxchg => [(0xB0, 0), (0xB0, 0)]
  | .xadd => [(0xC0, 0), (0xC0, 0)]
  | .set cc => [(0x90 + cc, 0)]
  | .cmov cc => [(0x40 + cc, 0)]
  | .shld => [(0xA5, 0), (0xA4, 0)]
  | .shrd => [(0xAD, 0), (0xAC, 0)]
  | .push => [(0x50, 0), (0x6A, 0), (0x68, 0), (0xFF, 6)]
  | .pop => [(0x58, 0), (0x8F, 0)]
  | .int => [(0xCC, 0), (0xCD, 0)]
where
  /-- instruct.h 112-119 -/
  ari (c : Nat) : List (Nat × Nat) :=
    [(0x83, c / 8), (c + 2, 0), (c + 4, 0), (0x80, c / 8), (0x83, c / 8), (c, 0), (0x80, c / 8)]
  /-- instruct.h 139-143 -/
  bsi (d : Nat) : List (Nat × Nat) := [(0xD2, d), (0xD0, d), (0xC0, d)]
  un (d : Nat) : List (Nat × Nat) := [(0xF6, d), (0xF6, d), (0xF7, d)]

/-! ### What the code asks about the operands -/

/-- The comparisons of a constant `x = opndx.value` (32 bits, signed) in parser.c and codegen.c. -/
structure Facts where
  /-- `(int_8)x == x` -/
  i8 : Bool
  /-- -65535 <= x <= 65535 -/
  word : Bool
  /-- -128 <= x <= 255 -/
  byte : Bool
  /-- `x == 1`, `x == 3` -/
  one : Bool
  three : Bool
  /-- `(int_8)x == (int_16)x` -/
  s16 : Bool
  /-- `(uint_32)x > 65535` -/
  u16 : Bool
  /-- `(uint_32)x > 255` -/
  u8 : Bool
  /-- `x > SHRT_MIN` -/
  gmin : Bool
  deriving DecidableEq, Repr

def Facts.of (x : Int) : Facts where
  i8 := decide (-128 ≤ x ∧ x ≤ 127)
  word := decide (-65535 ≤ x ∧ x ≤ 65535)
  byte := decide (-128 ≤ x ∧ x ≤ 255)
  one := decide (x = 1)
  three := decide (x = 3)
  s16 := decide (Int.bmod x 256 = Int.bmod x 65536)
  u16 := decide (x % 2 ^ 32 > 65535)
  u8 := decide (x % 2 ^ 32 > 255)
  gmin := decide (x > -32768)

/-- An operand without register numbers, addresses and values. For a register: its flags in special.h (column `value`), whether
its cpu is P_64, and whether it sets x86hi_used (process_register 2152-2158). -/
inductive AOp
  | reg (ty : Nat) (p64 hi : Bool)
  | mem (size : Option Sz)
  | imm (f : Facts) (size : Option Sz)
  deriving DecidableEq, Repr

def sizeBit : Sz → Nat
  | .b => oR8 | .w => oR16 | .d => oR32 | .q => oR64

/-- special.h 30-194, columns value and cpu. DX has another flag, which only IN and OUT use. -/
def GReg.abs (m : Mode) (r : GReg) : AOp :=
  .reg (sizeBit r.size ||| (if r.no = 0 then oA else 0) ||| (if r.size = .b ∧ r.no = 1 then oCLONLY else 0))
    (decide (r.size = .q ∨ r.no ≥ 8 ∨ (r.size = .b ∧ r.no ≥ 4 ∧ r.high = false)))
    (decide (m = .u64 ∧ r.size = .b ∧ r.no ≥ 4 ∧ r.no ≤ 7 ∧ r.high = true))

/-- `opndx.value` -/
def low32 (v : Int) : Int := Int.bmod v (2 ^ 32)

/-- `opndx->value64 > 0xFFFFFFFF` is an error, idata_nofixup 975. -/
def Src.abs (m : Mode) : Src → Option AOp
  | .reg r => some (r.abs m)
  | .mem s _ => some (.mem s)
  | .imm v s => if v > 0xFFFFFFFF then none else some (.imm (Facts.of (low32 v)) s)

/-! ### parser.c -/

/-- CodeInfo. `msize`: mem_type (none: MT_EMPTY). -/
structure F where
  opsiz : Bool := false
  wide : Bool := false
  hi : Bool := false
  /-- const_size_fixed -/
  fixed : Bool := false
  rexW : Bool := false
  rex40 : Bool := false
  msize : Option Sz := none
  t1 : Nat := 0
  t2 : Nat := 0
  t3 : Nat := 0
  deriving DecidableEq, Repr

/-- opnd[i].type = t -/
def F.setT (s : F) (i t : Nat) : F :=
  match i with
  | 0 => { s with t1 := t }
  | 1 => { s with t2 := t }
  | _ => { s with t3 := t }

/-- process_register 2103-2222 without register numbers; for the third operand only the type is set (3816-3830). -/
def procReg (m : Mode) (i : Nat) (s : F) (ty : Nat) (p64 hi : Bool) : F :=
  let s := s.setT i ty
  if i ≥ 2 then s
  else
    let s :=
      if ty &&& oR8 ≠ 0 then
        { s with wide := if ty ≠ oCL then false else s.wide, hi := s.hi || hi }
      else
        { s with
          wide := true
          opsiz :=
            if ty &&& oR16 ≠ 0 then (if m ≠ .u16 then true else s.opsiz) else (if m = .u16 then true else s.opsiz) }
    if p64 then { s with rex40 := true, rexW := s.rexW || decide (ty &&& oR64 ≠ 0) } else s

/-- Set_Memtype 1462-1580 -/
def setMemtype (m : Mode) (fam : Fam) (s : F) (sz : Option Sz) : F :=
  if fam = .lea then s
  else
    match sz with
    | none => s
    | some z =>
      let s := { s with msize := some z }
      if m ≠ .u16 then
        match z with
        | .w => { s with opsiz := true }
        | .q => if fam = .push ∨ fam = .pop then s else { s with rexW := true }
        | _ => s
      else
        match z with
        | .d => { s with opsiz := true }
        | .q => { s with rexW := true }
        | _ => s

def memType : Option Sz → Nat
  | none => oM
  | some .b => oM08
  | some .w => oM16
  | some .d => oM32
  | some .q => oM64

/-- memory_operand 1591-1730 without the address; there is no symbol. -/
def memOp (m : Mode) (fam : Fam) (i : Nat) (s : F) (sz : Option Sz) : Option F :=
  let s := setMemtype m fam s sz
  if s.msize = none ∧ fam = .incdec then none
  else some (s.setT i (memType s.msize))

/-- The type of a constant, idata_nofixup 1003-1038. -/
def immType (f : Facts) : Option Sz → Option Nat
  | some .b => some oI8
  | some .w => some oI16
  | some .d => some oI32
  | some .q => none
  | none => some (if f.i8 then oI8 else if f.word then oI16 else oI32)

/-- idata_nofixup 1040-1048: PUSH. -/
def pushType (m : Mode) (fam : Fam) (sz : Option Sz) (ty : Nat) : Nat :=
  if fam = .push ∧ sz = none ∧ m ≠ .u16 ∧ ty = oI16 then oI32 else ty

/-- idata_nofixup 1045-1075: prefix 66 for PUSH, the wide bit. -/
def idataFlags (m : Mode) (fam : Fam) (i : Nat) (s : F) (ty : Nat) : F :=
  { s with
    opsiz := if fam = .push ∧ ty = oI16 then decide (m ≠ .u16) else if fam = .push ∧ ty = oI32 then decide (m = .u16) else s.opsiz
    wide := s.wide || (decide (i = 1) && (s.msize == some .w || s.msize == some .d || s.msize == some .q)) }

/-- idata_nofixup 985-1075 -/
def idata (m : Mode) (fam : Fam) (i : Nat) (s : F) (f : Facts) (sz : Option Sz) : Option F :=
  match immType f sz with
  | none => none
  | some ty => some ((idataFlags m fam i { s with fixed := s.fixed || sz.isSome } (pushType m fam sz ty)).setT i (pushType m fam sz ty))

/-- The loop over the operands in ParseLine 3650-3850. -/
def procOp (m : Mode) (fam : Fam) (i : Nat) (s : F) : AOp → Option F
  | .reg ty p64 hi => some (procReg m i s ty p64 hi)
  | .mem sz => memOp m fam i s sz
  | .imm f sz => idata m fam i s f sz

def procOps (m : Mode) (fam : Fam) (i : Nat) (s : F) : List AOp → Option F
  | [] => some s
  | o :: os => do procOps m fam (i + 1) (← procOp m fam i s o) os

/-- OperandSize 449-493 -/
def opSize (s : F) (t : Nat) : Nat :=
  if t = 0 then 0
  else if t = oM then (match s.msize with | none => 0 | some z => z.bytes)
  else if t &&& (oR8 ||| oM08 ||| oI8) ≠ 0 then 1
  else if t &&& (oR16 ||| oM16 ||| oI16) ≠ 0 then 2
  else if t &&& (oR32 ||| oM32 ||| oI32) ≠ 0 then 4
  else if t &&& (oR64 ||| oM64) ≠ 0 then 8
  else 0

/-- The check of the third operand of IMUL, check_size 2705-2722. -/
def checkImul (s : F) : Option F :=
  if s.t3 ≠ 0 then
    if opSize s s.t1 = 2 ∧ opSize s s.t3 > 2 then none
    else if s.t3 &&& (oI16 ||| oI32) ≠ 0 then some { s with t3 := if opSize s s.t1 = 2 then oI16 else oI32 }
    else some s
  else some s

/-- The default case of check_size 2835-3020. `f`: the second operand if it is a constant. Assignments of MT_xx to mem_type in
the last branch need a first operand without size that is neither memory nor constant; there is none. -/
def checkDefault (m : Mode) (s : F) (f : Facts) : Option F :=
  let isImm2 := s.t2 = oI8 ∨ s.t2 = oI16 ∨ s.t2 = oI32
  let z1 := opSize s s.t1
  let z2 := if opSize s s.t1 > opSize s s.t2 ∧ isImm2 then opSize s s.t1 else opSize s s.t2
  if z1 = 1 ∧ s.t2 = oI16 ∧ f.byte = true then some s
  else if z1 = z2 then some s
  else if z1 ≠ 0 ∧ z2 ≠ 0 then none
  else if z1 = 0 ∧ s.t1 &&& oM ≠ 0 ∧ s.t2 &&& oI ≠ 0 then
    if f.u16 = true ∨ z2 = 4 then
      let z2 := if m = .u16 ∧ z2 > 2 ∧ f.word = true then 2 else z2
      if z2 ≤ 2 ∧ f.gmin = true ∧ m = .u16 then some { s with wide := true, msize := some .w, t2 := oI16 }
      else some { s with wide := true, msize := some .d, t2 := oI32 }
    else if f.u8 = true then some { s with wide := true, msize := some .w, t2 := oI16 }
    else some { s with msize := some .b, t2 := oI8, t1 := oM08 }
  else some s

/-- check_size 2452-3025 (called if there are two or more operands). -/
def checkSize (m : Mode) (fam : Fam) (s : F) (f : Facts) : Option F :=
  match fam with
  | .lea => some s
  | .shift =>
    if s.t1 = oM then none
    else some (if opSize s s.t1 > 1 then { s with wide := true } else s)
  | .movx =>
    let z1 := opSize s s.t1
    let z2 := opSize s s.t2
    if z2 = 0 ∧ z1 ≠ 2 then none
    else if z1 = 8 ∨ z1 = 4 then
      if z2 < 2 then some { s with wide := false, opsiz := decide (m = .u16) }
      else if z2 = 2 then some { s with wide := true, opsiz := decide (m = .u16) }
      else none
    else if z1 = 2 then
      if z2 ≥ 2 then none else some { s with wide := false, opsiz := decide (m ≠ .u16) }
    else none
  | .imul => do checkDefault m (← checkImul s) f
  | _ => checkDefault m s f

/-! ### codegen.c -/

/-- What codegen() decides: prefix 66, wide bit, row (number in `forms`), and the constants that are written (operand, bytes). -/
structure Plan where
  opsiz : Bool
  wide : Bool
  rexW : Bool
  rex40 : Bool
  hi : Bool
  row : Nat
  imms : List (Nat × Nat)
  deriving DecidableEq, Repr

/-- Result for a row: it does not match, an error message, or a match. -/
inductive R
  | no
  | err
  | yes (opsiz : Bool) (imms : List (Nat × Nat))
  deriving DecidableEq, Repr

/-- The number of bytes output_data writes for a constant of this type, codegen.c 2690-2750. -/
def immLen (ty : Nat) : Nat :=
  if ty &&& oI8 ≠ 0 then 1 else if ty &&& oI16 ≠ 0 then 2 else if ty &&& oI32 ≠ 0 then 4 else 0

/-- output_data for operand `i` with this type, without displacements. -/
def immOut (i ty : Nat) : List (Nat × Nat) := if immLen ty = 0 then [] else [(i, immLen ty)]

/-- check_3rd_operand and output_3rd_operand, codegen.c 2858-2935 -/
def third (fam : Fam) (s : F) (f3 : Facts) : T3 → Option (List (Nat × Nat))
  | .none => if s.t3 = 0 then some [] else none
  | .cl => if s.t3 = oCL then some [] else none
  | .i8u =>
    if s.t3 &&& oI ≠ 0 ∧ (if fam = .imul then f3.i8 = true else f3.byte = true) then some [(2, 1)] else none
  | .i => if s.t3 &&& oI ≠ 0 then some (immOut 2 s.t3) else none

/-- One round of match_phase_3, codegen.c 3030-3240. `o1`: the argument opnd1. -/
def matchOp2 (m : Mode) (fam : Fam) (s : F) (o1 : Nat) (f2 f3 : Facts) (r : Form) : R :=
  let o2 := s.t2
  if r.t2 = oI then
    if o2 &&& oI ≠ 0 then
      if o1 &&& oR8 ≠ 0 then .yes false (immOut 0 o1 ++ [(1, 1)])
      else if o1 &&& oR16 ≠ 0 then .yes s.opsiz (immOut 0 o1 ++ [(1, 2)])
      else if o1 &&& oRGT16 ≠ 0 then .yes (decide (m = .u16)) (immOut 0 o1 ++ [(1, 4)])
      else if o1 &&& oM ≠ 0 then
        match opSize s o1 with
        | 1 => .yes false [(1, 1)]
        | 2 => .yes (decide (m ≠ .u16)) [(1, 2)]
        | 4 | 8 => .yes (decide (m = .u16)) [(1, 4)]
        | _ => .err
      else .yes s.opsiz (immOut 0 o1 ++ immOut 1 o2)
    else .no
  else if r.t2 = oI8U then
    if o2 &&& oI8U ≠ 0 ∧ ¬ (s.fixed = true ∧ o2 ≠ oI8) ∧ f2.byte = true then .yes s.opsiz (immOut 0 o1 ++ [(1, 1)]) else .no
  else if r.t2 = oI8 then
    let tbl :=
      if s.fixed = true then oI8
      else if o1 &&& (oR16 ||| oM16) ≠ 0 ∧ f2.s16 = true then oI8 ||| oI16
      else if o1 &&& (oRGT16 ||| oMGT16) ≠ 0 ∧ f2.i8 = true then oI8 ||| oI32
      else oI8
    if o2 &&& tbl ≠ 0 then .yes s.opsiz (immOut 0 o1 ++ [(1, 1)]) else .no
  else if r.t2 = oI1 then
    if o2 &&& oI1 ≠ 0 ∧ f2.one = true then .yes s.opsiz (immOut 0 o1) else .no
  else
    if o2 &&& r.t2 ≠ 0 then
      match third fam s f3 r.t3 with
      | none => .no
      | some l => .yes s.opsiz (immOut 0 o1 ++ immOut 1 o2 ++ l)
    else .no

/-- `( next->opnd_type[OPND1] & OP_M ) && next->first == FALSE` -/
def takesMem : Option Form → Bool
  | some n => decide (n.t1 &&& oM ≠ 0)
  | none => false

/-- check_operand_2, codegen.c 3246-3300. `next`: the next row if it belongs to the same mnemonic. -/
def checkOp2 (m : Mode) (fam : Fam) (s : F) (o1 : Nat) (f2 f3 : Facts) (r : Form) (next : Option Form) : R :=
  if s.t2 = 0 then
    if r.t2 ≠ 0 then .no
    else if o1 = oM ∧ takesMem next = true then .err
    else .yes s.opsiz (immOut 0 o1)
  else matchOp2 m fam s o1 f2 f3 r

/-- One row in codegen, 3400-3445. `o1`: the local variable opnd1. -/
def row (m : Mode) (fam : Fam) (s : F) (o1 : Nat) (f1 f2 f3 : Facts) (r : Form) (next : Option Form) : R :=
  if o1 &&& r.t1 = 0 then .no
  else if r.t1 = oI8U then (if f1.byte then checkOp2 m fam s oI8 f2 f3 r next else .no)
  else if r.t1 = oI3 then (if f1.three then checkOp2 m fam s 0 f2 f3 r next else .no)
  else checkOp2 m fam s s.t1 f2 f3 r next

/-- The loop of codegen(), 3395-3450: the rows of the mnemonic in their order. (The loop inside match_phase_3 goes on with rows
that have the same first operand type; codegen() would call match_phase_3 for them anyway.) -/
def scan (m : Mode) (fam : Fam) (s : F) (o1 : Nat) (f1 f2 f3 : Facts) (i : Nat) : List Form → Option Plan
  | [] => none
  | r :: rs =>
    match row m fam s o1 f1 f2 f3 r rs.head? with
    | .no => scan m fam s o1 f1 f2 f3 (i + 1) rs
    | .err => none
    | .yes opsiz imms =>
      some { opsiz, wide := s.wide && r.wds, rexW := s.rexW, rex40 := s.rex40, hi := s.hi, row := i, imms }

/-- opnd[].data32l, as far as it is compared: 0 for registers. (Rows for constants do not match memory operands.) -/
def AOp.facts : AOp → Facts
  | .imm f _ => f
  | _ => Facts.of 0

def factsAt (ops : List AOp) (i : Nat) : Facts :=
  match ops[i]? with
  | some o => o.facts
  | none => Facts.of 0

/-- The rows that are tried for three operands start with the first row that has a third operand, ParseLine 3948-3990. -/
def skip3 : Nat → List Form → Nat × List Form
  | i, [] => (i, [])
  | i, r :: rs => if r.t3 = .none then skip3 (i + 1) rs else (i, r :: rs)

/-- ParseLine 3650-4040 and codegen 3303-3455, without register numbers, addresses and values. -/
def plan (m : Mode) (fam : Fam) (ops : List AOp) : Option Plan :=
  match ops.length with
  | 0 => none
  | 1 => do
    let s ← procOps m fam 0 {} ops
    go s 0 (forms m fam)
  | 2 => do
    let s ← procOps m fam 0 {} ops
    let s ← checkSize m fam s (factsAt ops 1)
    go s 0 (forms m fam)
  | 3 => do
    let s ← procOps m fam 0 {} ops
    let s ← checkSize m fam s (factsAt ops 1)
    go s (skip3 0 (forms m fam)).1 (skip3 0 (forms m fam)).2
  | _ => none
where
  /-- codegen 3312-3325: types of a constant that is the first operand -/
  go (s : F) (i : Nat) (rs : List Form) : Option Plan :=
    let o1 := if s.t1 = oI8 then oI else if s.t1 = oI16 then oIGE16 else s.t1
    scan m fam s o1 (factsAt ops 0) (factsAt ops 1) (factsAt ops 2) i rs

/-! ### Output -/

/-- opndx[i] -/
def opAt (ops : List Src) (i : Nat) : Option Src := ops[i]?

/-- rm_byte and the bits R, B of rex for register operands: process_register 2224-2275, ParseLine 3996-4003 (IMUL), check_size
2578-2582 (shift by CL). -/
def rmRegs (mn : Mn) (ops : List Src) : Nat × Nat :=
  let (rm, rex) :=
    match opAt ops 0 with
    | some (.reg r) => (0xC0 ||| (r.no &&& 7), (r.no &&& 8) >>> 3)
    | _ => (0, 0)
  match opAt ops 1 with
  | some (.reg r2) =>
    match mn, opAt ops 0 with
    | .xchg, some (.reg ⟨.b, _, _⟩) => ((rm &&& 0xC7) ||| ((r2.no &&& 7) <<< 3), rex ||| ((r2.no &&& 8) >>> 1))
    | .xchg, some (.reg ⟨_, 0, _⟩) => ((rm &&& 0xC0) ||| (r2.no &&& 7), rex ||| ((r2.no &&& 8) >>> 3))
    | _, _ =>
      let rm := (rm &&& 0xC7) ||| ((r2.no &&& 7) <<< 3)
      let rex := rex ||| ((r2.no &&& 8) >>> 1)
      if mn.fam = .shift ∧ r2 = ⟨.b, 1, false⟩ then (rm &&& 0xC7, rex) else (rm, rex)
  | some (.imm _ _) =>
    if mn = .imul ∧ ops.length = 2 then ((rm &&& 0xC7) ||| ((rm &&& 7) <<< 3), rex ||| (if rex &&& 1 ≠ 0 then 4 else 0))
    else (rm, rex)
  | _ => (rm, rex)

/-- The exchange of the fields, output_opc 516-523. -/
def swapRm (dir : Bool) (p : Nat × Nat) : Nat × Nat :=
  if dir then
    ((p.1 &&& 0xC0) ||| ((p.1 >>> 3) &&& 7) ||| ((p.1 <<< 3) &&& 0x38), (p.2 &&& 0xFA) ||| ((p.2 &&& 4) >>> 2) ||| ((p.2 &&& 1) <<< 2))
  else p

/-- ModRM, SIB, displacement, prefix 67, segment prefix and bits R, X, B, for an instruction with ModRM byte; memory operands as in
`Verif.ModRM`. Rows with a register operand besides a memory operand have 0 in the rm_byte column. -/
def modrm (cx : Ctx) (mn : Mn) (dir : Bool) (digit : Nat) (ops : List Src) : Option ModRM.Enc :=
  match opAt ops 0, opAt ops 1 with
  | some (.mem _ ts), some (.reg r) =>
    if mn.fam = .shift ∧ r = ⟨.b, 1, false⟩ then (ModRM.assemble cx ts (.digit digit)).toOption
    else (ModRM.assemble cx ts (.regSecond r.no)).toOption
  | some (.mem _ ts), _ => (ModRM.assemble cx ts (.digit digit)).toOption
  | some (.reg r), some (.mem _ ts) => (ModRM.assemble cx ts (.regFirst r.no)).toOption
  | _, _ =>
    let (rm, rex) := swapRm dir (rmRegs mn ops)
    some { p67 := false, seg := none, rex := rex, bytes := [rm ||| (digit <<< 3)] }

/-- sr_prefix, codegen.c 149-150 -/
def segPrefix : Seg → Nat
  | .es => 0x26 | .cs => 0x2E | .ss => 0x36 | .ds => 0x3E | .fs => 0x64 | .gs => 0x65

/-- The value of a constant operand. -/
def immVal (ops : List Src) (i : Nat) : Int :=
  match opAt ops i with
  | some (.imm v _) => low32 v
  | _ => 0

/-- prefix.rex at the end: ParseLine 4006-4024. -/
def rexByte (m : Mode) (mn : Mn) (p : Plan) (rxb : Nat) : Nat :=
  let rex := (if p.rex40 then 0x40 else 0) + (if p.rexW then 8 else 0) + rxb
  if m = .u64 ∧ (mn = .push ∨ mn = .pop) then rex &&& 7 else rex

/-- Everything but the ModRM part: output_opc 440-530, 2260-2310, output_data. -/
def finish (m : Mode) (mn : Mn) (p : Plan) (esc : Bool) (opc : Nat) (e : ModRM.Enc) (ops : List Src) : Option (List Nat) :=
  let rex := rexByte m mn p e.rex
  if p.hi = true ∧ (p.rex40 = true ∨ p.rexW = true ∨ e.rex ≠ 0) then none
  else if rex ≠ 0 ∧ m ≠ .u64 then none
  else some ((if e.p67 then [0x67] else []) ++ (if p.opsiz then [0x66] else []) ++ (e.seg.map segPrefix).toList ++
    (if rex ≠ 0 then [rex ||| 0x40] else []) ++ (if esc then [0x0F] else []) ++ [opc] ++ e.bytes ++
    p.imms.flatMap fun q => leBytes (immVal ops q.1) q.2)

/-- output_opc, by rm_info, codegen.c 2296-2308. -/
def encode (cx : Ctx) (mn : Mn) (p : Plan) (ops : List Src) : Option (List Nat) := do
  let f ← (forms cx.mode mn.fam)[p.row]?
  let c ← (codes cx.mode mn)[p.row]?
  match f.kind with
  | .rm => do
    let e ← modrm cx mn f.dir c.2 ops
    finish cx.mode mn p f.esc (c.1 ||| (if p.wide then 1 else 0)) e ops
  | .noRM =>
    finish cx.mode mn p f.esc (c.1 ||| (if p.wide then 1 else 0)) ⟨false, none, (rmRegs mn ops).2, []⟩ ops
  | .inOp =>
    finish cx.mode mn p f.esc (c.1 ||| ((rmRegs mn ops).1 &&& 0x3F)) ⟨false, none, (rmRegs mn ops).2, []⟩ ops

/-- An instruction line. `cx`: mode of the code, segment prefix of the memory operand (there is at most one). -/
def assemble (cx : Ctx) (mn : Mn) (ops : List Src) : Option (List Nat) := do
  let as ← ops.mapM (Src.abs cx.mode)
  let p ← plan cx.mode mn.fam as
  encode cx mn p ops

end Verif.Ins
