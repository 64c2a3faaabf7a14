/-!
# Branches to a label of the same segment (`/repo/branch.c` process_branch, `/repo/codegen.c`)
-/
namespace Verif.Branch

/-- Offset size of the segment or of a type coercion (USE16, USE32, USE64). -/
inductive Ofs | use16 | use32 | use64
  deriving DecidableEq, Repr

/-- The `byte1_info` entry of JCXZ and LOOPcc, `H/instruct.h` 90-109. -/
inductive Adr | none | a16 | a32
  deriving DecidableEq, Repr

/-- JCXZ/JECXZ/JRCXZ (E3), LOOP (E2), LOOPE/LOOPZ (E1), LOOPNE/LOOPNZ (E0). -/
inductive Xop | cxz | loop | loope | loopne
  deriving DecidableEq, Repr

/-- Branch instructions with immediate operand, `H/instruct.h` 30-109; `c` is the condition code. -/
inductive Kind | jmp | jcc (c : BitVec 4) | call | xcx (x : Xop) (a : Adr)
  deriving DecidableEq, Repr

/-- Distance written in the operand: none, SHORT, or a coercion NEAR/NEAR16/NEAR32 PTR. FAR is not modelled. -/
inductive Dist | none | short | near (o : Option Ofs)
  deriving DecidableEq, Repr

/-- Segment offset size, cpu >= 386, OPTION LJMP. -/
structure Ctx where
  ofs : Ofs
  cpu386 : Bool
  ljmp : Bool
  deriving DecidableEq, Repr

/-- The instruction; `addend` is `opndx->value` (the `n` in `jmp label+n`), `bnd` the BND prefix. -/
structure Br where
  kind : Kind
  dist : Dist
  bnd : Bool
  addend : BitVec 32
  deriving DecidableEq, Repr

inductive BErr
  | shortCall        -- CANNOT_USE_SHORT_WITH_CALL
  | outOfRange       -- JUMP_OUT_OF_RANGE, ONLY_SHORT_JUMP_DISTANCE_IS_ALLOWED
  | notPossible      -- JUMP_DISTANCE_NOT_POSSIBLE / JUMP_OUT_OF_RANGE, cpu < 386
  | prefixNotAllowed -- INSTRUCTION_PREFIX_NOT_ALLOWED
  | requires386      -- INSTRUCTION_FORM_REQUIRES_80386
  deriving DecidableEq, Repr

/-- Operand type OP_I8, OP_I16, OP_I32. -/
inductive OpType | i8 | i16 | i32
  deriving DecidableEq, Repr

def Kind.isCall : Kind → Bool | .call => true | _ => false
def Kind.isXcx : Kind → Bool | .xcx _ _ => true | _ => false
def Kind.isJcc : Kind → Bool | .jcc _ => true | _ => false
def Dist.isNear : Dist → Bool | .near _ => true | _ => false

/-- Is a 0x67 prefix emitted? `branch.c` 287-289. -/
def adrByte (c : Ctx) : Kind → Bool
  | .xcx _ .a16 => c.ofs ≠ .use16
  | .xcx _ .a32 => c.ofs ≠ .use32
  | _ => false

/-- 0x67 as `output_opc` emits it, `codegen.c` 316-327 (differs from `adrByte` for 16-bit JCXZ in 64-bit mode, which does not
exist). -/
def adrByteOut (c : Ctx) : Kind → Bool
  | .xcx _ .a16 => c.ofs = .use32
  | .xcx _ .a32 => c.ofs ≠ .use32
  | _ => false

/-- What `process_branch` leaves in `CodeInfo`: code already written (by jumpExtend), instruction, operand type, displacement,
operand size prefix. -/
structure Out where
  pre : List (BitVec 8)
  kind : Kind
  type : OpType
  disp : BitVec 32
  opsiz : Bool
  deriving DecidableEq, Repr

/-- Opcode of the short conditional jump. -/
def jccShort (c : BitVec 4) : BitVec 8 := 0x70#8 + c.setWidth 8

/-- `jumpExtend`, near, `branch.c` 73-110: inverted condition over the jump that follows. -/
def jumpExtend (c : Ctx) (cc : BitVec 4) : List (BitVec 8) :=
  [jccShort cc ^^^ 1#8, if c.ofs ≠ .use16 then 5#8 else 3#8]

/-- The near part of `process_branch`, `branch.c` 328-352: operand type, displacement, operand size prefix. -/
def nearForm (c : Ctx) (b : Br) (addr : BitVec 32) : OpType × BitVec 32 × Bool :=
  let (t, a, p) : OpType × BitVec 32 × Bool :=
    match b.dist with
    | .near (some o) =>
      let p := decide (c.ofs ≠ o)
      let a := if o = .use16 then addr - 1 else addr - 3
      (if o = .use16 then .i16 else .i32, if p then a - 1 else a, p)
    | _ => if c.ofs ≠ .use16 then (.i32, addr - 3, false) else (.i16, addr - 1, false)
  (t, if b.kind.isJcc then a - 1 else a, p)

/-- `process_branch` for a label in the current segment (state SYM_INTERNAL, or SYM_UNDEFINED up to line 390), `branch.c` 258-390.
`cur` is GetCurrOffset(), `addr0` the value of `addr` at line 283. Not modelled: FAR, segment overrides, far call optimisation. -/
def processBranch (c : Ctx) (b : Br) (cur addr0 : BitVec 32) : Except BErr Out :=
  let addr := addr0 - (cur + 2) + b.addend
  let addr := if adrByte c b.kind then addr - 1 else addr
  let addr := if b.bnd then addr - 1 else addr
  if !b.dist.isNear && !b.kind.isCall && ((-128#32).sle addr && addr.sle 127#32) then
    .ok ⟨[], b.kind, .i8, addr, false⟩
  else if b.dist = .short ∨ b.kind.isXcx then
    if b.kind.isCall then .error .shortCall else .error .outOfRange
  else
    let (t, a, p) := nearForm c b addr
    match b.kind with
    | .jcc cc =>
      if c.cpu386 then .ok ⟨[], b.kind, t, a, p⟩
      else if !b.dist.isNear && c.ljmp then .ok ⟨jumpExtend c cc, .jmp, t, a - 1, p⟩
      else .error .notPossible
    | k => .ok ⟨[], k, t, a, p⟩

def Xop.opcode : Xop → BitVec 8 | .cxz => 0xE3 | .loop => 0xE2 | .loope => 0xE1 | .loopne => 0xE0

/-- Opcode bytes of the table entry that `codegen()` selects, `H/instruct.h` 30-109. CALL has no 8-bit form. -/
def opcode : Kind → OpType → List (BitVec 8)
  | .call, _ => [0xE8#8]
  | .jmp, .i8 => [0xEB#8]
  | .jmp, _ => [0xE9#8]
  | .jcc c, .i8 => [jccShort c]
  | .jcc c, _ => [0x0F#8, 0x80#8 + c.setWidth 8]
  | .xcx x _, _ => [x.opcode]

/-- `output_data`: the low bytes of the operand, `codegen.c` 2742-2835. -/
def dispBytes (t : OpType) (d : BitVec 32) : List (BitVec 8) :=
  match t with
  | .i8 => [d.setWidth 8]
  | .i16 => [d.setWidth 8, (d >>> 8).setWidth 8]
  | .i32 => [d.setWidth 8, (d >>> 8).setWidth 8, (d >>> 16).setWidth 8, (d >>> 24).setWidth 8]

/-- `codegen` for a branch: prefixes (`output_opc`, `codegen.c` 256-272, 316-327, 468-508), opcode, displacement. -/
def emit (c : Ctx) (b : Br) (o : Out) : Except BErr (List (BitVec 8)) :=
  if b.bnd ∧ o.kind.isXcx then .error .prefixNotAllowed
  else if o.opsiz ∧ !c.cpu386 then .error .requires386
  else .ok (o.pre ++ (if b.bnd then [0xF2#8] else []) ++ (if adrByteOut c o.kind then [0x67#8] else []) ++
    (if o.opsiz then [0x66#8] else []) ++ opcode o.kind o.type ++ dispBytes o.type o.disp)

/-- Bytes written for a branch whose label's address is taken to be `target`. -/
def assemble (c : Ctx) (b : Br) (cur target : BitVec 32) : Except BErr (List (BitVec 8)) := do
  emit c b (← processBranch c b cur target)

end Verif.Branch
