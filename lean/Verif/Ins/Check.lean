import Verif.Ins.Spec
/-! # C64: the finite part: which row and which prefixes are chosen, for all kinds of operands -/
namespace Verif.Ins
open Verif.ModRM (Mode)

/-! ### All kinds of operands -/

def modes : List Mode := [.u16, .u32, .u64]

def fams : List Fam := [.ari, .shift, .un, .incdec, .test, .xchg, .imul, .lea, .movx, .bt, .bs, .xadd, .set, .cmov, .shxd, .push, .pop, .int]

def regKinds : List AOp := [
  .reg (oR8 ||| oA) false false, .reg oCL false false, .reg oR8 false false, .reg oR8 false true, .reg oR8 true false,
  .reg (oR16 ||| oA) false false, .reg oR16 false false, .reg oR16 true false,
  .reg (oR32 ||| oA) false false, .reg oR32 false false, .reg oR32 true false,
  .reg (oR64 ||| oA) true false, .reg oR64 true false]

def memKinds : List AOp := [.mem none, .mem (some .b), .mem (some .w), .mem (some .d), .mem (some .q)]

/-- All values of `Facts.of`. -/
def factKinds : List Facts := [
  ⟨false, false, false, false, false, false, true, true, false⟩,
  ⟨false, false, false, false, false, true, true, true, false⟩,
  ⟨false, true, false, false, false, false, true, true, false⟩,
  ⟨false, true, false, false, false, true, true, true, false⟩,
  ⟨false, true, false, false, false, false, true, true, true⟩,
  ⟨true, true, true, false, false, true, true, true, true⟩,
  ⟨true, true, true, false, false, true, false, false, true⟩,
  ⟨true, true, true, true, false, true, false, false, true⟩,
  ⟨true, true, true, false, true, true, false, false, true⟩,
  ⟨false, true, true, false, false, false, false, false, true⟩,
  ⟨false, true, false, false, false, false, false, true, true⟩,
  ⟨false, true, false, false, false, true, false, true, true⟩,
  ⟨false, false, false, false, false, false, true, true, true⟩,
  ⟨false, false, false, false, false, true, true, true, true⟩]

def immKinds : List AOp :=
  factKinds.flatMap fun f => [.imm f none, .imm f (some .b), .imm f (some .w), .imm f (some .d)]

def rmKinds : List AOp := regKinds ++ memKinds

def kinds : List AOp := rmKinds ++ immKinds

/-! ### The check -/

/-- A mnemonic of the family. -/
def rep : Fam → Mn
  | .ari => .add | .shift => .shl | .un => .neg | .incdec => .inc | .test => .test | .xchg => .xchg | .imul => .imul | .lea => .lea
  | .movx => .movsx | .bt => .bt | .bs => .bsf | .xadd => .xadd | .set => .set 0 | .cmov => .cmov 0 | .shxd => .shld | .push => .push
  | .pop => .pop | .int => .int

/-- The entry of the opcode map for a row. -/
def entryOf (m : Mode) (mn : Mn) (row : Nat) (wide : Bool) : Option Entry :=
  match (forms m mn.fam)[row]?, (codes m mn)[row]? with
  | some f, some c =>
    match f.kind with
    | .inOp => map1 m false (c.1 ||| 1) 0
    | _ => if f.esc then map2 (c.1 ||| (if wide then 1 else 0)) c.2 else map1 m false (c.1 ||| (if wide then 1 else 0)) c.2
  | _, _ => none

def famEntry (m : Mode) (fam : Fam) (row : Nat) (wide : Bool) : Option Entry := entryOf m (rep fam) row wide

def AOp.isReg : AOp → Bool
  | .reg _ _ _ => true
  | _ => false

def AOp.isMem : AOp → Bool
  | .mem _ => true
  | _ => false

def AOp.isImm : AOp → Bool
  | .imm _ _ => true
  | _ => false

/-- A register of this size in bytes. -/
def AOp.hasSize (n : Nat) : AOp → Bool
  | .reg ty _ _ => decide (ty &&& 0xF = sizeBit (szOf n)) && (n == 1 || n == 2 || n == 4 || n == 8)
  | _ => false

def AOp.memSize (n : Nat) : AOp → Bool
  | .mem none => true
  | .mem (some z) => z.bytes == n
  | _ => false

/-- Which operand is in ModRM.rm, in ModRM.reg (none: the digit of the row), in the opcode. -/
structure Slots where
  e : Option Nat
  g : Option Nat
  z : Option Nat
  deriving DecidableEq, Repr

def slots (fam : Fam) (f : Form) (o1 o2 : Option AOp) : Slots :=
  match f.kind, o1, o2 with
  | .noRM, _, _ => ⟨none, none, none⟩
  | .inOp, some (.reg ty _ _), some (.reg ty2 _ _) =>
    if fam = .xchg ∧ ty &&& oA ≠ 0 ∧ ty &&& oR8 = 0 then ⟨none, none, some 1⟩
    else if fam = .xchg ∧ ty &&& oR8 = 0 ∧ ty2 &&& oA ≠ 0 then ⟨none, none, some 0⟩
    else ⟨none, none, none⟩
  | .inOp, some (.reg _ _ _), _ => ⟨none, none, some 0⟩
  | .inOp, _, _ => ⟨none, none, none⟩
  | .rm, some (.reg ty _ _), some (.reg ty2 _ _) =>
    if fam = .shift then (if ty2 = oCL ∧ f.dir = false then ⟨some 0, none, none⟩ else ⟨none, none, none⟩)
    else if fam = .xchg ∧ ty &&& oA ≠ 0 ∧ ty &&& oR8 = 0 then ⟨none, none, none⟩
    else if f.dir then ⟨some 1, some 0, none⟩ else ⟨some 0, some 1, none⟩
  | .rm, some (.mem _), some (.reg ty2 _ _) =>
    if fam = .shift then (if ty2 = oCL then ⟨some 0, none, none⟩ else ⟨none, none, none⟩) else ⟨some 0, some 1, none⟩
  | .rm, some (.reg _ _ _), some (.mem _) => ⟨some 1, some 0, none⟩
  | .rm, some (.reg _ _ _), some (.imm _ _) =>
    if fam = .imul then ⟨some 0, some 0, none⟩ else if f.dir then ⟨none, none, none⟩ else ⟨some 0, none, none⟩
  | .rm, some (.reg _ _ _), none => if f.dir then ⟨none, none, none⟩ else ⟨some 0, none, none⟩
  | .rm, some (.mem _), _ => ⟨some 0, none, none⟩
  | .rm, _, _ => ⟨none, none, none⟩

/-- The operand `o` with number `i` is what the processor reads for `e`. -/
def okOp (osz : Nat) (s : Slots) (e : OE) (i : Nat) (o : AOp) : Bool :=
  match e, o with
  | .E w, o => decide (s.e = some i) && (o.hasSize (width osz w) || o.memSize (width osz w))
  | .M, o => decide (s.e = some i) && o.isMem
  | .G w, o => decide (s.g = some i) && o.hasSize (width osz w)
  | .A w, .reg ty _ _ => (AOp.reg ty false false).hasSize (width osz w) && decide (ty &&& oA ≠ 0)
  | .Z w, o => decide (s.z = some i) && o.hasSize (width osz w)
  | .cl, .reg ty _ _ => decide (ty = oCL)
  | .Ib w, .imm f _ => match width osz w with | 2 => f.s16 && f.word | 4 => f.i8 | 8 => f.i8 | _ => false
  | .I w, .imm f _ => (match width osz w with | 1 => f.byte | 2 => f.word | 4 => true | 8 => true | _ => false)
  | .U, .imm f _ => f.byte
  | .one, .imm f _ => f.one
  | .three, .imm f _ => f.three
  | _, _ => false

/-- The constants which the processor reads. -/
def needs (osz : Nat) : List OE → List Nat → List (Nat × Nat)
  | .Ib _ :: es, i :: is => (i, 1) :: needs osz es is
  | .I w :: es, i :: is => (i, min (width osz w) 4) :: needs osz es is
  | .U :: es, i :: is => (i, 1) :: needs osz es is
  | _ :: es, _ :: is => needs osz es is
  | _, _ => []

/-- The decoded operands are the operands of the source with the numbers `arr`. -/
def okArr (osz : Nat) (s : Slots) (ops : List AOp) : List OE → List Nat → Bool
  | [], [] => true
  | e :: es, i :: is => (match ops[i]? with | some o => okOp osz s e i o | none => false) && okArr osz s ops es is
  | _, _ => false

/-- Orders of operands with the same effect. -/
def arrs (fam : Fam) (ops : List AOp) : List (List Nat) :=
  let id := (List.range ops.length)
  if fam = .test ∨ fam = .xchg then [id, id.reverse]
  else if fam = .imul ∧ ops.length = 2 ∧ (ops[1]?).any AOp.isImm then [[0, 0, 1]]
  else [id]

def OE.isG : OE → Bool
  | .G _ => true
  | _ => false

/-- What the flags of CodeInfo say about the registers. -/
def okReg (fam : Fam) (p : Plan) : AOp → Bool
  | .reg ty p64 hi => (!p64 || p.rex40) && (!hi || p.hi) && (decide (ty &&& oR8 = 0) || (decide (fam ≠ .push) && decide (fam ≠ .pop)))
  | _ => true

/-- A 64-bit register or memory operand. -/
def AOp.isLong : AOp → Bool
  | .reg ty _ _ => decide (ty &&& oR64 ≠ 0)
  | .mem (some .q) => true
  | _ => false

/-- The entry reads a ModRM byte if one is written; its reg field holds a register if the entry wants one. -/
def okKind (f : Form) (e : Entry) (s : Slots) : Bool :=
  match f.kind with
  | .rm => e.ops.any OE.usesRM && s.e.isSome && decide (s.g.isSome = e.ops.any OE.isG)
  | _ => !(e.ops.any OE.usesRM)

/-- Registers in ModRM or in the opcode and the flags; encode fails if there is no 64-bit code but REX is needed, or AH with REX. -/
def okPlan (m : Mode) (fam : Fam) (ops : List AOp) (p : Plan) : Bool :=
  (m ≠ .u64 && (p.rexW || p.rex40)) || (p.hi && (p.rexW || p.rex40)) ||
  match (forms m fam)[p.row]?, famEntry m fam p.row p.wide with
  | some f, some e =>
    let osz := operandSize m p.opsiz (p.rexW && !(fam = .push || fam = .pop)) e.d64
    let s := slots fam f ops[0]? ops[1]?
    (!p.wide || f.wds) && okKind f e s && (ops.take 2).all (okReg fam p) && (osz != 8 || fam = .push || fam = .pop || ops.any AOp.isLong) &&
    (arrs fam ops).any fun a => okArr osz s ops e.ops a && decide (needs osz e.ops a = p.imms)
  | _, _ => false

/-- Sources that are left out: BYTE PTR with a constant that is no signed byte, WORD PTR with a constant that is no word; memory without size and a constant for which WORD is
assumed although it also fits a signed byte (0FF80h to 0FFFFh). -/
def skipImm : AOp → Bool
  | .imm f (some .b) => !f.i8
  | .imm f (some .w) => !f.word
  | _ => false

def skipOps (m : Mode) : List AOp → Bool
  | [.mem none, .imm f _] => decide (m ≠ .u16) && f.s16 && !f.i8 && !f.u16
  | _ => false

def check (m : Mode) (fam : Fam) (ops : List AOp) : Bool :=
  ops.any skipImm || skipOps m ops ||
  match plan m fam ops with
  | none => true
  | some p => okPlan m fam ops p

def check1 (m : Mode) : Bool := fams.all fun fam => kinds.all fun o => check m fam [o]

/-- Families with two operands. -/
def fams2 : List Fam := [.ari, .shift, .test, .xchg, .imul, .lea, .movx, .bt, .bs, .xadd, .cmov, .shxd]

/-- Two operands, the first one is the `i`th kind. -/
def check2 (m : Mode) (i : Nat) : Bool :=
  match rmKinds[i]? with
  | some o1 => fams2.all fun fam => kinds.all fun o2 => check m fam [o1, o2]
  | none => true

/-- The local variable opnd1 of codegen(), 3312-3325. -/
def first (t1 : Nat) : Nat := if t1 = oI8 then oI else if t1 = oI16 then oIGE16 else t1

/-- Whether there can be a row for three operands, judged by the first two. -/
def pre3 (m : Mode) (fam : Fam) (o1 o2 : AOp) : Bool :=
  match procOps m fam 0 {} [o1, o2] with
  | none => false
  | some s =>
    decide (s.t2 &&& oI ≠ 0) ||
    (((skip3 0 (forms m fam)).2.any fun r => decide (first s.t1 &&& r.t1 ≠ 0) && decide (s.t2 &&& r.t2 ≠ 0)) &&
      (decide (opSize s s.t1 = opSize s s.t2) || decide (opSize s s.t1 = 0) || decide (opSize s s.t2 = 0)))

/-- Three operands, the first one is the `i`th kind. -/
def check3 (m : Mode) (fam : Fam) (i : Nat) : Bool :=
  match rmKinds[i]? with
  | some o1 => rmKinds.all fun o2 => !(pre3 m fam o1 o2) || ((regKinds ++ immKinds).all fun o3 => check m fam [o1, o2, o3])
  | none => true

end Verif.Ins
