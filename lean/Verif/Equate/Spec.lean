/-! # Specification: what the names of a source mean, pass by pass

A source is a list of lines that define names or use their values.  It is read from top to bottom as often as the
assembler makes passes.  A name has the value of its last definition above the line; a name not yet defined above has the
value it had at the end of the previous pass (a *forward reference*), and in the first pass it has none. -/
namespace Verif.Equate

abbrev Name := String

/-- Value of a name: a number, or an address (segment and offset). -/
inductive Val where
  | const (v : BitVec 64)
  | addr (seg : Nat) (ofs : BitVec 32)
  deriving DecidableEq, Repr

/-- Segment of a value, if it is an address. -/
def Val.seg : Val → Option Nat
  | .const _ => none
  | .addr s _ => some s

/-- Result of evaluating an expression: a number, an address given by its base and the number added to it, an
expression with a name that has no value (yet), or an error. -/
inductive Res where
  | const (v : BitVec 64)
  | addr (seg : Nat) (base : BitVec 32) (add : BitVec 64)
  | undef
  | bad
  deriving DecidableEq, Repr

def Res.value : Res → Option Val
  | .const v => some (.const v)
  | .addr s b a => some (.addr s (b + a.setWidth 32))
  | .undef => none
  | .bad => none

/-- Source lines, as they are after preprocessing. -/
inductive Line (E : Type) where
  /-- `x = e` -/
  | assign (x : Name) (e : E)
  /-- `x EQU e` -/
  | equ (x : Name) (e : E)
  /-- `x SIZESTR t` or `x INSTR t, u`, whose result is `n` -/
  | strvar (x : Name) (n : BitVec 32)
  /-- `x:` -/
  | label (x : Name)
  /-- an instruction or data item with the operand `e` -/
  | use (e : E)

abbrev Env := Name → Option Val

def Env.set (env : Env) (x : Name) (v : Val) : Env := fun y => if y = x then some v else env y

/-- Everything around the lines: what an expression means and where the location counter is, both depending on the pass
and on the line. -/
structure World (E : Type) where
  ev : Nat → Nat → E → Env → Res
  loc : Nat → Nat → Nat × BitVec 32

/-- What reading lines has done: the names' values, the definitions made, the numeric `EQU`s for names that had a value
(old and new), the names of `=` lines passed over because the expression had no value, and the operands' values. -/
structure Trace where
  env : Env
  defs : List (Name × Val) := []
  reequ : List (Name × Val × Val) := []
  skipped : List Name := []
  outs : List (Option Val) := []

def Trace.define (t : Trace) (x : Name) (v : Val) : Trace :=
  { t with env := t.env.set x v, defs := t.defs ++ [(x, v)] }

variable {E : Type}

/-- Reading one line in pass `p`. -/
def readLine (W : World E) (p : Nat) (i : Nat) (l : Line E) (t : Trace) : Trace :=
  match l with
  | .assign x e =>
    match (W.ev p i e t.env).value with
    | some v => t.define x v
    | none => { t with skipped := t.skipped ++ [x] }
  | .equ x e =>
    match (W.ev p i e t.env).value with
    | some v => { t.define x v with reequ := t.reequ ++ (match t.env x with | some o => [(x, o, v)] | none => []) }
    | none => t
  | .strvar x n => t.define x (.const (n.setWidth 64))
  | .label x => t.define x (.addr (W.loc p i).1 (W.loc p i).2)
  | .use e => { t with outs := t.outs ++ [(W.ev p i e t.env).value] }

/-- Reading numbered lines from top to bottom. -/
def readLines (W : World E) (p : Nat) : List (Nat × Line E) → Trace → Trace
  | [], t => t
  | (i, l) :: r, t => readLines W p r (readLine W p i l t)

/-- The lines with their numbers. -/
def numbered : Nat → List (Line E) → List (Nat × Line E)
  | _, [] => []
  | i, l :: r => (i, l) :: numbered (i + 1) r

/-- The passes over the source: each starts with the values the names had at the end of the one before. -/
def reading (W : World E) (src : List (Line E)) : Nat → Trace
  | 0 => readLines W 0 (numbered 0 src) { env := fun _ => none }
  | p + 1 => readLines W (p + 1) (numbered 0 src) { env := (reading W src p).env }

/-- The head of the source: the definitions above the first line that is a label, an instruction, a data item, or a
definition with a forward reference. -/
def head (W : World E) : List (Nat × Line E) → Env → List (Nat × Line E)
  | [], _ => []
  | (i, .assign x e) :: r, env =>
    match (W.ev 0 i e env).value with
    | some v => (i, .assign x e) :: head W r (env.set x v)
    | none => []
  | (i, .equ x e) :: r, env =>
    match (W.ev 0 i e env).value with
    | some v => (i, .equ x e) :: head W r (env.set x v)
    | none => []
  | (i, .strvar x n) :: r, env => (i, .strvar x n) :: head W r (env.set x (.const (n.setWidth 64)))
  | (_, .label _) :: _, _ => []
  | (_, .use _) :: _, _ => []

def headOf (W : World E) (src : List (Line E)) : List (Nat × Line E) := head W (numbered 0 src) (fun _ => none)

/-- The name a line defines. -/
def Line.target : Line E → Option Name
  | .assign x _ => some x
  | .equ x _ => some x
  | .strvar x _ => some x
  | .label x => some x
  | .use _ => none

/-- The names defined in the head of the source. -/
def InHead (W : World E) (src : List (Line E)) (x : Name) : Prop := ∃ l ∈ headOf W src, l.2.target = some x

/-- Values are never numbers in one place and addresses in another, or addresses in different segments. -/
def OneKind (W : World E) (src : List (Line E)) (x : Name) : Prop :=
  ∃ k, ∀ p, ∀ v, (x, v) ∈ (reading W src p).defs → v.seg = k

/-- The value of an expression in the head of the source depends only on names that have been defined above it: it is
the same in each pass. -/
def HeadConst (W : World E) (src : List (Line E)) : Prop :=
  ∀ l ∈ headOf W src, ∀ x e, (l.2 = .assign x e ∨ l.2 = .equ x e) → ∀ p (env env' : Env) v,
    (W.ev 0 l.1 e env).value = some v → (∀ y u, env y = some u → env' y = some u) →
    (W.ev p l.1 e env').value = some v

/-- A number of at most 32 bits. -/
def Val.small : Val → Prop
  | .const v => v.toNat < 2 ^ 32
  | .addr _ _ => False

/-- Sources whose names the assembler handles as it should:
- the head of the source means the same in each pass;
- a name defined in the head is always a number or always an address in one segment, its `=` lines have no forward
  reference, an `EQU` gives it the value it already has, and if it is also set by `SIZESTR` or `INSTR` its numbers have at
  most 32 bits;
- a name set by `SIZESTR` or `INSTR` is never an address;
- below the head, no name is defined both by `EQU` (or as a label) and by `=` (or `SIZESTR`, `INSTR`). -/
structure Regular (W : World E) (src : List (Line E)) : Prop where
  headConst : HeadConst W src
  kind : ∀ x, InHead W src x → OneKind W src x
  known : ∀ x, InHead W src x → x ∉ (reading W src 0).skipped
  same : ∀ x, InHead W src x → ∀ p o v, (x, o, v) ∈ (reading W src p).reequ → o = v
  small : ∀ x n, .strvar x n ∈ src → InHead W src x → ∀ p v, (x, v) ∈ (reading W src p).defs → v.small
  strs : ∀ x n, .strvar x n ∈ src → OneKind W src x
  unmixed : ∀ x, ¬ InHead W src x → ((∃ e, .equ x e ∈ src) ∨ .label x ∈ src) →
    (∀ e, .assign x e ∉ src) ∧ ∀ n, .strvar x n ∉ src

end Verif.Equate
