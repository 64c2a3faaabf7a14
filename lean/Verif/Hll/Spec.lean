import Verif.Hll.Model
/-!
# Specification for C28: conditions, their C-like meaning, and execution of the generated code

Nothing here uses the functions of the model, only its types of operands, tokens and lines.
-/
namespace Verif.Hll

/-! ## The processor -/

/-- The status flags that conditional jumps use. -/
structure Flags where
  (z c s o p : Bool)
  deriving DecidableEq, Repr

/-- Result of a floating-point comparison. -/
inductive FOrd | lt | eq | gt | unordered
  deriving DecidableEq, Repr

/-- The contents of registers and memory: none of the generated instructions changes them. `wid` is the operand size of the
instruction with this first operand. -/
structure Env (α : Type) where
  wid : α → Nat
  val : α → (w : Nat) → BitVec w
  fcmp : Bool → α → α → FOrd

def parity {w : Nat} (x : BitVec w) : Bool :=
  (((List.range 8).map fun i => (x.getLsbD i).toNat).foldl (· + ·) 0) % 2 == 0

/-- CMP x, y -/
def cmpFlags {w : Nat} (x y : BitVec w) : Flags where
  z := x == y
  c := x.ult y
  s := (x - y).msb
  o := (x.msb != y.msb) && ((x - y).msb != x.msb)
  p := parity (x - y)

/-- TEST x, y; OR x, x for x = y -/
def testFlags {w : Nat} (x y : BitVec w) : Flags where
  z := x &&& y == 0
  c := false
  s := (x &&& y).msb
  o := false
  p := parity (x &&& y)

/-- UCOMISS, UCOMISD -/
def ucomiFlags (r : FOrd) : Flags where
  z := r == .eq || r == .unordered
  c := r == .lt || r == .unordered
  s := false
  o := false
  p := r == .unordered

def Ins.exec {α : Type} (env : Env α) : Ins α → Flags
  | .test a b => testFlags (env.val a (env.wid a)) (env.val b (env.wid a))
  | .or a b => -- flags of x OR y
    let x := env.val a (env.wid a) ||| env.val b (env.wid a)
    { z := x == 0, c := false, s := x.msb, o := false, p := parity x }
  | .cmp a b => cmpFlags (env.val a (env.wid a)) (env.val b (env.wid a))
  | .cmp0 a => cmpFlags (env.val a (env.wid a)) 0
  | .ucomi dbl a b => ucomiFlags (env.fcmp dbl a b)

/-- The condition of a jump mnemonic (Intel SDM vol. 2, Jcc). -/
def jumpCond (m : List Char) : Option (Flags → Bool) :=
  if m = ['j', 'm', 'p', ' '] then some fun _ => true
  else if m = ['j', 'z', ' ', ' '] ∨ m = ['j', 'e', ' ', ' '] then some fun f => f.z
  else if m = ['j', 'n', 'z', ' '] ∨ m = ['j', 'n', 'e', ' '] then some fun f => !f.z
  else if m = ['j', 'c', ' ', ' '] ∨ m = ['j', 'b', ' ', ' '] then some fun f => f.c
  else if m = ['j', 'n', 'c', ' '] ∨ m = ['j', 'n', 'b', ' '] ∨ m = ['j', 'a', 'e', ' '] then some fun f => !f.c
  else if m = ['j', 's', ' ', ' '] then some fun f => f.s
  else if m = ['j', 'n', 's', ' '] then some fun f => !f.s
  else if m = ['j', 'o', ' ', ' '] then some fun f => f.o
  else if m = ['j', 'n', 'o', ' '] then some fun f => !f.o
  else if m = ['j', 'p', ' ', ' '] then some fun f => f.p
  else if m = ['j', 'n', 'p', ' '] then some fun f => !f.p
  else if m = ['j', 'a', ' ', ' '] then some fun f => !f.c && !f.z
  else if m = ['j', 'b', 'e', ' '] ∨ m = ['j', 'n', 'a', ' '] then some fun f => f.c || f.z
  else if m = ['j', 'l', ' ', ' '] then some fun f => f.s != f.o
  else if m = ['j', 'g', 'e', ' '] ∨ m = ['j', 'n', 'l', ' '] then some fun f => f.s == f.o
  else if m = ['j', 'l', 'e', ' '] ∨ m = ['j', 'n', 'g', ' '] then some fun f => f.z || f.s != f.o
  else if m = ['j', 'g', ' ', ' '] then some fun f => !f.z && f.s == f.o
  else none

def Mnem.chars (m : Mnem) : List Char := [m.c0, m.c1, m.c2, m.c3]

/-- The line where a label is defined. -/
def defOf {α : Type} (l : Nat) : List (Line α) → Option Nat
  | [] => none
  | .label l' :: t => if l' = l then some 0 else (defOf l t).map (· + 1)
  | _ :: t => (defOf l t).map (· + 1)

/-- How a piece of code is left: at its end, or by a jump to a label that is not in it. -/
inductive Exit | fall | to (l : Nat)
  deriving DecidableEq, Repr

/-- Execution of a piece of code from line `pc`. -/
inductive Run {α : Type} (env : Env α) (code : List (Line α)) : Nat → Flags → Exit → Flags → Prop
  | done {pc f} : pc = code.length → Run env code pc f .fall f
  | ins {pc f i x f'} : code[pc]? = some (.ins i) → Run env code (pc + 1) (i.exec env) x f' → Run env code pc f x f'
  | label {pc f l x f'} : code[pc]? = some (.label l) → Run env code (pc + 1) f x f' → Run env code pc f x f'
  | skip {pc f m l c x f'} : code[pc]? = some (.jump m l) → jumpCond m.chars = some c → c f = false →
      Run env code (pc + 1) f x f' → Run env code pc f x f'
  | jump {pc f m l c k x f'} : code[pc]? = some (.jump m l) → jumpCond m.chars = some c → c f = true →
      defOf l code = some k → Run env code k f x f' → Run env code pc f x f'
  | leave {pc f m l c} : code[pc]? = some (.jump m l) → jumpCond m.chars = some c → c f = true →
      defOf l code = none → Run env code pc f (.to l) f

/-! ## Conditions -/

/-- An operand in `n` pairs of parentheses. -/
structure OpE (α : Type) where
  o : Opnd α
  n : Nat := 0

inductive Atom (α : Type)
  | val (a : OpE α)
  | cmp (c : Cmp) (a b : OpE α)
  | band (a b : OpE α)
  | flag (f : FlagOp)

mutual
/-- `!` and parentheses -/
inductive Simple (α : Type)
  | atom (a : Atom α)
  | not (s : Simple α)
  | paren (e : OrE α)
/-- `s && s && ...` -/
inductive AndE (α : Type)
  | one (s : Simple α)
  | cons (s : Simple α) (rest : AndE α)
/-- `a || a || ...` -/
inductive OrE (α : Type)
  | one (a : AndE α)
  | cons (a : AndE α) (rest : OrE α)
end

/-! ### Source text -/

def OpE.print {α : Type} (a : OpE α) : List (Tok α) :=
  List.replicate a.n .lpar ++ [.opnd a.o] ++ List.replicate a.n .rpar

def Atom.print {α : Type} : Atom α → List (Tok α)
  | .val a => a.print
  | .cmp c a b => a.print ++ [.cop (.cmp c)] ++ b.print
  | .band a b => a.print ++ [.cop .andb] ++ b.print
  | .flag f => [.cop (.flag f)]

mutual
def Simple.print {α : Type} : Simple α → List (Tok α)
  | .atom a => a.print
  | .not s => .cop .neg :: s.print
  | .paren e => .lpar :: (e.print ++ [.rpar])
def AndE.print {α : Type} : AndE α → List (Tok α)
  | .one s => s.print
  | .cons s rest => s.print ++ .cop .and :: rest.print
def OrE.print {α : Type} : OrE α → List (Tok α)
  | .one a => a.print
  | .cons a rest => a.print ++ .cop .or :: rest.print
end

/-! ### Meaning

The value of a condition together with the flags afterwards, because a flag condition such as `CARRY?` behind `&&` sees
the flags left by the conditions that have been evaluated before it. -/

/-- An SSE comparison: an XMM register with another one or with memory. -/
def isFloat {α : Type} (a b : Opnd α) : Prop :=
  a.kind = .reg ∧ ((a.xmm = true ∧ b.kind = .reg ∧ b.xmm = true) ∨
    (a.size16 = true ∧ (b.kind = .regInd ∨ b.kind = .addr)))

instance {α : Type} (a b : Opnd α) : Decidable (isFloat a b) := by unfold isFloat; infer_instance

def relInt (c : Cmp) (signed : Bool) {w : Nat} (x y : BitVec w) : Bool :=
  match c with
  | .eq => x == y
  | .ne => x != y
  | .lt => if signed then x.toInt < y.toInt else x.toNat < y.toNat
  | .le => if signed then x.toInt ≤ y.toInt else x.toNat ≤ y.toNat
  | .gt => if signed then x.toInt > y.toInt else x.toNat > y.toNat
  | .ge => if signed then x.toInt ≥ y.toInt else x.toNat ≥ y.toNat

def relFloat (c : Cmp) (r : FOrd) : Bool :=
  match c with
  | .eq => r == .eq
  | .ne => r != .eq
  | .lt => r == .lt
  | .le => r == .lt || r == .eq
  | .gt => r == .gt
  | .ge => r == .gt || r == .eq

def flagVal (f : Flags) : FlagOp → Bool
  | .zero | .equal => f.z
  | .carry | .below => f.c
  | .sign => f.s
  | .parity => f.p
  | .overflow => f.o
  | .less => f.s != f.o
  | .greater => !f.z && f.s == f.o
  | .above => !f.c && !f.z

def Atom.eval {α : Type} (env : Env α) : Atom α → Flags → Bool × Flags
  | .val a, f =>
    match a.o.kind with
    | .const v => (v != 0, f)
    | _ => let x := env.val a.o.ref (env.wid a.o.ref); (x != 0, cmpFlags x 0)
  | .cmp c a b, _ =>
    if isFloat a.o b.o then
      let r := env.fcmp (a.o.real8 || b.o.real8) a.o.ref b.o.ref
      (relFloat c r, ucomiFlags r)
    else
      let w := env.wid a.o.ref
      let x := env.val a.o.ref w
      let y := env.val b.o.ref w
      (relInt c (a.o.signed || b.o.signed) x y, cmpFlags x y)
  | .band a b, _ =>
    let w := env.wid a.o.ref
    let x := env.val a.o.ref w
    let y := env.val b.o.ref w
    (x &&& y != 0, testFlags x y)
  | .flag op, f => (flagVal f op, f)

mutual
def Simple.eval {α : Type} (env : Env α) : Simple α → Flags → Bool × Flags
  | .atom a, f => a.eval env f
  | .not s, f => let r := s.eval env f; (!r.1, r.2)
  | .paren e, f => e.eval env f
def AndE.eval {α : Type} (env : Env α) : AndE α → Flags → Bool × Flags
  | .one s, f => s.eval env f
  | .cons s rest, f => let r := s.eval env f; if r.1 then rest.eval env r.2 else (false, r.2)
def OrE.eval {α : Type} (env : Env α) : OrE α → Flags → Bool × Flags
  | .one a, f => a.eval env f
  | .cons a rest, f => let r := a.eval env f; if r.1 then (true, r.2) else rest.eval env r.2
end

/-! ### Conditions that are accepted and meant as operands are meant -/

/-- The comparisons the directives allow: a constant has to fit in 32 bits; real constants and
comparisons of an XMM register with a constant are errors; constants have their value in the environment. -/
def Atom.ok {α : Type} (env : Env α) : Atom α → Prop
  | .val a => a.o.kind ≠ .float ∧
      ∀ v, a.o.kind = .const v → v.toInt ≠ -2 ^ 32 ∧ -2 ^ 32 ≤ v.toInt ∧ v.toInt < 2 ^ 32
  | .cmp _ a b => a.o.kind ≠ .float ∧
      (a.o.kind = .reg → a.o.size16 = true → b.o.kind.isConst = false ∧ b.o.kind ≠ .float) ∧
      (isFloat a.o b.o → (a.o.signed || b.o.signed) = false ∧
        env.fcmp (a.o.real8 || b.o.real8) a.o.ref b.o.ref ≠ .unordered) ∧
      (∀ v, b.o.kind = .const v → ∀ w, env.val b.o.ref w = v.setWidth w) ∧
      0 < env.wid a.o.ref
  | .band a _ => a.o.kind ≠ .float
  | .flag _ => True

mutual
def Simple.hasOp {α : Type} : Simple α → Bool
  | .atom (.val _) => false
  | .atom _ => true
  | .not _ => true
  | .paren e => e.hasOp
def AndE.hasOp {α : Type} : AndE α → Bool
  | .one s => s.hasOp
  | .cons _ _ => true
def OrE.hasOp {α : Type} : OrE α → Bool
  | .one a => a.hasOp
  | .cons _ _ => true
end

mutual
/-- All atoms are ok, and parentheses around a plain operand are counted as part of the operand (`OpE.n`). -/
def Simple.ok {α : Type} (env : Env α) : Simple α → Prop
  | .atom a => a.ok env
  | .not s => s.ok env
  | .paren e => e.hasOp = true ∧ e.ok env
def AndE.ok {α : Type} (env : Env α) : AndE α → Prop
  | .one s => s.ok env
  | .cons s rest => s.ok env ∧ rest.ok env
def OrE.ok {α : Type} (env : Env α) : OrE α → Prop
  | .one a => a.ok env
  | .cons a rest => a.ok env ∧ rest.ok env
end

end Verif.Hll
