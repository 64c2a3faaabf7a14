import Verif.Context.Model
/-!
# Specification for C31: one independent stack for each kind of setting

Only the vocabulary (`Kind`, `Module`, the types of the settings) is shared with the model.
-/
namespace Verif.Context

/-- What the user sees of a kind of settings. For a general register: the error flags and the assumed type, if any. -/
inductive Setting
  | assumes (seg : Fin 6 → SegAssume) (gpr : Fin 16 → Nat × Option TypeInfo)
  | radix (r : Nat)
  | listing (l : Listing)
  | cpu (cpu currCpu : Nat)
  | alignment (fieldalign procalign : Nat)

def look (m : Module) : Kind → Setting
  | .assumes => .assumes m.seg fun i => ((m.std i).error, if (m.std i).assumed then some (m.syms i).info else none)
  | .radix => .radix m.radix
  | .listing => .listing m.listing
  | .cpu => .cpu m.cpu m.currCpu
  | .alignment => .alignment m.fieldalign m.procalign

/-- The abstract machine. -/
structure Abs where
  cur : Kind → Setting
  saved : Kind → List Setting

/-- `f` at the kinds of the list, `g` elsewhere -/
def Abs.push (a : Abs) (ks : List Kind) : Abs :=
  { a with saved := fun k => if k ∈ ks then a.cur k :: a.saved k else a.saved k }

/-- Every kind of the list whose stack is not empty gets its last value. -/
def Abs.pop (a : Abs) (ks : List Kind) : Abs :=
  { cur := fun k => if k ∈ ks then (a.saved k).headD (a.cur k) else a.cur k
    saved := fun k => if k ∈ ks then (a.saved k).tail else a.saved k }

/-- The operands of the directive up to the first error, and whether there is none. -/
def operands (strict : Bool) : List Tok → List (List Kind) × Bool
  | [] => ([], true)
  | .id name :: rest =>
    match name, strict with
    | "ALIGNMENT", true => ([], false)
    | _, _ =>
      let ks : Option (List Kind) :=
        if name = "ASSUMES" then some [.assumes]
        else if name = "RADIX" then some [.radix]
        else if name = "LISTING" then some [.listing]
        else if name = "CPU" then some [.cpu]
        else if name = "ALIGNMENT" then some [.alignment]
        else if name = "ALL" then some [.assumes, .radix, .listing, .cpu]
        else none
      match ks with
      | none => ([], false)
      | some ks =>
        let r := match rest with
          | .comma :: t :: rest => operands strict (t :: rest)
          | rest => operands strict rest
        (ks :: r.1, r.2)
  | _ => ([], false)

def Abs.pushAll (a : Abs) (ops : List (List Kind)) : Abs := ops.foldl Abs.push a

/-- POPCONTEXT stops at the first operand with a missing item. -/
def Abs.popAll (a : Abs) : List (List Kind) → Abs × Bool
  | [] => (a, true)
  | ks :: ops => if ∀ k ∈ ks, a.saved k ≠ [] then (a.pop ks).popAll ops else (a.pop ks, false)

/-- A line of the program: something that leaves the module in a certain state, or one of the directives. -/
inductive Op
  | set (m : Module)
  | push (strict : Bool) (toks : List Tok)
  | pop (strict : Bool) (toks : List Tok)

/-- The abstract machine executes a line; the second component is whether there is no error. -/
def Abs.step (a : Abs) : Op → Abs × Bool
  | .set m => ({ a with cur := look m }, true)
  | .push strict toks => (a.pushAll (operands strict toks).1, (operands strict toks).2)
  | .pop strict toks =>
    let r := a.popAll (operands strict toks).1
    (r.1, r.2 && (operands strict toks).2)

def Abs.run (a : Abs) : List Op → Abs × List Bool
  | [] => (a, [])
  | op :: ops =>
    let r := a.step op
    let q := r.1.run ops
    (q.1, r.2 :: q.2)

/-- The program, on the model of the code; none if a loop doesn't end. -/
def step (s : St) : Op → Option (St × Bool)
  | .set m => some ({ s with m := m }, true)
  | .push strict toks => (contextDirective false strict s toks).map fun r => (r.1, r.2.isNone)
  | .pop strict toks => (contextDirective true strict s toks).map fun r => (r.1, r.2.isNone)

def run (s : St) : List Op → Option (St × List Bool)
  | [] => some (s, [])
  | op :: ops => do
    let r ← step s op
    let q ← run r.1 ops
    return (q.1, r.2 :: q.2)

/-- How a line changes the depth of the stack of a kind, if it isn't in error. -/
def Op.delta (k : Kind) : Op → Int
  | .set _ => 0
  | .push strict toks => (operands strict toks).1.countP (k ∈ ·)
  | .pop strict toks => - (operands strict toks).1.countP (k ∈ ·)

/-- A sequence of lines that leaves the stack of a kind as high as it was, and never takes items that it hasn't pushed. -/
def Balanced (k : Kind) (ops : List Op) : Prop :=
  (ops.map (Op.delta k)).sum = 0 ∧ ∀ n ≤ ops.length, 0 ≤ ((ops.take n).map (Op.delta k)).sum

end Verif.Context
