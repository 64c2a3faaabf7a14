import Verif.Assume.Model
import Verif.ModRM.Spec
/-!
# Specification for C56-C58

What ASSUME means to the programmer: the last statement about a register counts. Histories are given with the latest event first.
-/
namespace Verif.Assume
open Verif.ModRM (Seg Mode Reg Cls)

/-- The segment or group a register is assumed to hold (latest event first). `SEG x` stands for the segment of `x`, a segment
register for what that register is assumed to at that time. A new current segment makes CS hold the segment, or its group. -/
def assumedTo (e : Env) : List Event → Seg → Option Area
  | [], _ => none
  | .nothing :: _, _ => none
  | .item r a :: older, s =>
    if s = r then
      match a with
      | .error | .nothing => none
      | .area x => some x
      | .segOf x => x.map .seg
      | .reg r2 => assumedTo e older r2
      | .other => assumedTo e older s
    else assumedTo e older s
  | .segment x :: older, s =>
    if s = .cs then x.map fun n => match e.groupOf n with | some g => .grp g | none => .seg n
    else assumedTo e older s

/-- The register was last declared with ERROR. Leaving all segments declares CS with ERROR. -/
def declaredError : List Event → Seg → Bool
  | [], _ => false
  | .nothing :: _, _ => false
  | .item r a :: older, s =>
    if s = r then
      match a with
      | .error => true
      | .other => declaredError older s
      | _ => false
    else declaredError older s
  | .segment x :: older, s => if s = .cs then x.isNone else declaredError older s

/-- The frame of a label when nothing else is said: its group, or else its segment. -/
def ownFrame (e : Env) (n : Nat) : Area := match e.groupOf n with | some g => .grp g | none => .seg n

/-- Run time: the linear addresses where segments and groups start, and what the segment registers hold. -/
structure World where
  base : Area → Int
  reg : Seg → Int

/-- At run time the registers hold what they are assumed to hold. -/
def Honoured (e : Env) (h : List Event) (w : World) : Prop :=
  ∀ r a, assumedTo e h r = some a → w.reg r = w.base a

/-- A register gives access to a label in segment `n`: it is assumed to the segment or to the group of the segment. -/
def Reaches (e : Env) (h : List Event) (n : Nat) (r : Seg) : Prop :=
  assumedTo e h r = some (.seg n) ∨ ∃ g, e.groupOf n = some g ∧ assumedTo e h r = some (.grp g)

/-- The register is assumed to FLAT. -/
def FlatReg (e : Env) (h : List Event) (r : Seg) : Prop := ∃ f, e.flat = some f ∧ assumedTo e h r = some (.grp f)

/-! ### String instructions -/

/-- The operand that the processor addresses through SI (DS, or the segment in the prefix), and the one through DI (ES). -/
def Str.source (k : Str) (o1 o2 : Option Seg) : Option (Option Seg) :=
  match k with
  | .cmps => some o1 | .movs => some o2 | .lods => some o1 | .stos => none

def Str.dest (k : Str) (o1 o2 : Option Seg) : Option (Option Seg) :=
  match k with
  | .cmps => some o2 | .movs => some o1 | .lods => none | .stos => some o1

/-- The segments of the source are those the processor uses when the prefix is `p`. -/
def Str.Honours (k : Str) (o1 o2 p : Option Seg) : Prop :=
  (∀ o, k.source o1 o2 = some o → o.getD .ds = p.getD .ds) ∧ (∀ r, k.dest o1 o2 = some (some r) → r = .es)

/-! ### General registers -/

/-- The last statement about exactly this register was ERROR (latest event first). -/
def declaredErrorG : List GEvent → GReg → Bool
  | [], _ => false
  | .nothing :: _, _ => false
  | .item r a :: older, s =>
    if s = r then (match a with | .error => true | _ => false) else declaredErrorG older s

/-- The registers that exist. -/
def GReg.ok (r : GReg) : Prop := r.no < 16 ∧ (r.cls = .hi → 4 ≤ r.no ∧ r.no ≤ 7)

end Verif.Assume
