/-! # What the string functions should return (independent of the model) -/

namespace Verif.Strings.Spec

/-- `sub` occurs in `s` at the 1-based position `k`. -/
def OccursAt (s sub : List Nat) (k : Nat) : Prop :=
  ∃ a b, s = a ++ sub ++ b ∧ a.length + 1 = k

/-- The position of the first occurrence at or after `start`; 0 if there is none (or if the text sought
is empty). -/
def Position (s sub : List Nat) (start k : Nat) : Prop :=
  (sub ≠ [] ∧ start ≤ k ∧ OccursAt s sub k ∧ ∀ j, start ≤ j → j < k → ¬ OccursAt s sub j) ∨
  (k = 0 ∧ (sub = [] ∨ ∀ j, start ≤ j → ¬ OccursAt s sub j))

/-- `r` is the part of `s` that starts at the 1-based position `pos` and has `size` characters. -/
def IsPart (s : List Nat) (pos size : Nat) (r : List Nat) : Prop :=
  ∃ a b, s = a ++ r ++ b ∧ a.length + 1 = pos ∧ r.length = size

end Verif.Strings.Spec
