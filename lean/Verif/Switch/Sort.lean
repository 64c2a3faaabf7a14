import Verif.Switch.Model
import Mathlib.Data.List.Perm.Basic
namespace Verif.Switch

theorem exch_perm (x : Int × Nat) (l : List (Int × Nat)) : ((exch x l).1 :: (exch x l).2).Perm (x :: l) := by
  induction l generalizing x with
  | nil => simp [exch]
  | cons y ys ih =>
    unfold exch
    split
    · have h := ih y
      exact (List.Perm.swap _ _ _).trans ((h.cons x))
    · have h := ih x
      exact ((List.Perm.swap _ _ _).trans (h.cons y)).trans (List.Perm.swap _ _ _)

theorem exch_length (x : Int × Nat) (l : List (Int × Nat)) : (exch x l).2.length = l.length := by
  have := (exch_perm x l).length_eq
  simpa using this

theorem exch_le (x : Int × Nat) (l : List (Int × Nat)) :
    (exch x l).1.1 ≤ x.1 ∧ ∀ y ∈ (exch x l).2, (exch x l).1.1 ≤ y.1 := by
  induction l generalizing x with
  | nil => simp [exch]
  | cons y ys ih =>
    unfold exch
    split
    · rename_i h
      obtain ⟨h1, h2⟩ := ih y
      refine ⟨by simp only; omega, ?_⟩
      intro z hz
      simp only [List.mem_cons] at hz
      rcases hz with rfl | hz
      · simp only; omega
      · exact h2 z hz
    · rename_i h
      obtain ⟨h1, h2⟩ := ih x
      refine ⟨h1, ?_⟩
      intro z hz
      simp only [List.mem_cons] at hz
      rcases hz with rfl | hz
      · simp only; omega
      · exact h2 z hz

theorem exsort_perm (n : Nat) (l : List (Int × Nat)) : (exsort n l).Perm l := by
  induction n generalizing l with
  | zero => exact List.Perm.refl _
  | succ n ih =>
    cases l with
    | nil => exact List.Perm.refl _
    | cons x xs => exact ((ih _).cons _).trans (exch_perm x xs)

theorem exsort_sorted (n : Nat) (l : List (Int × Nat)) (h : l.length ≤ n) :
    (exsort n l).Pairwise (fun a b => a.1 ≤ b.1) := by
  induction n generalizing l with
  | zero =>
    have : l = [] := List.length_eq_zero_iff.mp (by omega)
    subst this; exact List.Pairwise.nil
  | succ n ih =>
    cases l with
    | nil => exact List.Pairwise.nil
    | cons x xs =>
      simp only [exsort, List.pairwise_cons]
      refine ⟨?_, ih _ (by rw [exch_length]; simpa using h)⟩
      intro y hy
      exact (exch_le x xs).2 y ((exsort_perm _ _).mem_iff.mp hy)

theorem sort_perm (l : List (Int × Nat)) : (sortCases l).Perm l := exsort_perm _ _

theorem sort_sorted (l : List (Int × Nat)) (h : (l.map (·.1)).Nodup) :
    (sortCases l).Pairwise (fun a b => a.1 < b.1) := by
  have h1 := exsort_sorted l.length l (Nat.le_refl _)
  have h2 : ((sortCases l).map (·.1)).Nodup := ((sort_perm l).map _).nodup_iff.mpr h
  have h3 : (sortCases l).Pairwise (fun a b => a.1 ≠ b.1) := List.pairwise_map.mp h2
  exact (h1.and h3).imp (fun ⟨a, b⟩ => by omega)

end Verif.Switch
