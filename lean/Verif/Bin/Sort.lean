import Verif.Bin.Spec
/-! # Proofs: SortSegments -/
namespace Verif.Bin
open Spec

/-- A strict weak order given by its "greater" test. -/
structure WeakOrder (gt : Seg → Seg → Bool) : Prop where
  asymm : ∀ a b, gt a b = true → gt b a = false
  trans : ∀ a b c, gt a b = false → gt b c = false → gt a c = false

theorem pass_perm (gt : Seg → Seg → Bool) : ∀ l : List Seg, (sortPass gt l).2.Perm l
  | [] => .refl _
  | [_] => .refl _
  | x :: y :: r => by
    rw [sortPass]
    split
    · exact (((pass_perm gt r).cons x).cons y).trans (.swap x y r)
    · exact (pass_perm gt (y :: r)).cons x

/-- Number of pairs in the wrong order. -/
def inversions (gt : Seg → Seg → Bool) : List Seg → Nat
  | [] => 0
  | x :: r => r.countP (gt x) + inversions gt r

theorem pass_inv {gt : Seg → Seg → Bool} (hw : WeakOrder gt) : ∀ l : List Seg,
    inversions gt (sortPass gt l).2 ≤ inversions gt l ∧
    ((sortPass gt l).1 = true → inversions gt (sortPass gt l).2 < inversions gt l)
  | [] => ⟨Nat.le_refl _, fun h => by simp [sortPass] at h⟩
  | [_] => ⟨Nat.le_refl _, fun h => by simp [sortPass] at h⟩
  | x :: y :: r => by
    rw [sortPass]
    split
    · rename_i hgt
      have ih := (pass_inv hw r).1
      have hp := pass_perm gt r
      have hyx := hw.asymm x y hgt
      have e1 : inversions gt (y :: x :: (sortPass gt r).2)
          = r.countP (gt y) + (r.countP (gt x) + inversions gt (sortPass gt r).2) := by
        simp only [inversions, List.countP_cons, hyx]
        rw [hp.countP_eq, hp.countP_eq]; simp
      have e2 : inversions gt (x :: y :: r)
          = r.countP (gt x) + 1 + (r.countP (gt y) + inversions gt r) := by
        simp only [inversions, List.countP_cons, hgt]; simp
      simp only [e1, e2]
      omega
    · obtain ⟨i1, i2⟩ := pass_inv hw (y :: r)
      have hp := pass_perm gt (y :: r)
      have e1 : inversions gt (x :: (sortPass gt (y :: r)).2)
          = (y :: r).countP (gt x) + inversions gt (sortPass gt (y :: r)).2 := by
        show List.countP _ _ + _ = _
        rw [hp.countP_eq]
      have e2 : inversions gt (x :: y :: r) = (y :: r).countP (gt x) + inversions gt (y :: r) := rfl
      simp only [e1, e2]
      exact ⟨by omega, fun h => by have := i2 h; omega⟩

/-- A pass without change leaves the list as it is, and it is sorted. -/
theorem pass_fixed {gt : Seg → Seg → Bool} (hw : WeakOrder gt) : ∀ l : List Seg,
    (sortPass gt l).1 = false → (sortPass gt l).2 = l ∧ l.Pairwise (fun a b => gt a b = false)
  | [], _ => ⟨rfl, .nil⟩
  | [_], _ => ⟨rfl, List.pairwise_singleton _ _⟩
  | x :: y :: r, h => by
    rw [sortPass] at h ⊢
    by_cases hgt : gt x y = true
    · rw [if_pos hgt] at h; simp at h
    · rw [if_neg hgt] at h ⊢
      obtain ⟨i1, i2⟩ := pass_fixed hw (y :: r) h
      refine ⟨by rw [i1], ?_⟩
      rw [List.pairwise_cons]
      refine ⟨?_, i2⟩
      have hxy : gt x y = false := by simpa using hgt
      intro b hb
      rcases List.mem_cons.1 hb with rfl | hb
      · exact hxy
      · exact hw.trans x y b hxy ((List.pairwise_cons.1 i2).1 b hb)

/-- Elements that compare equal to `a`. -/
def equiv (gt : Seg → Seg → Bool) (a b : Seg) : Bool := !gt a b && !gt b a

theorem pass_stable {gt : Seg → Seg → Bool} (hw : WeakOrder gt) (a : Seg) : ∀ l : List Seg,
    (sortPass gt l).2.filter (equiv gt a) = l.filter (equiv gt a)
  | [] => rfl
  | [_] => rfl
  | x :: y :: r => by
    rw [sortPass]
    split
    · rename_i hgt
      have ih := pass_stable hw a r
      have hne : ¬ (equiv gt a x = true ∧ equiv gt a y = true) := by
        rintro ⟨h1, h2⟩
        simp only [equiv, Bool.and_eq_true, Bool.not_eq_true'] at h1 h2
        rw [hw.trans x a y h1.2 h2.1] at hgt
        simp at hgt
      simp only [List.filter_cons, ih]
      cases h1 : equiv gt a x <;> cases h2 : equiv gt a y
      · simp
      · simp
      · simp
      · exact absurd ⟨h1, h2⟩ hne
    · have ih := pass_stable hw a (y :: r)
      simp only [List.filter_cons] at ih ⊢
      rw [ih]

theorem sort_ok {gt : Seg → Seg → Bool} (hw : WeakOrder gt) : ∀ (n : Nat) (l : List Seg),
    inversions gt l ≤ n → ∃ out, sortSegments gt l = some out ∧ out.Perm l ∧
      out.Pairwise (fun a b => gt a b = false) ∧
      ∀ a, out.filter (equiv gt a) = l.filter (equiv gt a) := by
  intro n
  induction n with
  | zero =>
    intro l hn
    have h := (pass_inv hw l).2
    have hc : (sortPass gt l).1 = false := by
      cases hc : (sortPass gt l).1 with
      | false => rfl
      | true => have := h hc; omega
    obtain ⟨f1, f2⟩ := pass_fixed hw l hc
    refine ⟨l, ?_, .refl _, f2, fun _ => rfl⟩
    rw [sortSegments.eq_def, hc, f1]; simp
  | succ n ih =>
    intro l hn
    cases hc : (sortPass gt l).1 with
    | false =>
      obtain ⟨f1, f2⟩ := pass_fixed hw l hc
      refine ⟨l, ?_, .refl _, f2, fun _ => rfl⟩
      rw [sortSegments.eq_def, hc, f1]; simp
    | true =>
      have h := (pass_inv hw l).2 hc
      obtain ⟨out, o1, o2, o3, o4⟩ := ih (sortPass gt l).2 (by omega)
      refine ⟨out, ?_, o2.trans (pass_perm gt l), o3, ?_⟩
      · rw [sortSegments.eq_def, hc, if_pos rfl]; exact o1
      · intro a; rw [o4 a, pass_stable hw a l]

theorem strGt_asymm : ∀ a b : List Char, strGt a b = true → strGt b a = false
  | [], _, h => by simp [strGt] at h
  | _ :: _, [], _ => rfl
  | x :: xs, y :: ys, h => by
    rw [strGt] at h ⊢
    by_cases h1 : y.toNat < x.toNat
    · rw [if_neg (by omega), if_pos h1]
    · rw [if_neg h1] at h
      by_cases h2 : x.toNat < y.toNat
      · rw [if_pos h2] at h; simp at h
      · rw [if_neg h2] at h
        rw [if_neg h2, if_neg h1]; exact strGt_asymm xs ys h

theorem strGt_trans : ∀ a b c : List Char, strGt a b = false → strGt b c = false → strGt a c = false
  | [], _, _, _, _ => by simp [strGt]
  | _ :: _, [], _, h, _ => by simp [strGt] at h
  | _ :: _, _ :: _, [], _, h => by simp [strGt] at h
  | x :: xs, y :: ys, z :: zs, h, k => by
    rw [strGt] at h k ⊢
    by_cases h1 : y.toNat < x.toNat
    · rw [if_pos h1] at h; simp at h
    · rw [if_neg h1] at h
      by_cases k1 : z.toNat < y.toNat
      · rw [if_pos k1] at k; simp at k
      · rw [if_neg k1] at k
        rw [if_neg (by omega)]
        by_cases hz : x.toNat < z.toNat
        · rw [if_pos hz]
        · rw [if_neg hz]
          rw [if_neg (by omega)] at h k
          exact strGt_trans xs ys zs h k

theorem gtFile_order : WeakOrder gtFile where
  asymm a b h := by simp only [gtFile, decide_eq_true_eq, decide_eq_false_iff_not] at h ⊢; omega
  trans a b c h k := by simp only [gtFile, decide_eq_false_iff_not] at h k ⊢; omega

theorem gtName_order : WeakOrder gtName where
  asymm a b h := strGt_asymm _ _ h
  trans a b c h k := strGt_trans _ _ _ h k

theorem gtSect_order : WeakOrder gtSect where
  asymm a b h := by
    simp only [gtSect, Bool.or_eq_true, Bool.and_eq_true, decide_eq_true_eq] at h
    simp only [gtSect, Bool.or_eq_false_iff, Bool.and_eq_false_iff, decide_eq_false_iff_not]
    rcases h with h | ⟨h1, h2⟩
    · exact ⟨by omega, .inl (by omega)⟩
    · exact ⟨by omega, .inr (strGt_asymm _ _ h2)⟩
  trans a b c h k := by
    simp only [gtSect, Bool.or_eq_false_iff, Bool.and_eq_false_iff, decide_eq_false_iff_not] at h k ⊢
    refine ⟨by omega, ?_⟩
    by_cases e : a.lname = c.lname
    · right
      rcases h.2 with h2 | h2
      · omega
      · rcases k.2 with k2 | k2
        · omega
        · exact strGt_trans _ _ _ h2 k2
    · left; exact e

end Verif.Bin
