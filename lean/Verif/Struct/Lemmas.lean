import Verif.Struct.Spec
namespace Verif.Struct
open Spec

theorem and_not_add (y m : W) : (y &&& m) + (y &&& ~~~m) = y := by
  rw [BitVec.add_eq_or_of_and_eq_zero]
  · ext i hi; rw [BitVec.getElem_or, BitVec.getElem_and, BitVec.getElem_and, BitVec.getElem_not]
    cases y[i] <;> cases m[i] <;> rfl
  · ext i hi; rw [BitVec.getElem_and, BitVec.getElem_and, BitVec.getElem_and, BitVec.getElem_not]
    cases y[i] <;> cases m[i] <;> simp

theorem neg_eq_not (s : W) : -s = ~~~(s - 1) := by
  rw [BitVec.neg_eq_not_add]
  apply BitVec.eq_of_toNat_eq
  have := s.isLt
  have h11 : (1 : W).toNat = 1 := rfl
  simp only [BitVec.toNat_add, BitVec.toNat_not, BitVec.toNat_sub, BitVec.toNat_ofNat, h11]
  omega

theorem alignUp_eq (x s : W) :
    ((x + (s - 1)) &&& (s - 1)) + alignUp x s = x + (s - 1) := by
  unfold alignUp; rw [neg_eq_not]; exact and_not_add _ _

theorem alignUp_spec {x s : W} (h0 : 0 < s.toNat) (hx : x.toNat + s.toNat ≤ 2 ^ 32) :
    x.toNat ≤ (alignUp x s).toNat ∧ (alignUp x s).toNat < x.toNat + s.toNat ∧
    (Pow2 s.toNat → s.toNat ∣ (alignUp x s).toNat) := by
  have he := congrArg BitVec.toNat (alignUp_eq x s)
  have h1 : (s - 1).toNat = s.toNat - 1 := by
    have := s.isLt
    have h11 : (1 : W).toNat = 1 := rfl
    simp only [BitVec.toNat_sub, BitVec.toNat_ofNat, h11]; omega
  have h2 : (x + (s - 1)).toNat = x.toNat + (s.toNat - 1) := by
    rw [BitVec.toNat_add, h1]; omega
  have hand : ((x + (s - 1)) &&& (s - 1)).toNat = (x.toNat + (s.toNat - 1)) &&& (s.toNat - 1) := by
    rw [BitVec.toNat_and, h1, h2]
  have hle : ((x + (s - 1)) &&& (s - 1)).toNat ≤ s.toNat - 1 := by
    rw [hand]; exact Nat.and_le_right
  have hle2 : (alignUp x s).toNat ≤ x.toNat + (s.toNat - 1) := by
    unfold alignUp; rw [BitVec.toNat_and, h2]; exact Nat.and_le_left
  rw [BitVec.toNat_add, h2] at he
  have hsum : ((x + (s - 1)) &&& (s - 1)).toNat + (alignUp x s).toNat = x.toNat + (s.toNat - 1) := by
    have := (alignUp x s).isLt
    have h4 : ((x + (s - 1)) &&& (s - 1)).toNat + (alignUp x s).toNat
        = x.toNat + (s.toNat - 1)
        ∨ ((x + (s - 1)) &&& (s - 1)).toNat + (alignUp x s).toNat
        = x.toNat + (s.toNat - 1) + 2 ^ 32 := by omega
    rcases h4 with h4 | h4
    · exact h4
    · exfalso
      have : (x.toNat + (s.toNat - 1)) < 2 ^ 32 := by omega
      have hdis : (x + (s - 1)) &&& (s - 1) &&& alignUp x s = 0 := by
        unfold alignUp; rw [neg_eq_not]
        ext i hi; simp; cases (x + (s-1))[i] <;> cases (s - 1)[i] <;> simp_all
      have := BitVec.add_eq_or_of_and_eq_zero _ _ hdis
      have h5 := congrArg BitVec.toNat this
      rw [BitVec.toNat_add, BitVec.toNat_or] at h5
      have h6 : ((x + (s - 1)) &&& (s - 1)).toNat ||| (alignUp x s).toNat ≥ (alignUp x s).toNat :=
        Nat.right_le_or
      have h7 : ((x + (s - 1)) &&& (s - 1)).toNat ||| (alignUp x s).toNat ≥ ((x + (s - 1)) &&& (s - 1)).toNat :=
        Nat.left_le_or
      omega
  refine ⟨by omega, by omega, ?_⟩
  rintro ⟨k, hk⟩
  rw [hand, hk, Nat.and_two_pow_sub_one_eq_mod] at hsum
  rw [hk]
  have : (alignUp x s).toNat = (x.toNat + (2 ^ k - 1)) - (x.toNat + (2 ^ k - 1)) % 2 ^ k := by omega
  rw [this]
  exact Nat.dvd_sub_mod _

/-! ### Field lists -/

theorem entries_append (a b : Flds) : entries (a.append b) = entries a ++ entries b := by
  induction a with
  | nil => rfl
  | leaf n s o t r ih => simp [Flds.append, entries, ih]
  | node n o t h s r _ ih => simp [Flds.append, entries, ih]

theorem visible_append (a b : Flds) : visible (a.append b) = visible a ++ visible b := by
  induction a with
  | nil => rfl
  | leaf n s o t r ih => simp [Flds.append, visible, ih]
  | node n o t h s r _ ih => simp [Flds.append, visible, ih]

theorem nested_append (P) (a b : Flds) : Nested P (a.append b) ↔ Nested P a ∧ Nested P b := by
  induction a with
  | nil => simp [Flds.append, Nested]
  | leaf n s o t r ih => simp [Flds.append, Nested, ih]
  | node n o t h s r _ ih => simp [Flds.append, Nested, ih, and_assoc]

theorem nested_mono {P Q : Hdr → List Entry → Prop} (h : ∀ a b, P a b → Q a b) :
    ∀ fs, Nested P fs → Nested Q fs := by
  intro fs
  induction fs with
  | nil => intro; trivial
  | leaf n s o t r ih => exact ih
  | node n o t hd s r ih1 ih2 => exact fun ⟨⟨a, b⟩, c⟩ => ⟨⟨h _ _ a, ih1 b⟩, ih2 c⟩

theorem gaps_append (a p : Nat) (es : List Entry) (e : Entry) :
    Gaps a p (es ++ [e]) ↔ Gaps a p es ∧ e.off < endOf p es + max 1 (min e.size a) := by
  induction es generalizing p with
  | nil => simp [Gaps, endOf]
  | cons x xs ih => simp only [List.cons_append, Gaps, ih, endOf, and_assoc]

theorem endOf_append (p : Nat) (es : List Entry) (e : Entry) :
    endOf p (es ++ [e]) = e.off + e.bytes := by
  induction es generalizing p with
  | nil => simp [endOf]
  | cons x xs ih => simp only [List.cons_append, endOf, ih]

/-! ### Alignment argument -/

/-- The values `topAlign` can produce. -/
def GoodAlign (a : W) : Prop := Pow2 a.toNat ∧ a.toNat ≤ 32

theorem goodAlign_pos {a : W} (h : GoodAlign a) : 0 < a.toNat := by
  obtain ⟨⟨k, hk⟩, _⟩ := h
  rw [hk]; exact Nat.two_pow_pos k

theorem pow2_mem : ∀ k, k ≤ 5 → GoodAlign ((1 : W) <<< k) := by
  intro k hk
  have : k = 0 ∨ k = 1 ∨ k = 2 ∨ k = 3 ∨ k = 4 ∨ k = 5 := by omega
  rcases this with rfl | rfl | rfl | rfl | rfl | rfl
  · exact ⟨⟨0, by decide⟩, by decide⟩
  · exact ⟨⟨1, by decide⟩, by decide⟩
  · exact ⟨⟨2, by decide⟩, by decide⟩
  · exact ⟨⟨3, by decide⟩, by decide⟩
  · exact ⟨⟨4, by decide⟩, by decide⟩
  · exact ⟨⟨5, by decide⟩, by decide⟩

theorem powerLoop_pow (v : W) : ∀ n k, ∃ j, j ≤ n + k ∧ powerLoop v n ((1 : W) <<< k) = (1 : W) <<< j := by
  intro n
  induction n with
  | zero => intro k; exact ⟨k, by omega, rfl⟩
  | succ n ih =>
    intro k
    unfold powerLoop
    split
    · have : ((1 : W) <<< k) <<< (1 : Nat) = (1 : W) <<< (k + 1) := by
        rw [BitVec.shiftLeft_add]
      rw [this]
      obtain ⟨j, hj, he⟩ := ih (k + 1)
      exact ⟨j, by omega, he⟩
    · exact ⟨k, by omega, rfl⟩

theorem topAlign_good {arg fa a} (h : topAlign arg fa = some a) : GoodAlign a := by
  unfold topAlign at h
  split at h
  · injection h with h; subst h
    exact pow2_mem _ (by omega)
  · rename_i v
    split at h
    · exact absurd h (by simp)
    · rename_i hle
      split at h
      · rename_i hp
        injection h with h; subst h
        obtain ⟨j, hj, he⟩ := powerLoop_pow v 6 0
        have h1 : (1 : W) <<< 0 = 1 := by decide
        rw [h1, hp] at he
        have hj' : j ≤ 6 := by omega
        have : j = 6 ∨ j ≤ 5 := by omega
        rcases this with rfl | hj5
        · rw [he] at hle; exact absurd (by decide) hle
        · rw [he]; exact pow2_mem j hj5
      · exact absurd h (by simp)

/-! ### Name lookup -/

theorem search_none {n : Name} (hn : n ≠ []) : ∀ (fs : Flds) (lvl : Nat),
    search lvl n fs = some none → n ∉ (visible fs).map Prod.fst := by
  intro fs
  induction fs with
  | nil => intro lvl _; simp [visible]
  | leaf nm s o t r ih =>
    intro lvl h
    unfold search at h
    split at h
    · exact absurd h (by simp)
    · rename_i hne
      simp only [visible, List.map_append, List.mem_append, not_or]
      refine ⟨?_, ih lvl h⟩
      split
      · simp
      · rename_i h0; simp; intro e; exact hne ⟨h0, e⟩
  | node nm o t hd s r ih1 ih2 =>
    intro lvl h
    unfold search at h
    split at h
    · rename_i h0
      split at h
      · exact absurd h (by simp)
      · split at h
        · exact absurd h (by simp)
        · exact absurd h (by simp)
        · rename_i hs
          simp only [visible, if_pos h0, List.map_append, List.mem_append, not_or]
          refine ⟨?_, ih2 lvl h⟩
          have := ih1 _ hs
          simpa using this
    · rename_i h0
      split at h
      · exact absurd h (by simp)
      · rename_i hne
        simp only [visible, if_neg h0, List.map_append, List.mem_append, not_or]
        exact ⟨by simpa using hne, ih2 lvl h⟩

theorem checkAnon_disjoint (cur : Flds) : ∀ sub, checkAnon cur sub = true →
    ∀ n ∈ (visible sub).map Prod.fst, n ∉ (visible cur).map Prod.fst := by
  intro sub
  induction sub with
  | nil => intro _ n hn; simp [visible] at hn
  | leaf nm s o t r ih =>
    intro h n hn
    simp only [checkAnon, Bool.and_eq_true, Bool.or_eq_true, beq_iff_eq] at h
    simp only [visible, List.map_append, List.mem_append] at hn
    rcases hn with hn | hn
    · by_cases h0 : nm = []
      · simp [h0] at hn
      · simp [h0] at hn
        subst hn
        exact search_none h0 cur 0 (h.1.resolve_left h0)
    · exact ih h.2 n hn
  | node nm o t hd s r ih1 ih2 =>
    intro h n hn
    simp only [checkAnon, Bool.and_eq_true] at h
    simp only [visible, List.map_append, List.mem_append] at hn
    by_cases h0 : nm = []
    · simp only [if_pos h0] at h hn
      rcases hn with hn | hn
      · apply ih1 h.1 n
        simpa using hn
      · exact ih2 h.2 n hn
    · simp only [if_neg h0, beq_iff_eq] at h hn
      rcases hn with hn | hn
      · simp at hn; subst hn
        exact search_none h0 cur 0 h.1
      · exact ih2 h.2 n hn

end Verif.Struct
