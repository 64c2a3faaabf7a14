import Verif.Switch.Tables
import Verif.Switch.Sort
namespace Verif.Switch

/-- where a switch on the number `v` goes -/
def tgt (dl : Lbl) (cs : List (Int × Nat)) (v : Int) : Lbl :=
  match cs.find? (fun c => c.1 == v) with
  | some c => .case c.2
  | none => dl

/-- sorted cases, 32 bits, not too far apart -/
structure Good (s : List (Int × Nat)) : Prop where
  asc : s.Pairwise (fun a b => a.1 < b.1)
  rng : ∀ c ∈ s, -2147483648 ≤ c.1 ∧ c.1 < 2147483648
  spn : ∀ c ∈ s, ∀ d ∈ s, c.1 - d.1 < 536870912

theorem wrap32_id (v : Int) (h : -2147483648 ≤ v ∧ v < 2147483648) : wrap32 v = v := by
  unfold wrap32; rw [BitVec.toInt_ofInt]; exact Int.bmod_eq_of_le (by omega) (by omega)

theorem wrap64_id (v : Int) (h : -9223372036854775808 ≤ v ∧ v < 9223372036854775808) : wrap64 v = v := by
  unfold wrap64; rw [BitVec.toInt_ofInt]; exact Int.bmod_eq_of_le (by omega) (by omega)

theorem minOf_mem (s : List (Int × Nat)) (h : s ≠ []) : ∃ c ∈ s, minOf s = c.1 := by
  cases s with
  | nil => exact absurd rfl h
  | cons c s => exact ⟨c, by simp, rfl⟩

theorem minOf_le (s : List (Int × Nat)) (h : s.Pairwise (fun a b => a.1 < b.1)) (c) (hc : c ∈ s) : minOf s ≤ c.1 := by
  cases s with
  | nil => simp at hc
  | cons d s =>
    simp only [List.mem_cons] at hc
    rcases hc with rfl | hc
    · simp [minOf]
    · have := (List.pairwise_cons.mp h).1 c hc
      simp only [minOf]; omega

theorem maxOf_mem (s : List (Int × Nat)) (h : s ≠ []) : ∃ c ∈ s, maxOf s = c.1 := by
  unfold maxOf
  rw [List.getLast?_eq_some_getLast h]
  exact ⟨_, List.getLast_mem h, rfl⟩

theorem le_maxOf (s : List (Int × Nat)) (h : s.Pairwise (fun a b => a.1 < b.1)) (c) (hc : c ∈ s) : c.1 ≤ maxOf s := by
  induction s with
  | nil => simp at hc
  | cons d s ih =>
    have h' := List.pairwise_cons.mp h
    by_cases hs : s = []
    · subst hs
      simp only [List.mem_cons, List.not_mem_nil, or_false] at hc
      subst hc; simp [maxOf]
    · have e : maxOf (d :: s) = maxOf s := by
        unfold maxOf
        rw [List.getLast?_cons_of_ne_nil hs]
      rw [e]
      simp only [List.mem_cons] at hc
      rcases hc with rfl | hc
      · obtain ⟨k, hk, hk'⟩ := maxOf_mem s hs
        have := h'.1 k hk
        omega
      · exact ih h'.2 hc

theorem temp_eq (m : Mode) (me : Method) (s : List (Int × Nat)) (h : Good s) (c) (hc : c ∈ s) :
    tempOf m me (minOf s) c.1 = c.1 - minOf s := by
  obtain ⟨d, hd, e⟩ := minOf_mem s (fun h => by simp [h] at hc)
  have h1 := h.rng c hc
  have h2 := h.rng d hd
  have h3 := h.spn c hc d hd
  have h4 := minOf_le s h.asc c hc
  rw [e] at h4 ⊢
  unfold tempOf
  split
  · split
    · rw [wrap32_id _ h1]
    · rw [wrap64_id _ (by omega)]
  · rw [wrap32_id _ (by omega)]

theorem temps_eq {α : Type} (m : Mode) (me : Method) (s : List (Int × Nat)) (h : Good s) (f : Nat → α) :
    (s.map fun c => (tempOf m me (minOf s) c.1, f c.2)) = s.map fun c => (c.1 - minOf s, f c.2) := by
  apply List.map_congr_left
  intro c hc
  rw [temp_eq m me s h c hc]

theorem asc_shift {α : Type} (s : List (Int × Nat)) (h : Good s) (f : Nat → α) :
    Asc 0 (s.map fun c => (c.1 - minOf s, f c.2)) := by
  constructor
  · intro d hd
    simp only [List.mem_map] at hd
    obtain ⟨c, hc, rfl⟩ := hd
    have := minOf_le s h.asc c hc
    simp only; omega
  · rw [List.pairwise_map]
    exact h.asc.imp (fun h => by simp only; omega)

theorem find_mem (s : List (Int × Nat)) (h : s.Pairwise (fun a b => a.1 < b.1)) (c) (hc : c ∈ s) :
    s.find? (fun d => d.1 == c.1) = some c := by
  induction s with
  | nil => simp at hc
  | cons d s ih =>
    have h' := List.pairwise_cons.mp h
    simp only [List.mem_cons] at hc
    rcases hc with rfl | hc
    · simp
    · have := h'.1 c hc
      rw [List.find?_cons_of_neg (by simp; omega)]
      exact ih h'.2 hc

theorem find_none (s : List (Int × Nat)) (v : Int) (h : ∀ l, (v, l) ∉ s) :
    s.find? (fun d => d.1 == v) = none := by
  rw [List.find?_eq_none]
  rintro ⟨a, b⟩ hab
  simp only [beq_iff_eq]
  rintro rfl
  exact h b hab

theorem mem_or (s : List (Int × Nat)) (v : Int) : (∃ l, (v, l) ∈ s) ∨ ∀ l, (v, l) ∉ s := by
  by_cases h : ∃ l, (v, l) ∈ s
  · exact .inl h
  · exact .inr fun l hl => h ⟨l, hl⟩

theorem jump_lookup (m : Mode) (dl : Lbl) (s : List (Int × Nat)) (hg : Good s) (hne : s ≠ [])
    (a : List Lbl) (ha : parseRows (table6 m dl s) = some a)
    (hs : span 0 (s.map fun c => (c.1 - minOf s, c.2)) = 0 ∨
      s.length + 2 * span 0 (s.map fun c => (c.1 - minOf s, c.2)) ≤ 75)
    (v : Int) (h1 : minOf s ≤ v) (h2 : v ≤ maxOf s) :
    a[(v - minOf s).toNat]? = some (tgt dl s v) := by
  have t1 := temps_eq m .jump s hg id
  have t2 := temps_eq m .jump s hg Lbl.case
  simp only [id] at t1
  have e := table6_spec m dl s a ha (by rw [t1]; exact asc_shift s hg id) (by rw [t1]; exact hs)
  rw [t2] at e
  have hasc := asc_shift s hg Lbl.case
  rw [e]
  unfold tgt
  rcases mem_or s v with ⟨l, hl⟩ | hl
  · rw [find_mem s hg.asc _ hl]
    have := lay_hit dl _ 0 hasc (v - minOf s) (.case l) (by
      simp only [List.mem_map]; exact ⟨_, hl, rfl⟩)
    rw [List.getElem?_append_left, show v - minOf s = v - minOf s - 0 by omega, this]
    rw [show v - minOf s - 0 = v - minOf s by omega] at this
    exact (List.getElem?_eq_some_iff.mp this).1
  · rw [find_none s v hl]
    have := lay_miss dl _ 0 hasc (v - minOf s) (by omega) (by
        intro b hb
        simp only [List.mem_map, Prod.mk.injEq] at hb
        obtain ⟨⟨c1, c2⟩, hc, hc', _⟩ := hb
        simp only at hc'
        have : c1 = v := by omega
        subst this
        exact hl _ hc) (by
        obtain ⟨c, hc, hc'⟩ := maxOf_mem s hne
        refine ⟨_, List.mem_map.mpr ⟨c, hc, rfl⟩, by simp only; omega⟩)
    rw [show v - minOf s - 0 = v - minOf s by omega] at this
    rw [List.getElem?_append_left (List.getElem?_eq_some_iff.mp this).1, this]

theorem dedup_length (p : Nat) (l : List Nat) : (dedup p l).length ≤ l.length := by
  induction l generalizing p with
  | nil => simp [dedup]
  | cons x xs ih =>
    simp only [dedup]
    have := ih x
    split <;> simp <;> omega

theorem table2_flat (m : Mode) (me : Method) (acnt : Nat) (s : List (Int × Nat)) (hg : Good s) (b : List Int)
    (hb : parseRows (table2 m me acnt s) = some b) :
    ∃ x, b = lay (acnt : Int) 0 (runs 0 (s.map fun c => (c.1 - minOf s, c.2))) ++ x := by
  have t1 := temps_eq m me s hg id
  simp only [id] at t1
  have e := t2Loop_spec m me (minOf s) acnt s {} (by rw [t1]; exact asc_shift s hg id)
  rw [t1] at e
  simp only [T2.all, flat_nil, items_nil, List.nil_append] at e
  rw [parseRows_items _ _ hb]
  unfold table2
  simp only
  split
  · refine ⟨items ((t2Loop m me (minOf s) acnt s {}).cur.drop
      ((t2Loop m me (minOf s) acnt s {}).cur.length - (if s.length = 1 then 1 else 2))), ?_⟩
    rw [← e]; simp
  · exact ⟨[], by rw [← e]; simp⟩

theorem both_lookup (m : Mode) (me : Method) (dl : Lbl) (s : List (Int × Nat)) (hg : Good s) (hne : s ≠ [])
    (hl0 : ∀ c ∈ s, c.2 ≠ 0) (hn : s.length % 75 ≠ 0)
    (a : List Lbl) (ha : parseRows (table1 dl s).1 = some a)
    (b : List Int) (hb : parseRows (table2 m me (table1 dl s).2 s) = some b)
    (v : Int) (h1 : minOf s ≤ v) (h2 : v ≤ maxOf s) :
    ∃ k : Nat, b[(v - minOf s).toNat]? = some (k : Int) ∧ a[k]? = some (tgt dl s v) ∧ k ≤ s.length := by
  obtain ⟨ea, eacnt⟩ := table1_spec dl s a ha hn
  obtain ⟨x, eb⟩ := table2_flat m me _ s hg b hb
  have hasc := asc_shift s hg id
  simp only [id] at hasc
  generalize hS : (s.map fun c => (c.1 - minOf s, c.2)) = S at hasc eb
  have hSl : S.map (·.2) = s.map (·.2) := by rw [← hS]; simp
  have hasc' : Asc 0 (runs 0 S) := by
    have hf := runs_fst 0 S
    constructor
    · intro c hc
      have : c.1 ∈ (runs 0 S).map (·.1) := List.mem_map.mpr ⟨c, hc, rfl⟩
      rw [hf] at this
      obtain ⟨d, hd, e⟩ := List.mem_map.mp this
      rw [← e]; exact hasc.1 d hd
    · have := List.pairwise_map.mpr hasc.2
      rw [show (List.map (fun b : Int × Nat => b.1) S) = (runs 0 S).map (·.1) from hf.symm] at this
      exact List.pairwise_map.mp this
  have hlen := dedup_length 0 (s.map (·.2))
  simp only [List.length_map] at hlen
  unfold tgt
  rcases mem_or s v with ⟨l, hl⟩ | hl
  · rw [find_mem s hg.asc _ hl]
    cases hs : s with
    | nil => exact absurd hs hne
    | cons c0 s0 =>
      have hS0 : S = (c0.1 - minOf s, c0.2) :: s0.map (fun c => (c.1 - minOf s, c.2)) := by rw [← hS, hs]; simp
      obtain ⟨j, hj1, hj2⟩ := runs_spec (s0.map (fun c => (c.1 - minOf s, c.2))) 0 (c0.1 - minOf s) c0.2
        (v - minOf s) l (by rw [← hS0, ← hS]; exact List.mem_map.mpr ⟨_, hl, rfl⟩)
      rw [← hS0, Nat.zero_add] at hj1
      have hd : dedup 0 (s.map (·.2)) = c0.2 :: dedup c0.2 (s0.map (·.2)) := by
        rw [hs]; simp only [List.map_cons, dedup]
        rw [if_pos (hl0 c0 (by rw [hs]; simp))]
      have hj3 : (dedup 0 (s.map (·.2)))[j]? = some l := by
        rw [hd]; rw [List.map_map] at hj2; exact hj2
      have hjl := (List.getElem?_eq_some_iff.mp hj3).1
      refine ⟨j, ?_, ?_, by rw [← hs]; omega⟩
      · have := lay_hit (((table1 dl s).2 : Nat) : Int) _ 0 hasc' _ _ hj1
        rw [show v - minOf s - 0 = v - minOf s by omega] at this
        rw [← hs, eb, List.getElem?_append_left (List.getElem?_eq_some_iff.mp this).1, this]
      · rw [ea, List.getElem?_append_left (by simpa using hjl)]
        simp [hj3]
  · rw [find_none s v hl]
    refine ⟨(table1 dl s).2, ?_, ?_, by omega⟩
    · have := lay_miss (((table1 dl s).2 : Nat) : Int) _ 0 hasc' (v - minOf s) (by omega) (by
        intro b hb
        have h : v - minOf s ∈ (runs 0 S).map (·.1) := List.mem_map.mpr ⟨_, hb, rfl⟩
        rw [runs_fst, ← hS] at h
        simp only [List.map_map, List.mem_map, Function.comp] at h
        obtain ⟨⟨c1, c2⟩, hc, hc'⟩ := h
        simp only at hc'
        have : c1 = v := by omega
        subst this
        exact hl _ hc) (by
        obtain ⟨c, hc, hc'⟩ := maxOf_mem s hne
        have h : c.1 - minOf s ∈ (runs 0 S).map (·.1) := by
          rw [runs_fst, ← hS]; simp only [List.map_map, List.mem_map, Function.comp]; exact ⟨c, hc, rfl⟩
        obtain ⟨d, hd, hd'⟩ := List.mem_map.mp h
        exact ⟨d, hd, by rw [hd']; omega⟩)
      rw [show v - minOf s - 0 = v - minOf s by omega] at this
      rw [eb, List.getElem?_append_left (List.getElem?_eq_some_iff.mp this).1, this]
    · rw [ea, eacnt, List.getElem?_append_right (by simp)]
      simp

end Verif.Switch
