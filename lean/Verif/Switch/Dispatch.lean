import Verif.Switch.Search
namespace Verif.Switch

variable {σ : Type} {env : Env} {m : Mode} {prog : List (Line σ)}

theorem span_eq (s : List (Int × Nat)) (n : Int) (hne : s ≠ []) : span n s = maxOf s + 1 - n - s.length := by
  induction s generalizing n with
  | nil => exact absurd rfl hne
  | cons c s ih =>
    by_cases hs : s = []
    · subst hs; simp [span, maxOf]; omega
    · have e : maxOf (c :: s) = maxOf s := by unfold maxOf; rw [List.getLast?_cons_of_ne_nil hs]
      simp only [span, List.length_cons, e]
      rw [ih _ hs]; omega

theorem maxOf_shift (s : List (Int × Nat)) (hne : s ≠ []) (d : Int) :
    maxOf (s.map fun c => (c.1 - d, c.2)) = maxOf s - d := by
  unfold maxOf
  rw [List.getLast?_map, List.getLast?_eq_some_getLast hne]; rfl

theorem good_span (s : List (Int × Nat)) (hg : Good s) (hne : s ≠ []) :
    span 0 (s.map fun c => (c.1 - minOf s, c.2)) = maxOf s - minOf s + 1 - s.length := by
  rw [span_eq _ _ (by simpa using hne), maxOf_shift s hne]
  simp

theorem good_len (s : List (Int × Nat)) (hg : Good s) (hne : s ≠ []) : (s.length : Int) ≤ maxOf s - minOf s + 1 := by
  have h1 := good_span s hg hne
  have h2 := span_nonneg 0 _ (asc_shift s hg id)
  simp only [id] at h2
  omega

theorem good_bounds (s : List (Int × Nat)) (hg : Good s) (hne : s ≠ []) :
    (-2147483648 ≤ minOf s ∧ minOf s < 2147483648) ∧ (-2147483648 ≤ maxOf s ∧ maxOf s < 2147483648) ∧
    maxOf s - minOf s < 536870912 := by
  obtain ⟨a, ha, ea⟩ := minOf_mem s hne
  obtain ⟨b, hb, eb⟩ := maxOf_mem s hne
  rw [ea, eb]
  exact ⟨hg.rng a ha, hg.rng b hb, hg.spn b hb a ha⟩

theorem tgt_out (dl : Lbl) (s : List (Int × Nat)) (hg : Good s) (v : Int) (h : v < minOf s ∨ v > maxOf s) :
    tgt dl s v = dl := by
  unfold tgt
  rw [find_none s v]
  intro l hl
  have h1 := minOf_le s hg.asc _ hl
  have h2 := le_maxOf s hg.asc _ hl
  simp only at h1 h2
  omega

theorem tgt_after (dl : Lbl) (s : List (Int × Nat)) (hc : ∀ x ∈ s, ∃ r, after (.case x.2) prog = some r)
    (hd : ∃ r, after dl prog = some r) (v : Int) : ∃ r, after (tgt dl s v) prog = some r := by
  unfold tgt
  cases h : s.find? (fun c => c.1 == v) with
  | none => exact hd
  | some c => exact hc c (List.mem_of_find?_eq_some h)

theorem tgt_perm (dl : Lbl) (cs : List (Int × Nat)) (h : (cs.map (·.1)).Nodup) (v : Int) :
    tgt dl (sortCases cs) v = tgt dl cs v := by
  have hs := sort_sorted cs h
  have hp := sort_perm cs
  rcases mem_or cs v with ⟨l, hl⟩ | hn
  · have e1 := find_mem _ hs (v, l) (hp.mem_iff.mpr hl)
    have e2 : cs.find? (fun c => c.1 == v) = some (v, l) := by
      cases hf : cs.find? (fun c => c.1 == v) with
      | none => exact absurd (List.find?_eq_none.mp hf _ hl) (by simp)
      | some c =>
        have hc := List.mem_of_find?_eq_some hf
        have hcv : c.1 = v := by simpa using List.find?_some hf
        have := find_mem _ hs c (hp.mem_iff.mpr hc)
        rw [hcv] at this
        simp only at e1
        rw [e1] at this
        exact this.symm
    unfold tgt; rw [e2]; simp only at e1; rw [e1]
  · unfold tgt
    rw [find_none _ v (fun l hl => hn l (hp.mem_iff.mp hl)), find_none _ v hn]

/-- what the choice of the method says about the cases -/
theorem method_bounds (swsize : Int) (h0 : 0 ≤ swsize) (hsw : swsize ≤ 65536) (s : List (Int × Nat)) (hg : Good s) (hne : s ≠ []) :
    match method m swsize s with
    | .chain => s.length ≤ 3
    | .both8 => maxOf s - minOf s < 256 ∧ s.length < 256
    | .both16 => maxOf s - minOf s < 65536 ∧ s.length < 65536
    | .jump => 2 * (maxOf s - minOf s) ≤ 3 * s.length
    | .tree => True := by
  obtain ⟨h1, h2, h3⟩ := good_bounds s hg hne
  have hl := good_len s hg hne
  have hlen : 0 < s.length := List.length_pos_iff.mpr hne
  generalize hd : maxOf s - minOf s = d at *
  have w1 : wrap32 d = d := wrap32_id _ (by omega)
  have w2 : wrap32 (d * 4) = d * 4 := wrap32_id _ (by omega)
  have u1 : (BitVec.ofInt 64 d).toNat = d.toNat := by
    rw [BitVec.toNat_ofInt]; congr 1; exact Int.emod_eq_of_lt (by omega) (by omega)
  have u2 : (BitVec.ofNat 64 (d.toNat * 8)).toNat = d.toNat * 8 := by
    rw [BitVec.toNat_ofNat]; exact Nat.mod_eq_of_lt (by omega)
  have u3 : (BitVec.ofInt 64 ((s.length : Int) * 10)).toNat = s.length * 10 := by
    rw [BitVec.toNat_ofInt, Int.emod_eq_of_lt (by omega) (by omega)]; omega
  have u4 : (BitVec.ofInt 64 swsize).toNat = swsize.toNat := by
    rw [BitVec.toNat_ofInt, Int.emod_eq_of_lt (by omega) (by omega)]
  unfold method
  simp only [hd, w1, w2, u1, u2, u3, u4]
  by_cases c1 : s.length ≤ 3
  · simp only [if_pos c1]; exact c1
  · simp only [if_neg c1]
    by_cases c2 : m = .m64q
    · simp only [if_pos c2]
      by_cases c3 : d.toNat * 8 ≤ s.length * 10
      · simp only [if_pos c3]; omega
      · simp only [if_neg c3]
        by_cases c4 : d.toNat < 256
        · simp only [if_pos c4]; omega
        · simp only [if_neg c4]
          by_cases c5 : d.toNat < swsize.toNat
          · simp only [if_pos c5]; omega
          · simp only [if_neg c5]
    · simp only [if_neg c2]
      by_cases c3 : d * 4 ≤ (s.length : Int) * 6
      · simp only [if_pos c3]; omega
      · simp only [if_neg c3]
        by_cases c4 : d < 256
        · simp only [if_pos c4]; omega
        · simp only [if_neg c4]
          by_cases c5 : d < swsize
          · simp only [if_pos c5]; omega
          · simp only [if_neg c5]

theorem dispatch_spec (hl : Layout env prog) (dl : Lbl) (swsize : Int) (h0 : 0 ≤ swsize) (hsw : swsize ≤ 65536)
    (cs : List (Int × Nat)) (hne : cs ≠ []) (hnd : (cs.map (·.1)).Nodup) (hg : Good (sortCases cs))
    (hl0 : ∀ c ∈ cs, c.2 ≠ 0)
    (hfit : TablesFit cs.length (maxOf (sortCases cs) - minOf (sortCases cs)))
    (t1 : List Lbl) (t2 : List Int) (w2 : Nat)
    (ht : tables m (method m swsize (sortCases cs)) dl (sortCases cs) = some (t1, t2, w2))
    (hp : PlacedAt env m t1 t2 w2)
    (rest : List (Line σ))
    (ha : method m swsize (sortCases cs) = .tree → ∃ rt rj rc, TreeAt m dl prog rt rj rc ∧
      ∃ rest', dispatch m (method m swsize (sortCases cs)) dl cs (sortCases cs) ++ rest =
        (treeInit m dl cs.length).map .ins ++ .lab .top :: ((treeTop m).map .ins ++ rt) ++ rest' ∧ rest' = [])
    (hc : ∀ x ∈ cs, ∃ r, after (.case x.2) prog = some r) (rd : List (Line σ)) (hd : after dl prog = some rd)
    (s : St σ) (hax : m = .m64d → s.r .ax = ((s.r .ax).setWidth 32).setWidth 64) :
    Goes env m prog (dispatch m (method m swsize (sortCases cs)) dl cs (sortCases cs) ++ rest) s
      (tgt dl cs (sgn (opW m) (s.r .ax))) := by
  have hb := method_bounds (m := m) swsize h0 hsw (sortCases cs) hg (by
    intro e; have := (sort_perm cs).length_eq; rw [e] at this; exact hne (List.length_eq_zero_iff.mp this.symm))
  have hlen := (sort_perm cs).length_eq
  have hne' : sortCases cs ≠ [] := by
    intro e; rw [e] at hlen; exact hne (List.length_eq_zero_iff.mp hlen.symm)
  have hc' : ∀ x ∈ sortCases cs, ∃ r, after (.case x.2) prog = some r := fun x hx => hc x ((sort_perm cs).mem_iff.mp hx)
  have hl0' : ∀ x ∈ sortCases cs, x.2 ≠ 0 := fun x hx => hl0 x ((sort_perm cs).mem_iff.mp hx)
  obtain ⟨b1, b2, b3⟩ := good_bounds _ hg hne'
  obtain ⟨hmod, hfit⟩ := hfit
  have hgl := good_len _ hg hne'
  have hT : ∀ v, v < minOf (sortCases cs) ∨ v > maxOf (sortCases cs) → tgt dl (sortCases cs) v = dl :=
    fun v h => tgt_out dl _ hg v h
  have hTa := tgt_after (prog := prog) dl (sortCases cs) hc' ⟨rd, hd⟩
  generalize hme : method m swsize (sortCases cs) = me at *
  cases me
  · -- chain
    have := chain_spec (env := env) (m := m) dl cs (fun c hc => hg.rng c ((sort_perm cs).mem_iff.mpr hc)) hc rd hd
      (.lab .top :: .lab .jump :: .lab .skip :: .lab .cont :: rest) s
    simpa [dispatch, headCode, onTree] using this
  · rw [← tgt_perm dl cs hnd]
    simp only [tables] at ht
    cases hA : parseRows (table1 dl (sortCases cs)).1 with
    | none => simp [hA] at ht
    | some a =>
      cases hB : parseRows (table2 m .both8 (table1 dl (sortCases cs)).2 (sortCases cs)) with
      | none => simp [hA, hB] at ht
      | some b =>
        simp only [hA, hB, Option.some.injEq, Prod.mk.injEq] at ht
        obtain ⟨rfl, rfl, rfl⟩ := ht
        have := both8_spec (m := m) hl hp dl _ _ b1 b2 (by omega) (tgt dl (sortCases cs))
          (fun v h1 h2 => by
            obtain ⟨k, k1, k2, k3⟩ := both_lookup m .both8 dl _ hg hne' hl0' (by omega) a hA b hB v h1 h2
            exact ⟨k, k1, k2, by have := hb.2; omega⟩)
          hT hTa (.lab .top :: .lab .jump :: .lab .skip :: .lab .cont :: rest) s
        simpa [dispatch, headCode, onTree] using this
  · rw [← tgt_perm dl cs hnd]
    simp only [tables] at ht
    cases hA : parseRows (table1 dl (sortCases cs)).1 with
    | none => simp [hA] at ht
    | some a =>
      cases hB : parseRows (table2 m .both16 (table1 dl (sortCases cs)).2 (sortCases cs)) with
      | none => simp [hA, hB] at ht
      | some b =>
        simp only [hA, hB, Option.some.injEq, Prod.mk.injEq] at ht
        obtain ⟨rfl, rfl, rfl⟩ := ht
        have := both16_spec (m := m) hl hp dl _ _ b1 b2 (by omega) (tgt dl (sortCases cs))
          (fun v h1 h2 => by
            obtain ⟨k, k1, k2, k3⟩ := both_lookup m .both16 dl _ hg hne' hl0' (by omega) a hA b hB v h1 h2
            exact ⟨k, k1, k2, by have := hb.2; omega⟩)
          hT hTa (.lab .top :: .lab .jump :: .lab .skip :: .lab .cont :: rest) s hax
        simpa [dispatch, headCode, onTree] using this
  · rw [← tgt_perm dl cs hnd]
    simp only [tables, Option.map_eq_some_iff] at ht
    obtain ⟨a, hA, e⟩ := ht
    simp only [Prod.mk.injEq] at e
    obtain ⟨rfl, rfl, rfl⟩ := e
    have := jump_spec (m := m) hl hp dl _ _ b1 b2 (by omega) (tgt dl (sortCases cs))
      (fun v h1 h2 => jump_lookup m dl _ hg hne' a hA (by
        rw [good_span _ hg hne']
        have hb' : 2 * (maxOf (sortCases cs) - minOf (sortCases cs)) ≤ 3 * (sortCases cs).length := hb
        rcases hfit with h | h | h <;> omega) v h1 h2)
      hT hTa (.lab .top :: .lab .jump :: .lab .skip :: .lab .cont :: rest) s hax
    simpa [dispatch, headCode, onTree] using this
  · obtain ⟨rt, rj, rc, hTree, rest', hrest, rfl⟩ := ha rfl
    simp only [tables] at ht
    cases hA : parseRows (tableL (sortCases cs)) with
    | none => simp [hA] at ht
    | some a =>
      cases hB : parseRows (tableV (sortCases cs)) with
      | none => simp [hA, hB] at ht
      | some b =>
        simp only [hA, hB, Option.some.injEq, Prod.mk.injEq] at ht
        obtain ⟨rfl, rfl, rfl⟩ := ht
        rw [tableL_spec _ _ hA, tableV_spec _ _ hB] at hp
        rw [hrest, List.append_nil, ← hlen, ← tgt_perm dl cs hnd]
        exact tree_spec hl dl _ hg hne' (by omega) hp rt rj rc hTree hc' rd hd s

end Verif.Switch
