import Verif.Switch.Exec
namespace Verif.Switch

variable {σ : Type} {env : Env} {m : Mode} {prog : List (Line σ)}

theorem ofI0 : BitVec.ofInt 64 0 = 0#64 := rfl

theorem Reach.cast {c : List (Line σ)} {s s' : St σ} {e : Conf σ} (h : s = s') (hr : Reach env m prog (c, s') e) :
    Reach env m prog (c, s) e := h ▸ hr

theorem ea_lbl_idx (r : Regs) (l : Lbl) (x : Reg) (k : Nat) :
    ea env m r { lbl := some l, idx := some x, scale := k } = trunc m (env.adr l + r x * BitVec.ofNat 64 k) := by
  unfold ea lbA rgA
  simp

theorem enc_nat (w : Nat) (k : Nat) (h : k < 2 ^ (8 * w)) (h64 : w ≤ 8) : enc w (k : Int) = BitVec.ofNat 64 k := by
  unfold enc
  rw [BitVec.ofInt_natCast]
  apply BitVec.eq_of_toNat_eq
  simp only [BitVec.toNat_setWidth, BitVec.toNat_ofNat]
  rw [Nat.mod_eq_of_lt h]

theorem jmpM_spec (hl : Layout env prog) {t1 : List Lbl} {t2 : List Int} {w2 : Nat} (hp : PlacedAt env .m32 t1 t2 w2)
    (s : St σ) (k : Nat) (l : Lbl) (ht : t1[k]? = some l) (hk : IsIdx .m32 (s.r .ax) k) (r : List (Line σ))
    (hr : after l prog = some r) (rest : List (Line σ)) :
    Reach env .m32 prog (.ins (.jmpM 4 idx4) :: rest, s) (strip r, s) := by
  obtain ⟨r', h1, h2⟩ := afterA_layout hl l r hr
  have e : env.rd (ea env .m32 s.r idx4) 4 = env.adr l := by
    have := hp.t1 k l ht
    simp only [Mode.is64, Bool.false_eq_true, ↓reduceIte] at this
    rw [← this]
    congr 1
    unfold idx4
    rw [ea_lbl_idx]
    exact ea_idx .m32 _ _ _ 4 hk
  refine Reach.head (d := (r', s)) ?_ ?_
  · simp [step, exec, e, h1]
  · rw [← h2]; exact reach_strip _ _

theorem jmpR_spec (hl : Layout env prog) (s : St σ) (l : Lbl) (ha : s.r .ax = env.adr l) (r : List (Line σ))
    (hr : after l prog = some r) (rest : List (Line σ)) :
    Reach env m prog (.ins (.jmpR .ax) :: rest, s) (strip r, s) := by
  obtain ⟨r', h1, h2⟩ := afterA_layout hl l r hr
  refine Reach.head (d := (r', s)) ?_ ?_
  · simp [step, exec, ha, h1]
  · rw [← h2]; exact reach_strip _ _

theorem regs_back (r : Regs) (a b : BitVec 64) :
    ((r.set .r10 a).set .ax b).set .r10 (r .r10) = r.set .ax b := by
  funext x; cases x <;> simp [Regs.set]

/-- the lines behind the reading of the number in 64-bit code -/
theorem tail64 (h64 : m.is64 = true) (hl : Layout env prog) {t1 : List Lbl} {t2 : List Int} {w2 : Nat}
    (hp : PlacedAt env m t1 t2 w2) (s : St σ) (k : Nat) (l : Lbl) (ht : t1[k]? = some l) (v y : BitVec 64)
    (stk : List (BitVec 64)) (r : List (Line σ)) (hr : after l prog = some r) (rest : List (Line σ)) :
    ∃ ax, Reach env m prog
      (.ins (.lea .w64 .ax { lbl := some .data1 }) :: .ins (.load .ax 8 { base := some .ax, idx := some .r10, scale := 8 }) ::
        .ins (.pop .r10) :: .ins (.jmpR .ax) :: rest,
        { s with r := (s.r.set .ax y).set .r10 (BitVec.ofNat 64 k), stk := s.r .r10 :: stk })
      (strip r, { s with r := s.r.set .ax ax, stk := stk }) := by
  have tr : ∀ a, trunc m a = a := fun a => by simp [trunc, h64]
  refine ⟨env.adr l, ?_⟩
  have e : env.rd (env.adr .data1 + BitVec.ofNat 64 k * BitVec.ofNat 64 8) 8 = env.adr l := by
    have := hp.t1 k l ht
    simp only [h64, ↓reduceIte, tr] at this
    exact this
  refine Reach.head rfl (Reach.cast (s' := { s with r := (s.r.set .ax (env.adr .data1)).set .r10 (BitVec.ofNat 64 k),
                                                    stk := s.r .r10 :: stk }) ?_
    (Reach.head rfl (Reach.cast (s' := { s with r := (s.r.set .ax (env.adr l)).set .r10 (BitVec.ofNat 64 k),
                                                stk := s.r .r10 :: stk }) ?_
    (Reach.head rfl (Reach.cast (s' := { s with r := s.r.set .ax (env.adr l), stk := stk }) ?_
      (jmpR_spec hl { s with r := s.r.set .ax (env.adr l), stk := stk } l (by simp) r hr rest))))))
  · simp only [ea, lbA, rgA, tr, put, St.mk.injEq, and_true]
    funext x; cases x <;> simp [Regs.set]
  · simp only [ea, lbA, rgA, tr, St.mk.injEq, and_true]
    funext x
    cases x <;> simp [Regs.set]
    rw [← e]
  · simp only [St.mk.injEq, and_true]
    funext x; cases x <;> simp [Regs.set]

/-- cflag 6 -/
theorem jump_spec (hl : Layout env prog) {t1 : List Lbl} {t2 : List Int} {w2 : Nat} (hp : PlacedAt env m t1 t2 w2)
    (dl : Lbl) (lo hi : Int) (hlo : -2147483648 ≤ lo ∧ lo < 2147483648) (hhi : -2147483648 ≤ hi ∧ hi < 2147483648)
    (hd : hi - lo < 2147483648) (T : Int → Lbl)
    (ht : ∀ v, lo ≤ v → v ≤ hi → t1[(v - lo).toNat]? = some (T v)) (hT : ∀ v, v < lo ∨ v > hi → T v = dl)
    (hr : ∀ v, ∃ r, after (T v) prog = some r) (rest : List (Line σ)) (s : St σ)
    (hax : m = .m64d → s.r .ax = ((s.r .ax).setWidth 32).setWidth 64) :
    Goes env m prog ((jumpCode m dl lo hi).map .ins ++ rest) s (T (sgn (opW m) (s.r .ax))) := by
  have hdl : ∃ rd, after dl prog = some rd := by
    obtain ⟨r, h⟩ := hr (hi + 1)
    rw [hT _ (.inr (by omega))] at h; exact ⟨r, h⟩
  obtain ⟨rd, hdl⟩ := hdl
  generalize hv : sgn (opW m) (s.r .ax) = v
  have ec : ∀ tl, (rangeCode m dl lo hi ++ subMin m lo ++ tl).map (Line.ins (σ := σ)) ++ rest =
      (rangeCode m dl lo hi).map .ins ++ ((subMin m lo).map .ins ++ (tl.map .ins ++ rest)) := by intro tl; simp
  unfold jumpCode
  rw [ec]
  have hrange := range_spec (env := env) (m := m) dl lo hi hlo hhi
    ((subMin m lo).map .ins ++ ((match m with
      | .m32 => [Ins.jmpM 4 idx4]
      | _ => [.push .r10, .lea .w64 .r10 { lbl := some .data1 },
               .load .ax 8 { base := some .r10, idx := some .ax, scale := 8 }, .pop .r10, .jmpR .ax]).map .ins ++ rest)) rd hdl s
  rw [hv] at hrange
  by_cases hout : v < lo ∨ v > hi
  · rw [hT v hout]; exact hrange.1 hout
  · obtain ⟨fl, h1⟩ := hrange.2 (by omega)
    obtain ⟨y, h2, h3⟩ := subMin_spec (env := env) (m := m) (prog := prog) lo v
      ((match m with
      | .m32 => [Ins.jmpM 4 idx4]
      | _ => [.push .r10, .lea .w64 .r10 { lbl := some .data1 },
               .load .ax 8 { base := some .r10, idx := some .ax, scale := 8 }, .pop .r10, .jmpR .ax]).map .ins ++ rest)
      { s with fl := fl } hv (by omega) (by omega) hax
    obtain ⟨r, hrv⟩ := hr v
    have htv := ht v (by omega) (by omega)
    refine ⟨r, hrv, ?_⟩
    have main : ∃ ax, Reach env m prog
        (((match m with
          | .m32 => [Ins.jmpM 4 idx4]
          | _ => [.push .r10, .lea .w64 .r10 { lbl := some .data1 },
               .load .ax 8 { base := some .r10, idx := some .ax, scale := 8 }, .pop .r10, .jmpR .ax]).map .ins ++ rest),
          { s with r := s.r.set .ax y, fl := fl })
        (strip r, { s with r := s.r.set .ax ax, fl := fl }) := by
      have h64 : m.is64 = true → ∃ ax, Reach env m prog
        (([.push .r10, .lea .w64 .r10 { lbl := some .data1 },
               .load .ax 8 { base := some .r10, idx := some .ax, scale := 8 }, .pop .r10, .jmpR .ax] : List Ins).map .ins ++ rest,
          { s with r := s.r.set .ax y, fl := fl })
        (strip r, { s with r := s.r.set .ax ax, fl := fl }) := by
        intro h64
        have tr : ∀ a, trunc m a = a := fun a => by simp [trunc, h64]
        have hy : y = BitVec.ofNat 64 (v - lo).toNat := by
          unfold IsIdx at h3; cases m
          · simp [Mode.is64] at h64
          · simpa using h3
          · simpa using h3
        have e : env.rd (env.adr .data1 + y * BitVec.ofNat 64 8) 8 = env.adr (T v) := by
          have := hp.t1 _ _ htv
          simp only [h64, ↓reduceIte, tr] at this
          rw [hy]; exact this
        refine ⟨env.adr (T v), ?_⟩
        refine Reach.head rfl (Reach.head rfl (Reach.cast (s' := { s with r := (s.r.set .ax y).set .r10 (env.adr .data1), stk := s.r .r10 :: s.stk, fl := fl }) ?_
          (Reach.head rfl (Reach.cast (s' := { s with r := (s.r.set .ax (env.adr (T v))).set .r10 (env.adr .data1), stk := s.r .r10 :: s.stk, fl := fl }) ?_
          (Reach.head rfl (Reach.cast (s' := { s with r := (s.r.set .ax (env.adr (T v))), fl := fl }) ?_
            (jmpR_spec hl { s with r := (s.r.set .ax (env.adr (T v))), fl := fl } (T v) (by simp) r hrv _)))))))
        · simp only [ea, lbA, rgA, tr, put, St.mk.injEq, and_true]
          refine ⟨?_, by simp [Regs.set]⟩
          funext x; cases x <;> simp [Regs.set]
        · simp only [ea, lbA, rgA, tr, St.mk.injEq, and_true]
          funext x; cases x <;> simp [Regs.set]
          rw [← e]
        · simp only [St.mk.injEq, and_true]
          funext x; cases x <;> simp [Regs.set]
      cases m with
      | m32 => exact ⟨y, jmpM_spec hl hp _ _ _ htv (by simpa using h3) r hrv rest⟩
      | m64d => exact h64 rfl
      | m64q => exact h64 rfl
    obtain ⟨ax, h4⟩ := main
    exact ⟨ax, fl, h1.trans (h2.trans h4)⟩

/-- cflag 7 -/
theorem both16_spec (hl : Layout env prog) {t1 : List Lbl} {t2 : List Int} (hp : PlacedAt env m t1 t2 2)
    (dl : Lbl) (lo hi : Int) (hlo : -2147483648 ≤ lo ∧ lo < 2147483648) (hhi : -2147483648 ≤ hi ∧ hi < 2147483648)
    (hd : hi - lo < 2147483648) (T : Int → Lbl)
    (ht : ∀ v, lo ≤ v → v ≤ hi → ∃ k : Nat, t2[(v - lo).toNat]? = some (k : Int) ∧ t1[k]? = some (T v) ∧ k < 65536)
    (hT : ∀ v, v < lo ∨ v > hi → T v = dl)
    (hr : ∀ v, ∃ r, after (T v) prog = some r) (rest : List (Line σ)) (s : St σ)
    (hax : m = .m64d → s.r .ax = ((s.r .ax).setWidth 32).setWidth 64) :
    Goes env m prog ((both16Code m dl lo hi).map .ins ++ rest) s (T (sgn (opW m) (s.r .ax))) := by
  have hdl : ∃ rd, after dl prog = some rd := by
    obtain ⟨r, h⟩ := hr (hi + 1)
    rw [hT _ (.inr (by omega))] at h; exact ⟨r, h⟩
  obtain ⟨rd, hdl⟩ := hdl
  generalize hv : sgn (opW m) (s.r .ax) = v
  unfold both16Code
  rw [List.map_append, List.append_assoc]
  have hrange := fun tl => range_spec (env := env) (m := m) dl lo hi hlo hhi tl rd hdl s
  rw [hv] at hrange
  by_cases hout : v < lo ∨ v > hi
  · rw [hT v hout]; exact (hrange _).1 hout
  · obtain ⟨fl, h1⟩ := (hrange _).2 (by omega)
    obtain ⟨r, hrv⟩ := hr v
    obtain ⟨k, hk2, hk1, hk⟩ := ht v (by omega) (by omega)
    refine ⟨r, hrv, ?_⟩
    have e2 := hp.t2 _ _ hk2
    rw [enc_nat 2 k (by simpa using hk) (by omega)] at e2
    suffices main : ∃ ax, Reach env m prog (_, { s with fl := fl }) (strip r, { s with r := s.r.set .ax ax, fl := fl }) by
      obtain ⟨ax, h2⟩ := main
      exact ⟨ax, fl, h1.trans h2⟩
    have h64 : m.is64 = true → ∃ ax, Reach env m prog
        (([.push .r10, .lea .w64 .r10 { lbl := some .data2 }] ++ subMin m lo ++
          [.load .r10 2 { base := some .r10, idx := some .ax, scale := 2 },
           .lea .w64 .ax { lbl := some .data1 },
           .load .ax 8 { base := some .ax, idx := some .r10, scale := 8 },
           .pop .r10, .jmpR .ax] : List Ins).map .ins ++ rest, { s with fl := fl })
        (strip r, { s with r := s.r.set .ax ax, fl := fl }) := by
      intro h64
      have tr : ∀ a, trunc m a = a := fun a => by simp [trunc, h64]
      simp only [tr] at e2
      let s1 : St σ := { s with r := s.r.set .r10 (env.adr .data2), stk := s.r .r10 :: s.stk, fl := fl }
      have hs1 : s1.r .ax = s.r .ax := by simp [s1, Regs.set]
      obtain ⟨y, h2, h3⟩ := subMin_spec (env := env) (m := m) (prog := prog) lo v
        (([.load .r10 2 { base := some .r10, idx := some .ax, scale := 2 },
           .lea .w64 .ax { lbl := some .data1 },
           .load .ax 8 { base := some .ax, idx := some .r10, scale := 8 },
           .pop .r10, .jmpR .ax] : List Ins).map .ins ++ rest) s1 (by rw [hs1]; exact hv) (by omega) (by omega)
           (by rw [hs1]; exact hax)
      have hy : y = BitVec.ofNat 64 (v - lo).toNat := by
        unfold IsIdx at h3; cases m
        · simp [Mode.is64] at h64
        · simpa using h3
        · simpa using h3
      obtain ⟨ax, h4⟩ := tail64 h64 hl hp { s with fl := fl } k (T v) hk1 0 y s.stk r hrv rest
      refine ⟨ax, ?_⟩
      rw [List.map_append, List.map_append, List.append_assoc, List.append_assoc]
      refine Reach.head rfl (Reach.head rfl (Reach.cast (s' := s1) ?_ (h2.trans (Reach.head rfl (Reach.cast ?_ h4)))))
      · simp only [ea, lbA, rgA, tr, put, s1, St.mk.injEq, and_true]
        funext x; cases x <;> simp [Regs.set]
      · simp only [ea, lbA, rgA, tr, s1, St.mk.injEq, and_true]
        funext x; cases x <;> simp [Regs.set]
        rw [← e2, hy]
    cases m with
    | m64d => exact h64 rfl
    | m64q => exact h64 rfl
    | m32 =>
      obtain ⟨y, h2, h3⟩ := subMin_spec (env := env) (m := .m32) (prog := prog) lo v
        (([.load .ax 2 { lbl := some .data2, idx := some .ax, scale := 2 }, .jmpM 4 idx4] : List Ins).map .ins ++ rest)
        { s with fl := fl } hv (by omega) (by omega) (by simp)
      refine ⟨BitVec.ofNat 64 k, ?_⟩
      rw [List.map_append, List.append_assoc]
      refine h2.trans (Reach.head rfl (Reach.cast (s' := { s with r := s.r.set .ax (BitVec.ofNat 64 k), fl := fl }) ?_
        (jmpM_spec hl hp { s with r := s.r.set .ax (BitVec.ofNat 64 k), fl := fl } k _ hk1 (by simp [IsIdx]) r hrv rest)))
      simp only [St.mk.injEq, and_true, set_set]
      congr 1
      rw [← e2]
      congr 1
      rw [ea_lbl_idx]
      simp only [set_get]
      exact ea_idx .m32 _ _ _ 2 h3

/-- cflag 4 -/
theorem both8_spec (hl : Layout env prog) {t1 : List Lbl} {t2 : List Int} (hp : PlacedAt env m t1 t2 1)
    (dl : Lbl) (lo hi : Int) (hlo : -2147483648 ≤ lo ∧ lo < 2147483648) (hhi : -2147483648 ≤ hi ∧ hi < 2147483648)
    (hd : hi - lo < 2147483648) (T : Int → Lbl)
    (ht : ∀ v, lo ≤ v → v ≤ hi → ∃ k : Nat, t2[(v - lo).toNat]? = some (k : Int) ∧ t1[k]? = some (T v) ∧ k < 256)
    (hT : ∀ v, v < lo ∨ v > hi → T v = dl)
    (hr : ∀ v, ∃ r, after (T v) prog = some r) (rest : List (Line σ)) (s : St σ) :
    Goes env m prog ((both8Code m dl lo hi).map .ins ++ rest) s (T (sgn (opW m) (s.r .ax))) := by
  have hdl : ∃ rd, after dl prog = some rd := by
    obtain ⟨r, h⟩ := hr (hi + 1)
    rw [hT _ (.inr (by omega))] at h; exact ⟨r, h⟩
  obtain ⟨rd, hdl⟩ := hdl
  generalize hv : sgn (opW m) (s.r .ax) = v
  unfold both8Code
  rw [List.map_append, List.append_assoc]
  have hrange := fun tl => range_spec (env := env) (m := m) dl lo hi hlo hhi tl rd hdl s
  rw [hv] at hrange
  by_cases hout : v < lo ∨ v > hi
  · rw [hT v hout]; exact (hrange _).1 hout
  · obtain ⟨fl, h1⟩ := (hrange _).2 (by omega)
    obtain ⟨r, hrv⟩ := hr v
    obtain ⟨k, hk2, hk1, hk⟩ := ht v (by omega) (by omega)
    refine ⟨r, hrv, ?_⟩
    have e2 := hp.t2 _ _ hk2
    rw [enc_nat 1 k (by simpa using hk) (by omega)] at e2
    suffices main : ∃ ax, Reach env m prog (_, { s with fl := fl }) (strip r, { s with r := s.r.set .ax ax, fl := fl }) by
      obtain ⟨ax, h2⟩ := main
      exact ⟨ax, fl, h1.trans h2⟩
    have hi64 : BitVec.ofInt 64 v + BitVec.ofInt 64 (-lo) = BitVec.ofNat 64 (v - lo).toNat := by
      rw [← BitVec.ofInt_add, ← BitVec.ofInt_natCast]; congr 1; omega
    have h64 : m.is64 = true → ∀ y, y = BitVec.ofInt 64 v → ∃ ax, Reach env m prog
        (([.load .r10 1 { base := some .r10, idx := some .ax, disp := -lo },
           .lea .w64 .ax { lbl := some .data1 },
           .load .ax 8 { base := some .ax, idx := some .r10, scale := 8 },
           .pop .r10, .jmpR .ax] : List Ins).map .ins ++ rest,
          { s with r := (s.r.set .ax y).set .r10 (env.adr .data2), stk := s.r .r10 :: s.stk, fl := fl })
        (strip r, { s with r := s.r.set .ax ax, fl := fl }) := by
      intro h64 y hy
      have tr : ∀ a, trunc m a = a := fun a => by simp [trunc, h64]
      simp only [tr] at e2
      obtain ⟨ax, h4⟩ := tail64 h64 hl hp { s with fl := fl } k (T v) hk1 0 y s.stk r hrv rest
      refine ⟨ax, ?_⟩
      refine Reach.head rfl (Reach.cast ?_ h4)
      simp only [ea, lbA, rgA, tr, St.mk.injEq, and_true]
      funext x; cases x <;> simp [Regs.set]
      rw [← e2, hy, ← hi64]; congr 1
      simp [BitVec.add_assoc]
    cases m with
    | m64d =>
      obtain ⟨ax, h4⟩ := h64 rfl _ rfl
      refine ⟨ax, Reach.head rfl (Reach.head rfl (Reach.head rfl (Reach.cast ?_ h4)))⟩
      simp only [St.mk.injEq, and_true, put]
      funext x; cases x <;> simp [Regs.set, ea, lbA, rgA, trunc, Mode.is64]
      rw [← hv]; rfl
    | m64q =>
      obtain ⟨ax, h4⟩ := h64 rfl (s.r .ax) (of_sgn64 _ _ hv)
      refine ⟨ax, Reach.head rfl (Reach.head rfl (Reach.cast ?_ h4))⟩
      simp only [St.mk.injEq, and_true, put]
      funext x; cases x <;> simp [Regs.set, ea, lbA, rgA, trunc, Mode.is64]
    | m32 =>
      refine ⟨BitVec.ofNat 64 k, ?_⟩
      refine Reach.head rfl (Reach.cast (s' := { s with r := s.r.set .ax (BitVec.ofNat 64 k), fl := fl }) ?_
        (jmpM_spec hl hp { s with r := s.r.set .ax (BitVec.ofNat 64 k), fl := fl } k _ hk1 (by simp [IsIdx]) r hrv rest))
      simp only [St.mk.injEq, and_true]
      congr 1
      rw [← e2]
      congr 1
      simp only [ea, lbA, rgA]
      apply trunc32
      have := of_sgn32 _ _ hv
      have h32 : BitVec.ofInt 32 v + BitVec.ofInt 32 (-lo) = (BitVec.ofNat 64 (v - lo).toNat).setWidth 32 := by
        rw [← hi64, setWidth_add', setWidth_ofInt, setWidth_ofInt]
      rw [setWidth_add', setWidth_add', setWidth_add', setWidth_add', setWidth_mul', setWidth_mul', ← h32, this, setWidth_ofInt]
      simp [BitVec.add_assoc]

end Verif.Switch
