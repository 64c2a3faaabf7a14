import Verif.Real10.Props
/-! # C71: REAL10 constants, the theorems -/
namespace Verif.Real10

theorem or_sign {e : Nat} (h : e < 2 ^ 15) : e ||| 2 ^ 15 = 2 ^ 15 + e := by
  have := Nat.two_pow_add_eq_or_of_lt h 1
  rw [Nat.mul_one] at this
  rw [Nat.or_comm, this]

theorem setSign_spec {t : TB} (h : t.e < 2 ^ 15) (minus : Bool) :
    (setSign t minus).m = t.m ∧ (setSign t minus).e % 2 ^ 15 = t.e ∧ (setSign t minus).e < 2 ^ 16 ∧
      (setSign t minus).minus = minus := by
  unfold setSign TB.minus
  cases minus with
  | false => simp only [Bool.false_eq_true, ↓reduceIte, true_and]; refine ⟨Nat.mod_eq_of_lt h, by omega, by simp; omega⟩
  | true =>
    simp only [↓reduceIte, or_sign h, true_and]
    refine ⟨by omega, by omega, by simp⟩

theorem setSign_abs {t : TB} (h : t.e < 2 ^ 15) (minus : Bool) :
    (setSign t minus).abs = t.abs ∧ (setSign t minus).ulp = t.ulp := by
  obtain ⟨a, b, c, d⟩ := setSign_spec h minus
  have : (setSign t minus).ulp = t.ulp := by
    unfold TB.ulp; rw [b, Nat.mod_eq_of_lt h]
  refine ⟨?_, this⟩
  unfold TB.abs; rw [this, a]

theorem setSign_normal {t : TB} (h : t.e < 2 ^ 15) (hn : t.Normal) (minus : Bool) : (setSign t minus).Normal := by
  obtain ⟨a, b, c, d⟩ := setSign_spec h minus
  obtain ⟨n1, n2, n3, n4, n5⟩ := hn
  rw [Nat.mod_eq_of_lt h] at n1 n2
  refine ⟨by rw [b]; exact n1, by rw [b]; exact n2, c, by rw [a]; exact n4, by rw [a]; exact n5⟩

/-- A literal whose magnitude is within the range of normal REAL10 numbers is converted to a normal number of the right
sign, within half a unit of the last place and a small fraction of it. -/
theorem C71_accurate_partial (l : Lit) (hw : l.Wf) (h1 : minReal10 ≤ l.value) (h2 : l.value ≤ maxReal10) (negative : Bool) :
    (atofloat10 l.text negative).Normal ∧ (atofloat10 l.text negative).minus = (l.minus != negative) ∧
    |(atofloat10 l.text negative).abs - l.value| ≤ (1 / 2 + 1 / 2 ^ 16) * (atofloat10 l.text negative).ulp := by
  unfold atofloat10
  rw [strtotb_text l hw]
  obtain ⟨r, T, hn, hf⟩ := lit_fin l h1 h2
  generalize tbCreate (litState l).value (l.power + (litState l).ex) = t at *
  refine ⟨setSign_normal hf.pos hf.normal _, (setSign_spec hf.pos _).2.2.2, ?_⟩
  obtain ⟨s1, s2⟩ := setSign_abs hf.pos (l.minus != negative)
  rw [s1, s2, hf.abs]
  have hu := r.unit_pos
  obtain ⟨n1, n2⟩ := hn.le
  have a1 : l.value ≤ 2 ^ 65 * r.unit := by
    have : l.value * (1 / 2) ≤ l.value * (1 - 1 / 2 ^ 81) :=
      mul_le_mul_of_nonneg_left (by norm_num) (le_trans (by unfold minReal10; exact mul_nonneg (by positivity) (by norm_num)) h1)
    linarith [hf.rhi]
  have a2 : l.value * (1 / 2 ^ 81) ≤ r.unit * (1 / 2 ^ 16) := by
    have := mul_le_mul_of_nonneg_right a1 (show (0:ℚ) ≤ 1 / 2 ^ 81 by positivity)
    linarith
  have a3 : (1 / 2 + 1 / 2 ^ 16) * r.unit ≤ (1 / 2 + 1 / 2 ^ 16) * t.ulp := mul_le_mul_of_nonneg_left hf.ulp (by norm_num)
  refine le_trans ?_ a3
  rw [abs_le]
  constructor <;> linarith [hf.r1, hf.r2]

/-- Every number of 64 bits is on its side: nothing that a REAL10 could hold lies between the literal and the result. -/
theorem C71_neighbours (l : Lit) (hw : l.Wf) (h1 : minReal10 ≤ l.value) (h2 : l.value ≤ maxReal10) (negative : Bool)
    (N : Nat) (hN : N < 2 ^ 64) (j : Int) :
    ((N : ℚ) * (2:ℚ) ^ j ≤ l.value → (N : ℚ) * (2:ℚ) ^ j ≤ (atofloat10 l.text negative).abs) ∧
    (l.value ≤ (N : ℚ) * (2:ℚ) ^ j → (atofloat10 l.text negative).abs ≤ (N : ℚ) * (2:ℚ) ^ j) := by
  unfold atofloat10
  rw [strtotb_text l hw]
  obtain ⟨r, T, hn, hf⟩ := lit_fin l h1 h2
  generalize tbCreate (litState l).value (l.power + (litState l).ex) = t at *
  rw [(setSign_abs hf.pos _).1, hf.abs]
  have hu := r.unit_pos
  obtain ⟨n1, n2⟩ := hn.le
  have vpos : 0 ≤ l.value := le_trans (by unfold minReal10; exact mul_nonneg (by positivity) (by norm_num)) h1
  have T1 : (2:ℚ) ^ 63 ≤ (T : ℚ) := by exact_mod_cast hf.lo
  have T2 : (T : ℚ) ≤ 2 ^ 64 := by exact_mod_cast hf.hi
  have Nq : (N : ℚ) ≤ 2 ^ 64 - 1 := by
    have : N + 1 ≤ 2 ^ 64 := hN
    have : (N : ℚ) + 1 ≤ 2 ^ 64 := by exact_mod_cast this
    linarith
  rcases le_or_gt ((r.e : Int) - 16383 - 63) j with hj | hj
  · -- a multiple of the unit
    obtain ⟨i, hi⟩ := Int.eq_ofNat_of_zero_le (show 0 ≤ j - ((r.e : Int) - 16383 - 63) by omega)
    have e : (N : ℚ) * (2:ℚ) ^ j = ((N * 2 ^ i : Nat) : ℚ) * r.unit := by
      unfold ELD.unit
      rw [show j = (i : Int) + ((r.e : Int) - 16383 - 63) by omega, zpow_add₀ (by norm_num), zpow_natCast]
      push_cast; ring
    rw [e]
    generalize N * 2 ^ i = N'
    constructor
    · intro hs
      refine mul_le_mul_of_nonneg_right ?_ hu.le
      by_contra hc
      have hc : T + 1 ≤ N' := by
        have := not_le.1 hc
        exact_mod_cast this
      have hcq : (T : ℚ) + 1 ≤ (N' : ℚ) := by exact_mod_cast hc
      have b1 : (N' : ℚ) * r.unit * (1 - 1 / 2 ^ 81) ≤ r.val :=
        le_trans (mul_le_mul_of_nonneg_right hs (by norm_num)) n1
      have b2 : ((T : ℚ) + 1) * r.unit * (1 - 1 / 2 ^ 81) ≤ (N' : ℚ) * r.unit * (1 - 1 / 2 ^ 81) :=
        mul_le_mul_of_nonneg_right (mul_le_mul_of_nonneg_right hcq hu.le) (by norm_num)
      have b3 : ((T : ℚ) + 1) * (1 / 2 ^ 81) * r.unit ≤ (1 / 4) * r.unit := by
        refine mul_le_mul_of_nonneg_right ?_ hu.le
        linarith
      linarith [hf.r2]
    · intro hs
      refine mul_le_mul_of_nonneg_right ?_ hu.le
      by_contra hc
      have hc : N' + 1 ≤ T := by
        have := not_le.1 hc
        exact_mod_cast this
      have hcq : (N' : ℚ) + 1 ≤ (T : ℚ) := by exact_mod_cast hc
      have b1 : r.val ≤ (N' : ℚ) * r.unit * (1 + 1 / 2 ^ 81) :=
        le_trans n2 (mul_le_mul_of_nonneg_right hs (by norm_num))
      have b2 : (N' : ℚ) * (1 / 2 ^ 81) * r.unit ≤ (1 / 4) * r.unit := by
        refine mul_le_mul_of_nonneg_right ?_ hu.le
        linarith
      have b3 := mul_le_mul_of_nonneg_right hcq hu.le
      linarith [hf.r1]
  · -- too small for the unit
    have e : (N : ℚ) * (2:ℚ) ^ j ≤ (2 ^ 63 - 1 / 2) * r.unit := by
      have e1 : (2:ℚ) ^ j ≤ r.unit * (1 / 2) := by
        unfold ELD.unit
        calc (2:ℚ) ^ j ≤ (2:ℚ) ^ ((r.e : Int) - 16383 - 63 + (-1)) := zpow_le_zpow_right₀ (by norm_num) (by omega)
          _ = _ := by rw [zpow_add₀ (by norm_num)]; norm_num
      calc (N : ℚ) * (2:ℚ) ^ j ≤ (2 ^ 64 - 1) * (r.unit * (1 / 2)) :=
            mul_le_mul Nq e1 (by positivity) (by norm_num)
        _ = _ := by ring
    constructor
    · intro _
      refine le_trans e ?_
      exact mul_le_mul_of_nonneg_right (by linarith) hu.le
    · intro hs
      exfalso
      have b1 : r.val ≤ (2 ^ 63 - 1 / 2) * r.unit * (1 + 1 / 2 ^ 81) :=
        le_trans n2 (mul_le_mul_of_nonneg_right (le_trans hs e) (by norm_num))
      have b2 := hf.rlo
      have b3 : ((2:ℚ) ^ 63 - (2 ^ 63 - 1 / 2) * (1 + 1 / 2 ^ 81)) * r.unit ≤ 0 := by linarith
      have b4 : 0 < ((2:ℚ) ^ 63 - (2 ^ 63 - 1 / 2) * (1 + 1 / 2 ^ 81)) := by norm_num
      have := mul_pos b4 hu
      linarith

/-- A literal whose value a REAL10 can hold is converted to this value: integers of up to 64 bits, `0.5`, `6.25e-2`, ... -/
theorem C71_exact (l : Lit) (hw : l.Wf) (h1 : minReal10 ≤ l.value) (h2 : l.value ≤ maxReal10) (negative : Bool)
    (N : Nat) (hN : N < 2 ^ 64) (j : Int) (hv : l.value = (N : ℚ) * (2:ℚ) ^ j) :
    (atofloat10 l.text negative).abs = l.value := by
  obtain ⟨a, b⟩ := C71_neighbours l hw h1 h2 negative N hN j
  rw [hv] at a b ⊢
  exact le_antisymm (b (le_refl _)) (a (le_refl _))

/-- Two literals in order are converted to numbers in order, up to the rounding: if a number of 64 bits lies between them. -/
theorem C71_order (l l' : Lit) (hw : l.Wf) (hw' : l'.Wf) (h1 : minReal10 ≤ l.value) (h2 : l'.value ≤ maxReal10) (neg neg' : Bool)
    (N : Nat) (hN : N < 2 ^ 64) (j : Int) (a : l.value ≤ (N : ℚ) * (2:ℚ) ^ j) (b : (N : ℚ) * (2:ℚ) ^ j ≤ l'.value) :
    (atofloat10 l.text neg).abs ≤ (atofloat10 l'.text neg').abs :=
  le_trans ((C71_neighbours l hw h1 (le_trans (le_trans a b) h2) neg N hN j).2 a)
    ((C71_neighbours l' hw' (le_trans h1 (le_trans a b)) h2 neg' N hN j).1 b)

/-- Digits zero, without exponent: zero of the sign. -/
theorem C71_zero (l : Lit) (hw : l.Wf) (hi : ∀ d ∈ l.int, d = 0) (hf : ∀ d ∈ l.frac.getD [], d = 0) (he : l.exp = none)
    (negative : Bool) : atofloat10 l.text negative = ⟨0, if l.minus != negative then 2 ^ 15 else 0⟩ := by
  have h1 : ∀ ds : List (Fin 10), (∀ d ∈ ds, d = 0) → ds.foldl (fun s d => intDigit d.val s) {} = ({} : PSt) := by
    intro ds
    induction ds with
    | nil => intro _; rfl
    | cons d ds ih =>
      intro h
      have := h d (by simp)
      subst this
      rw [List.foldl_cons]
      exact ih (fun d hd => h d (by simp [hd]))
  have h2 : ∀ (ds : List (Fin 10)) (k : Int), (∀ d ∈ ds, d = 0) →
      (ds.foldl (fun s d => fracDigit d.val s) ({ et := k } : PSt)).value = ⟨0, 0, 0⟩ ∧
      (ds.foldl (fun s d => fracDigit d.val s) ({ et := k } : PSt)).ex = 0 := by
    intro ds
    induction ds with
    | nil => intro _ _; exact ⟨rfl, rfl⟩
    | cons d ds ih =>
      intro k h
      have := h d (by simp)
      subst this
      have h0 : fracDigit ((0 : Fin 10) : Nat) ({ et := k } : PSt) = { et := k - 1 } := by
        simp [fracDigit, addDigit, overMax]
      rw [List.foldl_cons, h0]
      exact ih (k - 1) (fun d hd => h d (by simp [hd]))
  unfold atofloat10
  rw [strtotb_text l hw]
  have e1 : (litState l).value = ⟨0, 0, 0⟩ := by unfold litState; rw [h1 _ hi]; exact (h2 _ 0 hf).1
  have e2 : (litState l).ex = 0 := by unfold litState; rw [h1 _ hi]; exact (h2 _ 0 hf).2
  have e3 : l.power = 0 := by unfold Lit.power; rw [he]
  rw [e1, e2, e3]
  cases (l.minus != negative) <;> decide

end Verif.Real10
