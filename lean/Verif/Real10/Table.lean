import Verif.Real10.Near
/-! # The tables of powers of ten -/
namespace Verif.Real10

/-- `a` is `b` with a relative error of at most 2^-85. -/
def close (a b : Nat) : Bool := (a - b) * 2 ^ 85 ≤ b ∧ (b - a) * 2 ^ 85 ≤ b

theorem close_near {a b : Nat} (h : close a b = true) : Near tabErr (a : ℚ) (b : ℚ) := by
  unfold close at h
  simp only [decide_eq_true_eq] at h
  obtain ⟨h1, h2⟩ := h
  have q1 : (a : ℚ) * 2 ^ 85 ≤ b + b * 2 ^ 85 := by
    have : a * 2 ^ 85 ≤ b + b * 2 ^ 85 := by
      rw [Nat.sub_mul] at h1; exact Nat.sub_le_iff_le_add.1 h1
    exact_mod_cast this
  have q2 : (b : ℚ) * 2 ^ 85 ≤ b + a * 2 ^ 85 := by
    have : b * 2 ^ 85 ≤ b + a * 2 ^ 85 := by
      rw [Nat.sub_mul] at h2; exact Nat.sub_le_iff_le_add.1 h2
    exact_mod_cast this
  unfold tabErr
  apply Near.of_le
  · have : (b : ℚ) * (1 - 1 / 2 ^ 85) = (b * 2 ^ 85 - b) / 2 ^ 85 := by ring
    rw [this, div_le_iff₀ (by positivity)]; linarith
  · have : (b : ℚ) * (1 + 1 / 2 ^ 85) = (b + b * 2 ^ 85) / 2 ^ 85 := by ring
    rw [this, le_div_iff₀ (by positivity)]; linarith

def chkE (t : ELD) : Bool := t.m.a < 2 ^ 32 ∧ t.m.b < 2 ^ 32 ∧ t.m.c < 2 ^ 32 ∧ 2 ^ 95 ≤ t.m.val 32 ∧ t.e < 2 ^ 15 - 1

theorem chkE_ok {t : ELD} (h : chkE t = true) : t.Ok := by
  unfold chkE at h
  simp only [decide_eq_true_eq] at h
  exact ⟨⟨h.1, h.2.1, h.2.2.1⟩, h.2.2.2.1, h.2.2.2.2⟩

def chkPlus : List ELD → Nat → Bool
  | [], _ => true
  | t :: ts, n => chkE t && close (t.m.val 32 * 2 ^ (t.e - 16478)) (10 ^ n * 2 ^ (16478 - t.e)) && chkPlus ts (2 * n)

def chkMinus : List ELD → Nat → Bool
  | [], _ => true
  | t :: ts, n => chkE t && decide (t.e ≤ 16478) && close (t.m.val 32 * 10 ^ n) (2 ^ (16478 - t.e)) && chkMinus ts (2 * n)

theorem Near.scale {c x y : ℚ} (h : Near c x y) {k : ℚ} (hk : 0 < k) : Near c (x / k) (y / k) := by
  unfold Near at *
  rw [← sub_div, abs_div, abs_of_pos hk, div_mul_eq_mul_div]
  exact div_le_div_of_nonneg_right h hk.le

theorem plus_ok : ∀ (ts : List ELD) (n : Nat), chkPlus ts n = true → TabOk ts ((10:ℚ) ^ n)
  | [], _, _ => trivial
  | t :: ts, n, h => by
    simp only [chkPlus, Bool.and_eq_true] at h
    obtain ⟨⟨h1, h2⟩, h3⟩ := h
    refine ⟨chkE_ok h1, ?_, ?_⟩
    · have := (close_near h2).scale (k := (2:ℚ) ^ (16478 - t.e)) (by positivity)
      have e1 : (((t.m.val 32 * 2 ^ (t.e - 16478) : Nat)) : ℚ) / (2:ℚ) ^ (16478 - t.e) = t.val := by
        unfold ELD.val ev
        push_cast
        rw [mul_div_assoc]
        congr 1
        rw [← zpow_natCast, ← zpow_natCast, ← zpow_sub₀ (by norm_num)]
        congr 1; omega
      have e2 : (((10 ^ n * 2 ^ (16478 - t.e) : Nat)) : ℚ) / (2:ℚ) ^ (16478 - t.e) = (10:ℚ) ^ n := by
        push_cast
        rw [mul_div_assoc, div_self (by positivity), mul_one]
      rw [e1, e2] at this
      exact this
    · rw [← pow_two, ← pow_mul, Nat.mul_comm]
      exact plus_ok ts _ h3

theorem minus_ok : ∀ (ts : List ELD) (n : Nat), chkMinus ts n = true → TabOk ts (((10:ℚ)⁻¹) ^ n)
  | [], _, _ => trivial
  | t :: ts, n, h => by
    simp only [chkMinus, Bool.and_eq_true, decide_eq_true_eq] at h
    obtain ⟨⟨⟨h1, h0⟩, h2⟩, h3⟩ := h
    refine ⟨chkE_ok h1, ?_, ?_⟩
    · have := (close_near h2).scale (k := (2:ℚ) ^ (16478 - t.e) * 10 ^ n) (by positivity)
      have e1 : (((t.m.val 32 * 10 ^ n : Nat)) : ℚ) / ((2:ℚ) ^ (16478 - t.e) * 10 ^ n) = t.val := by
        unfold ELD.val ev
        push_cast
        rw [mul_div_mul_right _ _ (by positivity), div_eq_mul_inv, ← zpow_natCast, ← zpow_neg]
        congr 2; omega
      have e2 : (((2 ^ (16478 - t.e) : Nat)) : ℚ) / ((2:ℚ) ^ (16478 - t.e) * 10 ^ n) = ((10:ℚ)⁻¹) ^ n := by
        push_cast
        rw [div_mul_eq_div_div, div_self (by positivity), one_div, inv_pow]
      rw [e1, e2] at this
      exact this
    · rw [← pow_two, ← pow_mul, Nat.mul_comm]
      exact minus_ok ts _ h3

theorem tabPlus_ok : TabOk tabPlus 10 := by
  have := plus_ok tabPlus 1 (by decide +kernel)
  simpa using this

theorem tabMinus_ok : TabOk tabMinus (10:ℚ)⁻¹ := by
  have := minus_ok tabMinus 1 (by decide +kernel)
  simpa using this

theorem u96ld_spec {x : W3} (hx : x.Ok 32) (h0 : x.val 32 ≠ 0) : (u96ld x).Ok ∧ (u96ld x).val = x.val 32 := by
  obtain ⟨n, n1, n2, n3, n4, n5, n6, n7⟩ := norm3_spec (w := 32) (by decide) hx h0
  unfold u96ld
  generalize norm3 32 x = q at *
  obtain ⟨v, k⟩ := q
  simp only [] at n1 n6 n7 ⊢
  subst n1
  rw [if_neg (by omega)]
  refine ⟨⟨n6, ?_, ?_⟩, ?_⟩
  · rw [n7]
    calc (2:Nat) ^ 95 = 2 ^ (k - 1) * 2 ^ (96 - k) := by rw [← Nat.pow_add]; congr 1; omega
      _ ≤ _ := Nat.mul_le_mul_right _ n4
  · show k - 1 + 0x3FFF < 2 ^ 15 - 1
    omega
  · unfold ELD.val ev
    simp only []
    rw [n7]
    push_cast
    rw [mul_assoc]
    have : (2:ℚ) ^ (3 * 32 - k) * (2:ℚ) ^ (((k - 1 + 0x3FFF : Nat) : Int) - 16383 - 95) = 1 := by
      rw [← zpow_natCast, ← zpow_add₀ (by norm_num)]
      have : ((3 * 32 - k : Nat) : Int) + (((k - 1 + 0x3FFF : Nat) : Int) - 16383 - 95) = 0 := by omega
      rw [this, zpow_zero]
    push_cast at this
    rw [this, mul_one]

/-- The magnitude behind the last rounding. -/
theorem tb_round {r : ELD} (hr : r.Ok) (t : TB) (ht : t = (let m := r.m.b + r.m.c * 2 ^ 32
      if r.m.a ≥ 2 ^ 31 then
        if m = 2 ^ 64 - 1 then ⟨2 ^ 63, (r.e + 1) % 2 ^ 16⟩ else ⟨m + 1, r.e⟩
      else ⟨m, r.e⟩)) :
    ∃ k : Nat, t.e = r.e + k ∧ 2 ^ 63 ≤ t.m ∧ t.m < 2 ^ 64 ∧ (k = 1 ∧ t.m = 2 ^ 63 ∨ k = 0) ∧
      t.m * 2 ^ k * 2 ^ 32 ≤ r.m.val 32 + 2 ^ 31 ∧ r.m.val 32 < t.m * 2 ^ k * 2 ^ 32 + 2 ^ 31 := by
  have ha := hr.m.a
  have hb := hr.m.b
  have hc := hr.m.c
  have hn := hr.norm
  have he := hr.e
  unfold W3.val at *
  simp only [] at ht
  split at ht
  · split at ht
    · subst ht
      refine ⟨1, ?_, ?_, ?_, .inl ⟨rfl, rfl⟩, ?_, ?_⟩ <;> simp only [] <;> omega
    · subst ht
      refine ⟨0, ?_, ?_, ?_, .inr rfl, ?_, ?_⟩ <;> simp only [] <;> omega
  · subst ht
    refine ⟨0, ?_, ?_, ?_, .inr rfl, ?_, ?_⟩ <;> simp only [] <;> omega

end Verif.Real10
