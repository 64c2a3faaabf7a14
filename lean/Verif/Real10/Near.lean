import Verif.Real10.Mult
/-! # The error of the products with powers of ten -/
namespace Verif.Real10

/-- `x` is `y` with a relative error of at most `c`. -/
def Near (c x y : ℚ) : Prop := |x - y| ≤ y * c

theorem Near.mono {c c' x y : ℚ} (h : Near c x y) (hy : 0 ≤ y) (hc : c ≤ c') : Near c' x y :=
  le_trans h (mul_le_mul_of_nonneg_left hc hy)

theorem Near.le {c x y : ℚ} (h : Near c x y) : y * (1 - c) ≤ x ∧ x ≤ y * (1 + c) := by
  unfold Near at h
  rw [abs_le] at h
  constructor <;> linarith [h.1, h.2]

theorem Near.of_le {c x y : ℚ} (h1 : y * (1 - c) ≤ x) (h2 : x ≤ y * (1 + c)) : Near c x y := by
  unfold Near
  rw [abs_le]
  constructor <;> linarith

theorem Near.trans {a b x y z : ℚ} (h1 : Near a x y) (h2 : Near b y z) (ha : 0 ≤ a) :
    Near (a + b + a * b) x z := by
  have hy := h2.le.2
  unfold Near at *
  calc |x - z| = |(x - y) + (y - z)| := by ring_nf
    _ ≤ |x - y| + |y - z| := abs_add_le _ _
    _ ≤ y * a + z * b := add_le_add h1 h2
    _ ≤ z * (1 + b) * a + z * b := by
      have := mul_le_mul_of_nonneg_right hy ha
      linarith
    _ = _ := by ring

theorem Near.mul {a b x y z w : ℚ} (h1 : Near a x y) (h2 : Near b z w) (hy : 0 ≤ y) (hz : 0 ≤ z) (ha : 0 ≤ a) :
    Near (a + b + a * b) (x * z) (y * w) := by
  have e1 : Near a (x * z) (y * z) := by
    unfold Near at *
    rw [← sub_mul, abs_mul, abs_of_nonneg hz]
    calc |x - y| * z ≤ y * a * z := mul_le_mul_of_nonneg_right h1 hz
      _ = _ := by ring
  have e2 : Near b (y * z) (y * w) := by
    unfold Near at *
    rw [← mul_sub, abs_mul, abs_of_nonneg hy]
    calc y * |z - w| ≤ y * (w * b) := mul_le_mul_of_nonneg_left h2 hy
      _ = _ := by ring
  exact e1.trans e2 ha

/-- The numbers the products stay among. -/
def loR : ℚ := (2 : ℚ) ^ (-16382 : Int) * (1 - 3 / 2 ^ 67)
def hiR : ℚ := (2 : ℚ) ^ (16384 : Int) * (1 - 1 / 2 ^ 64)

def InR (v : ℚ) : Prop := loR ≤ v ∧ v ≤ hiR

theorem ev_bounds {M : Nat} (h1 : 2 ^ 95 ≤ M) (h2 : M < 2 ^ 96) (E : Int) :
    (2:ℚ) ^ (E - 16383) ≤ ev M E ∧ ev M E < (2:ℚ) ^ (E - 16382) := by
  have p : (0:ℚ) < (2:ℚ) ^ (E - 16383 - 95) := by positivity
  have q1 : ((2:ℚ) ^ 95) ≤ (M:ℚ) := by exact_mod_cast h1
  have q2 : (M:ℚ) < ((2:ℚ) ^ 96) := by exact_mod_cast h2
  unfold ev
  constructor
  · calc (2:ℚ) ^ (E - 16383) = (2:ℚ) ^ 95 * (2:ℚ) ^ (E - 16383 - 95) := by
          rw [← zpow_natCast, ← zpow_add₀ (by norm_num)]; congr 1; push_cast; ring
      _ ≤ _ := mul_le_mul_of_nonneg_right q1 p.le
  · calc _ < (2:ℚ) ^ 96 * (2:ℚ) ^ (E - 16383 - 95) := mul_lt_mul_of_pos_right q2 p
      _ = (2:ℚ) ^ (E - 16382) := by
          rw [← zpow_natCast, ← zpow_add₀ (by norm_num)]; congr 1; push_cast; ring

/-- The exponent of a number near one in the range. -/
theorem exp_range {M : Nat} (h1 : 2 ^ 95 ≤ M) (h2 : M < 2 ^ 96) {E : Int} {c v : ℚ} (hc : c ≤ 1 / 2 ^ 80) (hv : InR v)
    (h : Near c (ev M E) v) : 0 ≤ E ∧ E ≤ 0x7FFE := by
  obtain ⟨b1, b2⟩ := ev_bounds h1 h2 E
  obtain ⟨n1, n2⟩ := h.le
  have p1 : (0:ℚ) < (2:ℚ) ^ (-16382 : Int) := by positivity
  have p2 : (0:ℚ) < (2:ℚ) ^ (16384 : Int) := by positivity
  have vpos : 0 < v := lt_of_lt_of_le (by unfold loR; exact mul_pos p1 (by norm_num)) hv.1
  constructor
  · have h3 : (2:ℚ) ^ (-16383 : Int) < (2:ℚ) ^ (E - 16382) := by
      refine lt_of_le_of_lt ?_ (lt_of_le_of_lt n1 b2)
      calc (2:ℚ) ^ (-16383 : Int) = (2:ℚ) ^ (-16382 : Int) * (1/2) := by
            rw [show (-16383 : Int) = -16382 + (-1) by norm_num, zpow_add₀ (by norm_num)]; norm_num
        _ ≤ (2:ℚ) ^ (-16382 : Int) * ((1 - 3 / 2 ^ 67) * (1 - 1 / 2 ^ 80)) :=
            mul_le_mul_of_nonneg_left (by norm_num) p1.le
        _ = loR * (1 - 1 / 2 ^ 80) := by unfold loR; ring
        _ ≤ v * (1 - 1 / 2 ^ 80) := mul_le_mul_of_nonneg_right hv.1 (by norm_num)
        _ ≤ v * (1 - c) := mul_le_mul_of_nonneg_left (by linarith) vpos.le
    have := (zpow_lt_zpow_iff_right₀ (by norm_num : (1:ℚ) < 2)).1 h3
    omega
  · have h3 : (2:ℚ) ^ (E - 16383) < (2:ℚ) ^ (16384 : Int) := by
      refine lt_of_le_of_lt b1 (lt_of_le_of_lt n2 ?_)
      calc v * (1 + c) ≤ v * (1 + 1 / 2 ^ 80) := mul_le_mul_of_nonneg_left (by linarith) vpos.le
        _ ≤ hiR * (1 + 1 / 2 ^ 80) := mul_le_mul_of_nonneg_right hv.2 (by norm_num)
        _ = (2:ℚ) ^ (16384 : Int) * ((1 - 1 / 2 ^ 64) * (1 + 1 / 2 ^ 80)) := by unfold hiR; ring
        _ < (2:ℚ) ^ (16384 : Int) * 1 := mul_lt_mul_of_pos_left (by norm_num) p2
        _ = _ := by ring
    have := (zpow_lt_zpow_iff_right₀ (by norm_num : (1:ℚ) < 2)).1 h3
    omega

/-- The error of an entry of the tables, and of one step. -/
def tabErr : ℚ := 1 / 2 ^ 85
def stepErr : ℚ := 1 / 2 ^ 85 + 1 / 2 ^ 90

/-- One step. -/
theorem multiply_near {x y : ELD} (hx : x.Ok) (hy : y.Ok) {c v b : ℚ} (hc0 : 0 ≤ c) (hc : c + stepErr ≤ 1 / 2 ^ 80)
    (hv : 0 ≤ v) (h1 : Near c x.val v) (h2 : Near tabErr y.val b) (hb : 0 ≤ b) (hr : InR (v * b)) :
    (multiply x y).Ok ∧ Near (c + stepErr) (multiply x y).val (v * b) := by
  obtain ⟨E, e1, e2, e3, e4, -⟩ := multiply_val hx hy
  generalize multiply x y = r at *
  have n1 : Near (c + tabErr + c * tabErr) (x.val * y.val) (v * b) := h1.mul h2 hv hy.pos.le hc0
  have n2 : Near (1 / 2 ^ 96) (ev (r.m.val 32) E) (x.val * y.val) := by
    unfold Near; rw [mul_one_div]; exact e4
  have n3 := n2.trans n1 (by positivity)
  have n4 : Near (c + stepErr) (ev (r.m.val 32) E) (v * b) := by
    refine n3.mono (mul_nonneg hv hb) ?_
    unfold stepErr tabErr at *
    have : c ≤ 1 / 2 ^ 80 := by linarith [show (0:ℚ) ≤ 1 / 2 ^ 85 + 1 / 2 ^ 90 by positivity]
    nlinarith
  obtain ⟨g1, g2⟩ := exp_range e3 (val32_lt e2) hc hr n4
  have g3 : (r.e : Int) = E := by rw [e1]; omega
  refine ⟨⟨e2, e3, by omega⟩, ?_⟩
  unfold ELD.val
  rw [g3]
  exact n4

/-- The entries are `b`, `b ^ 2`, `b ^ 4`, ... -/
def TabOk : List ELD → ℚ → Prop
  | [], _ => True
  | t :: ts, b => t.Ok ∧ Near tabErr t.val b ∧ TabOk ts (b * b)

/-- Powers with a smaller exponent lie between one and the power. -/
theorem InR.between {v b : ℚ} (hv : 0 ≤ v) (hb : 0 < b) {k n : Nat} (hk : k ≤ n) (h1 : InR v) (h2 : InR (v * b ^ n)) :
    InR (v * b ^ k) := by
  rcases le_total b 1 with h | h
  · have a1 : b ^ n ≤ b ^ k := pow_le_pow_of_le_one hb.le h hk
    have a2 : b ^ k ≤ 1 := pow_le_one₀ hb.le h
    have c1 := mul_le_mul_of_nonneg_left a1 hv
    have c2 := mul_le_mul_of_nonneg_left a2 hv
    exact ⟨le_trans h2.1 c1, le_trans (by simpa using c2) h1.2⟩
  · have a1 : b ^ k ≤ b ^ n := pow_le_pow_right₀ h hk
    have a2 : 1 ≤ b ^ k := one_le_pow₀ h
    have c1 := mul_le_mul_of_nonneg_left a1 hv
    have c2 := mul_le_mul_of_nonneg_left a2 hv
    exact ⟨le_trans h1.1 (by simpa using c2), le_trans c1 h2.2⟩

theorem mulPow_near : ∀ (ts : List ELD) (n : Nat) (r : ELD) (b v c : ℚ), TabOk ts b → 0 < b → 0 ≤ v → 0 ≤ c → r.Ok → Near c r.val v →
    n < 2 ^ ts.length → c + ts.length * stepErr ≤ 1 / 2 ^ 80 → InR v → InR (v * b ^ n) →
    (mulPow ts n r).Ok ∧ Near (c + ts.length * stepErr) (mulPow ts n r).val (v * b ^ n)
  | [], n, r, b, v, c, _, _, hv, hc, hr, hn, hlt, _, _, _ => by
    have : n = 0 := by simpa using hlt
    subst this
    simpa [mulPow] using ⟨hr, hn⟩
  | t :: ts, n, r, b, v, c, ht, hb, hv, hc, hr, hn, hlt, hs, h1, h2 => by
    have sp : (0:ℚ) ≤ stepErr := by unfold stepErr; positivity
    have hl : c + ((t :: ts).length : ℚ) * stepErr = (c + stepErr) + (ts.length : ℚ) * stepErr := by
      simp only [List.length_cons]; push_cast; ring
    rw [hl] at hs ⊢
    have lp : (0:ℚ) ≤ (ts.length : ℚ) * stepErr := by positivity
    have hmid := InR.between hv hb (Nat.mod_le n 2) h1 h2
    have hstep : (if n % 2 = 1 then multiply r t else r).Ok ∧
        Near (c + stepErr) (if n % 2 = 1 then multiply r t else r).val (v * b ^ (n % 2)) := by
      by_cases ho : n % 2 = 1
      · rw [ho] at hmid ⊢
        rw [if_pos rfl]
        rw [pow_one] at hmid ⊢
        exact multiply_near hr ht.1 hc (by linarith) hv hn ht.2.1 hb.le hmid
      · rw [if_neg ho, show n % 2 = 0 by omega, pow_zero, mul_one]
        exact ⟨hr, hn.mono hv (by linarith)⟩
    generalize hq : (if n % 2 = 1 then multiply r t else r) = q at hstep
    have hm : mulPow (t :: ts) n r = if n / 2 = 0 then q else mulPow ts (n / 2) q := by
      rw [← hq]; rfl
    rw [hm]
    have vb : (0:ℚ) ≤ v * b ^ (n % 2) := by positivity
    have hpow : v * b ^ (n % 2) * (b * b) ^ (n / 2) = v * b ^ n := by
      rw [← pow_two, ← pow_mul, mul_assoc, ← pow_add, Nat.mod_add_div]
    by_cases h0 : n / 2 = 0
    · rw [if_pos h0]
      rw [h0, pow_zero, mul_one] at hpow
      rw [← hpow]
      exact ⟨hstep.1, hstep.2.mono vb (by linarith)⟩
    · rw [if_neg h0]
      have := mulPow_near ts (n / 2) q (b * b) (v * b ^ (n % 2)) (c + stepErr) ht.2.2 (by positivity) vb (by linarith) hstep.1 hstep.2
        (by simp only [List.length_cons, Nat.pow_succ] at hlt; omega) hs hmid (by rw [hpow]; exact h2)
      rw [hpow] at this
      exact this

end Verif.Real10
