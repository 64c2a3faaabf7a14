import Verif.Real10.Main
/-! # C71: examples and defects -/
namespace Verif.Real10

/-- `3.25e-2` -/
def exA : Lit := { int := [3], frac := some [2, 5], exp := some (some true, [2]) }

example : exA.text = "3.25e-2".toList := by decide +kernel
example : exA.Wf := ⟨by decide, by intro s d h; cases h; decide⟩
theorem exA_value : exA.value = 13 / 400 := by
  norm_num [Lit.value, exA, number, Lit.power]

theorem in_range {q : ℚ} (h1 : 1 / 2 ^ 100 ≤ q) (h2 : q ≤ 2 ^ 100) : minReal10 ≤ q ∧ q ≤ maxReal10 := by
  constructor
  · refine le_trans ?_ h1
    unfold minReal10
    calc (2:ℚ) ^ (-16382 : Int) * (1 - 1 / 2 ^ 66) ≤ (2:ℚ) ^ (-100 : Int) * 1 :=
          mul_le_mul (zpow_le_zpow_right₀ (by norm_num) (by norm_num)) (by norm_num) (by norm_num) (by positivity)
      _ = 1 / 2 ^ 100 := by rw [mul_one, one_div]; rfl
  · refine le_trans h2 ?_
    unfold maxReal10
    calc (2:ℚ) ^ 100 ≤ (2 ^ 64 - 1) * (2:ℚ) ^ (100 : Int) := by
          rw [show (100:Int) = ((100:Nat):Int) from rfl, zpow_natCast]; norm_num
      _ ≤ _ := mul_le_mul_of_nonneg_left (zpow_le_zpow_right₀ (by norm_num) (by norm_num)) (by norm_num)

/-- The hypotheses of the theorems hold for it. -/
example : minReal10 ≤ exA.value ∧ exA.value ≤ maxReal10 := by
  rw [exA_value]; exact in_range (by norm_num) (by norm_num)

example : atofloat10 exA.text true = ⟨0x851EB851EB851EB8, 0xBFFA⟩ := by decide +kernel

/-- `-6.25E-2`, a value a REAL10 can hold: 1/16 -/
def exB : Lit := { sign := some true, int := [6], frac := some [2, 5], exp := some (some true, [2]), capital := true }

example : exB.text = "-6.25E-2".toList := by decide +kernel
theorem exB_value : exB.value = (1 : Nat) * (2:ℚ) ^ (-4 : Int) := by
  norm_num [Lit.value, exB, number, Lit.power]
example : (atofloat10 exB.text false).abs = exB.value := by
  have h := in_range (q := exB.value) (by rw [exB_value]; norm_num) (by rw [exB_value]; norm_num)
  exact C71_exact exB ⟨by decide, by intro s d h; cases h; decide⟩ h.1 h.2 false 1 (by decide) (-4) exB_value
example : atofloat10 exB.text false = ⟨2 ^ 63, 0xBFFB⟩ := by decide +kernel

/-- `00.000`: zero -/
example : atofloat10 (Lit.text { int := [0, 0], frac := some [0, 0, 0] }) true = ⟨0, 2 ^ 15⟩ := by
  rw [C71_zero _ ⟨by decide, by intro s d h; cases h⟩ (by decide) (by decide) rfl]; rfl

/-! ## Defects -/

/-- `7.0000000000000000002168404345` -/
def tooNear : Lit := { int := [7], frac := some [0,0,0,0,0,0,0,0,0,0,0,0,0,0,0,0,0,0,2,1,6,8,4,0,4,3,4,5] }

/-- The result is not the nearest number: it is more than half a unit of the last place away.  (The next number is nearer.) -/
theorem C71_defect_nearest : ∃ l : Lit, l.Wf ∧ minReal10 ≤ l.value ∧ l.value ≤ maxReal10 ∧
    (1 / 2) * (atofloat10 l.text false).ulp < |(atofloat10 l.text false).abs - l.value| := by
  have hv : tooNear.value = 70000000000000000002168404345 / 10 ^ 28 := by
    norm_num [Lit.value, tooNear, number, Lit.power]
  have hr := in_range (q := tooNear.value) (by rw [hv]; norm_num) (by rw [hv]; norm_num)
  refine ⟨tooNear, ⟨by decide, by intro s d h; cases h⟩, hr.1, hr.2, ?_⟩
  have ht : atofloat10 tooNear.text false = ⟨0xE000000000000000, 0x4001⟩ := by decide +kernel
  rw [ht, hv]
  unfold TB.abs TB.ulp
  have e : (2:ℚ) ^ ((((0x4001 : Nat) % 2 ^ 15 : Nat) : Int) - 16383 - 63) = 1 / 2 ^ 61 := by
    rw [one_div, ← zpow_natCast, ← zpow_neg]; rfl
  rw [e, lt_abs]
  right
  norm_num

/-- A tie is rounded up, not to the even mantissa: 2^64 + 1. -/
theorem C71_defect_tie : atofloat10 "18446744073709551617".toList false = ⟨2 ^ 63 + 1, 0x403F⟩ := by decide +kernel

/-- Too large: no error, but a number: 1e8192 is 1.0, 1e5000 is a negative number. -/
theorem C71_defect_overflow : atofloat10 "1e8192".toList false = ⟨2 ^ 63, 0x3FFF⟩ ∧
    (atofloat10 "1e5000".toList false).minus = true := by
  constructor <;> decide +kernel

/-- Numbers a denormal REAL10 could hold: 1e-4940 becomes a huge negative number. -/
theorem C71_defect_underflow : (atofloat10 "1e-4940".toList false).minus = true ∧
    0x7F00 < (atofloat10 "1e-4940".toList false).e % 2 ^ 15 := by
  constructor <;> decide +kernel

/-- Zero with an exponent: a mantissa of zero with an exponent that is not zero, which the coprocessor refuses. -/
theorem C71_defect_zero_exponent : atofloat10 "0.0e1".toList false = ⟨0, 4⟩ := by decide +kernel

/-- No digit behind `e`: zero, without error. -/
theorem C71_defect_no_exponent : atofloat10 "1.5e".toList false = ⟨0, 0⟩ := by decide +kernel

end Verif.Real10
