import Verif.Real10.Parse
/-! # C71: REAL10 constants -/
namespace Verif.Real10

theorem tbCreate_eq (v : W3) (ex : Int) : tbCreate v ex =
    (let r := mulPow (if ex < 0 then tabMinus else tabPlus) ex.natAbs (u96ld v)
     let m := r.m.b + r.m.c * 2 ^ 32
     if r.m.a ≥ 2 ^ 31 then
       if m = 2 ^ 64 - 1 then ⟨2 ^ 63, (r.e + 1) % 2 ^ 16⟩ else ⟨m + 1, r.e⟩
     else ⟨m, r.e⟩) := rfl

theorem ten_big : (2:ℚ) ^ 24576 ≤ 10 ^ 8192 := by
  calc (2:ℚ) ^ 24576 = (2 ^ 3) ^ 8192 := by rw [← pow_mul]
    _ ≤ _ := pow_le_pow_left₀ (by norm_num) (by norm_num) _

theorem loR_gt : (2:ℚ) ^ (-16383 : Int) ≤ loR := by
  unfold loR
  calc (2:ℚ) ^ (-16383 : Int) = (2:ℚ) ^ (-16382 : Int) * (1/2) := by
        rw [show (-16383 : Int) = -16382 + (-1) by norm_num, zpow_add₀ (by norm_num)]; norm_num
    _ ≤ _ := mul_le_mul_of_nonneg_left (by norm_num) (by positivity)

theorem hiR_lt : hiR ≤ (2:ℚ) ^ (16384 : Int) := by
  unfold hiR
  calc _ ≤ (2:ℚ) ^ (16384 : Int) * 1 := mul_le_mul_of_nonneg_left (by norm_num) (by positivity)
    _ = _ := by ring

/-- The decimal exponent of a number in the range. -/
theorem exp_small {x : Nat} (h0 : x ≠ 0) (h1 : x < 2 ^ 96) {ex : Int} (hr : InR ((x : ℚ) * (10:ℚ) ^ ex)) : ex.natAbs < 8192 := by
  have x1 : (1:ℚ) ≤ x := by exact_mod_cast Nat.one_le_iff_ne_zero.2 h0
  have x2 : (x:ℚ) ≤ (2:ℚ) ^ 96 := by exact_mod_cast h1.le
  refine Nat.lt_of_not_le fun hc => ?_
  rcases le_total 0 ex with he | he
  · have a1 : (10:ℚ) ^ (8192:Nat) ≤ (10:ℚ) ^ ex := by
      rw [← zpow_natCast]
      exact zpow_le_zpow_right₀ (by norm_num) (by omega)
    have a2 : (10:ℚ) ^ ex ≤ x * (10:ℚ) ^ ex := le_mul_of_one_le_left (by positivity) x1
    have a3 : (2:ℚ) ^ ((24576:Nat):Int) ≤ (2:ℚ) ^ (16384:Int) := by
      rw [zpow_natCast]
      exact le_trans ten_big (le_trans a1 (le_trans a2 (le_trans hr.2 hiR_lt)))
    have := (zpow_le_zpow_iff_right₀ (by norm_num : (1:ℚ) < 2)).1 a3
    omega
  · have a1 : (10:ℚ) ^ ex ≤ ((10:ℚ) ^ (8192:Nat))⁻¹ := by
      rw [← zpow_natCast, ← zpow_neg]
      exact zpow_le_zpow_right₀ (by norm_num) (by omega)
    have a2 : ((10:ℚ) ^ (8192:Nat))⁻¹ ≤ ((2:ℚ) ^ 24576)⁻¹ := inv_anti₀ (by positivity) ten_big
    have a3 : (2:ℚ) ^ (-16383 : Int) ≤ (2:ℚ) ^ (96 - 24576 : Int) := by
      calc (2:ℚ) ^ (-16383 : Int) ≤ x * (10:ℚ) ^ ex := le_trans loR_gt hr.1
        _ ≤ (2:ℚ) ^ 96 * ((2:ℚ) ^ 24576)⁻¹ :=
            mul_le_mul x2 (le_trans a1 a2) (by positivity) (by positivity)
        _ = _ := by
            rw [← zpow_natCast, ← zpow_natCast, ← zpow_neg, ← zpow_add₀ (by norm_num)]; rfl
    have := (zpow_le_zpow_iff_right₀ (by norm_num : (1:ℚ) < 2)).1 a3
    omega

theorem InR.nat {x : Nat} (h0 : x ≠ 0) (h1 : x < 2 ^ 96) : InR x := by
  have x1 : (1:ℚ) ≤ x := by exact_mod_cast Nat.one_le_iff_ne_zero.2 h0
  have x2 : (x:ℚ) ≤ (2:ℚ) ^ 96 := by exact_mod_cast h1.le
  constructor
  · refine le_trans ?_ x1
    unfold loR
    calc _ ≤ (2:ℚ) ^ (-16382 : Int) * 1 := mul_le_mul_of_nonneg_left (by norm_num) (by positivity)
      _ ≤ 1 := by rw [mul_one]; exact zpow_le_one_of_nonpos₀ (by norm_num) (by norm_num)
  · refine le_trans x2 ?_
    unfold hiR
    calc (2:ℚ) ^ 96 = (2:ℚ) ^ (97:Int) * (1/2) := by
          rw [show (97:Int) = ((97:Nat):Int) from rfl, zpow_natCast]; norm_num
      _ ≤ (2:ℚ) ^ (16384 : Int) * (1 - 1 / 2 ^ 64) :=
          mul_le_mul (zpow_le_zpow_right₀ (by norm_num) (by norm_num)) (by norm_num) (by norm_num) (by positivity)

/-- The product. -/
theorem create_near {x : W3} (hx : x.Ok 32) (h0 : x.val 32 ≠ 0) {ex : Int} (hr : InR ((x.val 32 : ℚ) * (10:ℚ) ^ ex)) :
    (mulPow (if ex < 0 then tabMinus else tabPlus) ex.natAbs (u96ld x)).Ok ∧
    Near (13 * stepErr) (mulPow (if ex < 0 then tabMinus else tabPlus) ex.natAbs (u96ld x)).val ((x.val 32 : ℚ) * (10:ℚ) ^ ex) := by
  obtain ⟨u1, u2⟩ := u96ld_spec hx h0
  have hs := exp_small h0 (val32_lt hx) hr
  have hi := InR.nat h0 (val32_lt hx)
  have n0 : Near 0 (u96ld x).val (x.val 32 : ℚ) := by unfold Near; rw [u2]; simp
  have c13 : (0:ℚ) + ((13:Nat):ℚ) * stepErr ≤ 1 / 2 ^ 80 := by unfold stepErr; norm_num
  by_cases hn : ex < 0
  · rw [if_pos hn]
    have e : (10:ℚ) ^ ex = ((10:ℚ)⁻¹) ^ ex.natAbs := by
      rw [inv_pow, ← zpow_natCast, ← zpow_neg]; congr 1; omega
    rw [e] at hr ⊢
    have := mulPow_near tabMinus ex.natAbs (u96ld x) _ _ 0 tabMinus_ok (by positivity) (by positivity) (le_refl _) u1 n0 hs c13 hi hr
    refine ⟨this.1, ?_⟩
    have h2 := this.2
    rw [zero_add] at h2
    exact_mod_cast h2
  · rw [if_neg hn]
    have e : (10:ℚ) ^ ex = (10:ℚ) ^ ex.natAbs := by
      rw [← zpow_natCast]; congr 1; omega
    rw [e] at hr ⊢
    have := mulPow_near tabPlus ex.natAbs (u96ld x) _ _ 0 tabPlus_ok (by positivity) (by positivity) (le_refl _) u1 n0 hs c13 hi hr
    refine ⟨this.1, ?_⟩
    have h2 := this.2
    rw [zero_add] at h2
    exact_mod_cast h2

/-- What is known of the number in front of the last rounding. -/
theorem lit_eld (l : Lit) (h1 : minReal10 ≤ l.value) (h2 : l.value ≤ maxReal10) :
    ∃ r : ELD, r.Ok ∧ Near (1 / 2 ^ 81) r.val l.value ∧
      tbCreate (litState l).value (l.power + (litState l).ex) =
        (let m := r.m.b + r.m.c * 2 ^ 32
         if r.m.a ≥ 2 ^ 31 then
           if m = 2 ^ 64 - 1 then ⟨2 ^ 63, (r.e + 1) % 2 ^ 16⟩ else ⟨m + 1, r.e⟩
         else ⟨m, r.e⟩) := by
  have p1 : (0:ℚ) < (2:ℚ) ^ (-16382 : Int) := by positivity
  have hpos : 0 < l.value := lt_of_lt_of_le (by unfold minReal10; exact mul_pos p1 (by norm_num)) h1
  obtain ⟨a, b, c, d⟩ := lit_near l hpos
  have hr : InR (((litState l).value.val 32 : ℚ) * (10:ℚ) ^ (l.power + (litState l).ex)) := by
    constructor
    · refine le_trans ?_ c.le.1
      unfold loR
      unfold minReal10 at h1
      calc (2:ℚ) ^ (-16382 : Int) * (1 - 3 / 2 ^ 67) ≤ (2:ℚ) ^ (-16382 : Int) * ((1 - 1 / 2 ^ 66) * (1 - 1 / 2 ^ 92)) :=
            mul_le_mul_of_nonneg_left (by norm_num) p1.le
        _ = (2:ℚ) ^ (-16382 : Int) * (1 - 1 / 2 ^ 66) * (1 - 1 / 2 ^ 92) := by ring
        _ ≤ _ := mul_le_mul_of_nonneg_right h1 (by norm_num)
    · refine le_trans d (le_trans h2 ?_)
      unfold maxReal10 hiR
      rw [show (16384 : Int) = ((64:Nat):Int) + (16383 - 63) by norm_num, zpow_add₀ (by norm_num), zpow_natCast]
      apply le_of_eq
      generalize (2:ℚ) ^ (16383 - 63 : Int) = y
      ring
  obtain ⟨n1, n2⟩ := create_near a b hr
  refine ⟨_, n1, ?_, tbCreate_eq _ _⟩
  refine (n2.trans c (by unfold stepErr; positivity)).mono hpos.le ?_
  unfold stepErr
  norm_num

/-- The value in units of the number in front of the last rounding. -/
def ELD.unit (r : ELD) : ℚ := (2:ℚ) ^ ((r.e : Int) - 16383 - 63)

theorem ELD.unit_pos (r : ELD) : 0 < r.unit := by unfold ELD.unit; positivity

theorem ELD.val_unit (r : ELD) : r.val * 2 ^ 32 = (r.m.val 32 : ℚ) * r.unit := by
  unfold ELD.val ev ELD.unit
  rw [mul_assoc]
  congr 1
  rw [← zpow_natCast, ← zpow_add₀ (by norm_num)]
  congr 1; push_cast; ring

/-- The result, in terms of that number. -/
structure Fin10 (r : ELD) (v : ℚ) (t : TB) (T : Nat) : Prop where
  normal : t.Normal
  pos : t.e < 2 ^ 15
  abs : t.abs = (T : ℚ) * r.unit
  ulp : r.unit ≤ t.ulp
  lo : 2 ^ 63 ≤ T
  hi : T ≤ 2 ^ 64
  r1 : (T : ℚ) * r.unit ≤ r.val + r.unit / 2
  r2 : r.val ≤ (T : ℚ) * r.unit + r.unit / 2
  rlo : 2 ^ 63 * r.unit ≤ r.val
  rhi : r.val ≤ 2 ^ 64 * r.unit

theorem lit_fin (l : Lit) (h1 : minReal10 ≤ l.value) (h2 : l.value ≤ maxReal10) :
    ∃ (r : ELD) (T : Nat), Near (1 / 2 ^ 81) r.val l.value ∧
      Fin10 r l.value (tbCreate (litState l).value (l.power + (litState l).ex)) T := by
  obtain ⟨r, hr, hn, ht⟩ := lit_eld l h1 h2
  obtain ⟨k, k1, k2, k3, k4, k5, k6⟩ := tb_round hr _ ht
  generalize tbCreate (litState l).value (l.power + (litState l).ex) = t at *
  have hu := r.unit_pos
  have hv := r.val_unit
  have hM : r.m.val 32 < 2 ^ 96 := val32_lt hr.m
  have q5 : ((t.m * 2 ^ k : Nat) : ℚ) * 2 ^ 32 ≤ (r.m.val 32 : ℚ) + 2 ^ 31 := by exact_mod_cast k5
  have q6 : (r.m.val 32 : ℚ) ≤ ((t.m * 2 ^ k : Nat) : ℚ) * 2 ^ 32 + 2 ^ 31 := by exact_mod_cast k6.le
  have q7 : (2:ℚ) ^ 95 ≤ (r.m.val 32 : ℚ) := by exact_mod_cast hr.norm
  have q8 : (r.m.val 32 : ℚ) ≤ 2 ^ 96 := by exact_mod_cast hM.le
  obtain ⟨n1, n2⟩ := hn.le
  have he := hr.e
  -- the exponent does not get too large
  have top : t.e ≤ 0x7FFE := by
    rcases k4 with ⟨kk, km⟩ | kk
    · subst kk
      refine Nat.le_of_not_lt fun hc => ?_
      have hE : r.e = 0x7FFE := by omega
      have hbig : 2 ^ 96 - 2 ^ 31 ≤ r.m.val 32 := by rw [km] at k5; omega
      have hbq : (2:ℚ) ^ 96 - 2 ^ 31 ≤ (r.m.val 32 : ℚ) := by
        have : (2:Nat) ^ 96 ≤ r.m.val 32 + 2 ^ 31 := by omega
        have : (2:ℚ) ^ 96 ≤ (r.m.val 32 : ℚ) + 2 ^ 31 := by exact_mod_cast this
        linarith
      have hun : r.unit = (2:ℚ) ^ (16383 - 63 : Int) := by
        unfold ELD.unit; rw [hE]; norm_num
      unfold maxReal10 at h2
      rw [← hun] at h2
      have c1 := mul_le_mul_of_nonneg_right hbq hu.le
      rw [← hv] at c1
      have c2 : l.value * (1 + 1 / 2 ^ 81) ≤ (2 ^ 64 - 1) * r.unit * (1 + 1 / 2 ^ 81) :=
        mul_le_mul_of_nonneg_right h2 (by norm_num)
      have c3 : r.val * 2 ^ 32 ≤ (2 ^ 64 - 1) * r.unit * (1 + 1 / 2 ^ 81) * 2 ^ 32 :=
        mul_le_mul_of_nonneg_right (le_trans n2 c2) (by norm_num)
      have c4 : ((2:ℚ) ^ 96 - 2 ^ 31 - (2 ^ 64 - 1) * (1 + 1 / 2 ^ 81) * 2 ^ 32) * r.unit ≤ 0 := by linarith
      have c5 : 0 < ((2:ℚ) ^ 96 - 2 ^ 31 - (2 ^ 64 - 1) * (1 + 1 / 2 ^ 81) * 2 ^ 32) := by norm_num
      have := mul_pos c5 hu
      linarith
    · omega
  have bot : 1 ≤ t.e := by
    refine Nat.le_of_not_lt fun hc => ?_
    have hE : r.e = 0 := by omega
    have hk : k = 0 := by omega
    subst hk
    have hun : r.unit = (2:ℚ) ^ (-16382 : Int) * (1 / 2 ^ 64) := by
      unfold ELD.unit; rw [hE]
      rw [one_div, ← zpow_natCast, ← zpow_neg, ← zpow_add₀ (by norm_num)]
      congr 1
    unfold minReal10 at h1
    have c1 : (2:ℚ) ^ (-16382 : Int) = r.unit * 2 ^ 64 := by rw [hun]; ring
    rw [c1] at h1
    have c2 : r.unit * 2 ^ 64 * (1 - 1 / 2 ^ 66) * (1 - 1 / 2 ^ 81) ≤ r.val :=
      le_trans (mul_le_mul_of_nonneg_right h1 (by norm_num)) n1
    have c3 : r.unit * 2 ^ 64 * (1 - 1 / 2 ^ 66) * (1 - 1 / 2 ^ 81) * 2 ^ 32 ≤ (r.m.val 32 : ℚ) * r.unit := by
      rw [← hv]; exact mul_le_mul_of_nonneg_right c2 (by norm_num)
    have c4 : (2:ℚ) ^ 96 - 2 ^ 31 < (r.m.val 32 : ℚ) := by
      by_contra hcc
      have hcc := not_lt.1 hcc
      have d1 := mul_le_mul_of_nonneg_right hcc hu.le
      have d2 : ((2:ℚ) ^ 64 * (1 - 1 / 2 ^ 66) * (1 - 1 / 2 ^ 81) * 2 ^ 32 - (2 ^ 96 - 2 ^ 31)) * r.unit ≤ 0 := by linarith
      have d3 : 0 < ((2:ℚ) ^ 64 * (1 - 1 / 2 ^ 66) * (1 - 1 / 2 ^ 81) * 2 ^ 32 - (2 ^ 96 - 2 ^ 31)) := by norm_num
      have := mul_pos d3 hu
      linarith
    have c5 : 2 ^ 96 < r.m.val 32 + 2 ^ 31 := by
      have : (2:ℚ) ^ 96 < (r.m.val 32 : ℚ) + 2 ^ 31 := by linarith
      exact_mod_cast this
    omega
  have hmod : t.e % 2 ^ 15 = t.e := Nat.mod_eq_of_lt (by omega)
  have hulp : t.ulp = r.unit * 2 ^ k := by
    unfold TB.ulp ELD.unit
    rw [hmod, k1, ← zpow_natCast, ← zpow_add₀ (by norm_num)]
    congr 1; push_cast; ring
  refine ⟨r, t.m * 2 ^ k, hn, ⟨by rw [hmod]; exact bot, by rw [hmod]; exact top, by omega, k2, k3⟩, by omega, ?_, ?_, ?_, ?_, ?_, ?_, ?_, ?_⟩
  · unfold TB.abs; rw [hulp]; push_cast; ring
  · rw [hulp]
    exact le_mul_of_one_le_right hu.le (one_le_pow₀ (by norm_num))
  · rcases k4 with ⟨rfl, km⟩ | rfl <;> omega
  · rcases k4 with ⟨rfl, km⟩ | rfl <;> omega
  · have := mul_le_mul_of_nonneg_right q5 hu.le
    have e : (((t.m * 2 ^ k : Nat) : ℚ) * r.unit) * 2 ^ 32 ≤ (r.val + r.unit / 2) * 2 ^ 32 := by linarith
    exact le_of_mul_le_mul_right e (by positivity)
  · have := mul_le_mul_of_nonneg_right q6 hu.le
    have e : r.val * 2 ^ 32 ≤ (((t.m * 2 ^ k : Nat) : ℚ) * r.unit + r.unit / 2) * 2 ^ 32 := by linarith
    exact le_of_mul_le_mul_right e (by positivity)
  · have := mul_le_mul_of_nonneg_right q7 hu.le
    have e : (2 ^ 63 * r.unit) * 2 ^ 32 ≤ r.val * 2 ^ 32 := by linarith
    exact le_of_mul_le_mul_right e (by positivity)
  · have := mul_le_mul_of_nonneg_right q8 hu.le
    have e : r.val * 2 ^ 32 ≤ (2 ^ 64 * r.unit) * 2 ^ 32 := by linarith
    exact le_of_mul_le_mul_right e (by positivity)

end Verif.Real10
