import Verif.Expr.ArithSpec
namespace Verif.Expr

theorem toInt_const {x : Int} (h : Fits x) : (BitVec.ofInt 64 x).toInt = x := by
  unfold Fits at h
  rw [BitVec.toInt_ofInt, Int.bmod_def]
  split <;> omega

theorem toNat_const (x : Int) : (BitVec.ofInt 64 x).toNat = (uns x).toNat := by
  simp [BitVec.toNat_ofInt, uns]

theorem value_const {y : Int} (h : -(2 ^ 31) ≤ y ∧ y < 2 ^ 31) : ((const y).value).toInt = y := by
  have : (const y).value = BitVec.ofInt 32 y := by
    unfold const Val.value
    apply BitVec.eq_of_toNat_eq
    simp [BitVec.toNat_ofInt]
    omega
  rw [this, BitVec.toInt_ofInt, Int.bmod_def]
  split <;> omega

theorem value_toNat {y : Int} (h : 0 ≤ y ∧ y < 2 ^ 31) : ((const y).value).toNat = y.toNat := by
  unfold const Val.value
  simp [BitVec.toNat_ofInt]
  omega

theorem value_neg {y : Int} (h : -(2 ^ 31) ≤ y ∧ y < 2 ^ 31) : (const y).value.slt 0#32 = decide (y < 0) := by
  rw [BitVec.slt, value_const h]; simp

theorem eq_const_iff {x y : Int} (hx : Fits x) (hy : Fits y) : (BitVec.ofInt 64 x = BitVec.ofInt 64 y) ↔ x = y := by
  constructor
  · intro h
    have := congrArg BitVec.toInt h
    rwa [toInt_const hx, toInt_const hy] at this
  · rintro rfl; rfl

theorem eq_zero_iff {y : Int} (hy : Fits y) : (BitVec.ofInt 64 y = 0#64) ↔ y = 0 := by
  have := eq_const_iff hy (y := 0) (by unfold Fits; omega)
  simpa using this

theorem beq_const {x y : Int} (hx : Fits x) (hy : Fits y) : (BitVec.ofInt 64 x == BitVec.ofInt 64 y) = decide (x = y) := by
  rw [Bool.eq_iff_iff]; simp [eq_const_iff hx hy]

theorem shl_const (x : Int) (n : Nat) : BitVec.ofInt 64 (x * 2 ^ n) = if n ≥ 64 then 0#64 else BitVec.ofInt 64 x <<< n := by
  split
  · rename_i h
    obtain ⟨k, rfl⟩ : ∃ k, n = 64 + k := ⟨n - 64, by omega⟩
    apply BitVec.eq_of_toNat_eq
    rw [Int.pow_add]
    simp [BitVec.toNat_ofInt]
    have : x * (18446744073709551616 * 2 ^ k) = 18446744073709551616 * (x * 2 ^ k) := by
      rw [← Int.mul_assoc, Int.mul_comm x, Int.mul_assoc]
    rw [this, Int.mul_emod_right]; simp
  · rename_i h
    rw [BitVec.shiftLeft_eq_mul_twoPow, BitVec.ofInt_mul]
    congr 1
    apply BitVec.eq_of_toNat_eq
    simp [BitVec.toNat_twoPow, BitVec.toNat_ofInt]
    have : (2 : Int) ^ n = ((2 ^ n : Nat) : Int) := by simp
    rw [this]
    omega

theorem uns_range (x : Int) : 0 ≤ uns x ∧ uns x < 2 ^ 64 := by unfold uns; omega

theorem shr_const (x : Int) (n : Nat) : BitVec.ofInt 64 (uns x / 2 ^ n) = BitVec.ofInt 64 x >>> n := by
  apply BitVec.eq_of_toNat_eq
  rw [BitVec.toNat_ushiftRight, toNat_const, toNat_const, Nat.shiftRight_eq_div_pow]
  have := uns_range x
  have e : (2 : Int) ^ n = ((2 ^ n : Nat) : Int) := by simp
  obtain ⟨m, hm⟩ : ∃ m : Nat, uns x = m := ⟨(uns x).toNat, by omega⟩
  rw [hm, e, ← Int.natCast_ediv]
  simp only [Int.toNat_natCast]
  have hle : m / 2 ^ n ≤ m := Nat.div_le_self _ _
  unfold uns
  generalize m / 2 ^ n = q at *
  omega

theorem shr_zero (x : Int) (n : Nat) (h : n ≥ 64) : uns x / 2 ^ n = 0 := by
  have := uns_range x
  apply Int.ediv_eq_zero_of_lt this.1
  have : (2 : Int) ^ 64 ≤ 2 ^ n := by
    have := Nat.pow_le_pow_right (n := 2) (by omega) h
    have e : (2 : Int) ^ n = ((2 ^ n : Nat) : Int) := by simp
    rw [e]; omega
  omega

theorem bit_const (x y : Int) (f : Nat → Nat → Nat) (g : BitVec 64 → BitVec 64 → BitVec 64)
    (hfg : ∀ a b, (g a b).toNat = f a.toNat b.toNat) : BitVec.ofInt 64 (f (uns x).toNat (uns y).toNat : Nat) = g (BitVec.ofInt 64 x) (BitVec.ofInt 64 y) := by
  apply BitVec.eq_of_toNat_eq
  rw [hfg, toNat_const, toNat_const, toNat_const]
  have : f (uns x).toNat (uns y).toNat < 2 ^ 64 := by
    have h := (g (BitVec.ofInt 64 x) (BitVec.ofInt 64 y)).isLt
    rwa [hfg, toNat_const, toNat_const] at h
  unfold uns at *
  omega

theorem sdiv_const {x y : Int} (hx : Fits x) (hy : Fits y) (h : ¬ (x = -(2 ^ 63) ∧ y = -1)) :
    (BitVec.ofInt 64 x).sdiv (BitVec.ofInt 64 y) = BitVec.ofInt 64 (Int.tdiv x y) := by
  apply BitVec.eq_of_toInt_eq
  rw [BitVec.toInt_sdiv, toInt_const hx, toInt_const hy, BitVec.toInt_ofInt]

theorem mod_const {x y : Int} : (BitVec.ofInt 64 x) % (BitVec.ofInt 64 y) = BitVec.ofInt 64 (uns x % uns y) := by
  apply BitVec.eq_of_toNat_eq
  rw [BitVec.toNat_umod, toNat_const, toNat_const, toNat_const]
  have h1 := uns_range x
  have h2 := uns_range y
  obtain ⟨a, ha⟩ : ∃ m : Nat, uns x = m := ⟨(uns x).toNat, by omega⟩
  obtain ⟨b, hb⟩ : ∃ m : Nat, uns y = m := ⟨(uns y).toNat, by omega⟩
  rw [ha, hb]
  have : a % b ≤ a := Nat.mod_le _ _
  rw [← Int.natCast_emod]
  simp only [Int.toNat_natCast]
  unfold uns
  generalize a % b = q at *
  omega

end Verif.Expr
