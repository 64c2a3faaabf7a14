import Verif.Data.Spec
import Mathlib.Tactic.IntervalCases
import Mathlib.Tactic.Ring
/-
  The bytes of a number.
-/
namespace Verif.Data

theorem leVal_append (a b : List Byte) : leVal (a ++ b) = leVal a + 256 ^ a.length * leVal b := by
  induction a with
  | nil => simp [leVal]
  | cons x r ih => simp only [List.cons_append, leVal, ih, List.length_cons]; ring

theorem leVal_lt (a : List Byte) : leVal a < 256 ^ a.length := by
  induction a with
  | nil => simp [leVal]
  | cons x r ih =>
    have := x.isLt
    simp only [leVal, List.length_cons, Nat.pow_succ]
    omega

theorem leVal_inj : ∀ (a b : List Byte), a.length = b.length → leVal a = leVal b → a = b
  | [], [], _, _ => rfl
  | x :: a, y :: b, h, e => by
    have := x.isLt
    have := y.isLt
    simp only [leVal] at e
    have h1 : x = y := BitVec.eq_of_toNat_eq (by omega)
    have h2 := leVal_inj a b (by simpa using h) (by omega)
    rw [h1, h2]

/-- the 128-bit number of an operand -/
def Const.nat (k : Const) : Nat := k.hl.toNat * 2 ^ 64 + k.ll.toNat

theorem char_toNat (k : Const) (i : Nat) (h : i < 16) : (k.char i).toNat = k.nat / 256 ^ i % 256 := by
  have h1 := k.ll.isLt
  have h2 := k.hl.isLt
  unfold Const.char Const.nat
  interval_cases i <;> simp [BitVec.extractLsb'_toNat, Nat.shiftRight_eq_div_pow] <;> omega

theorem leVal_chars (k : Const) : ∀ n, n ≤ 16 → leVal (k.chars n) = k.nat % 256 ^ n
  | 0, _ => by simp [Const.chars, leVal, Nat.mod_one]
  | n + 1, h => by
    have ih := leVal_chars k n (by omega)
    unfold Const.chars at ih ⊢
    rw [List.range_succ, List.map_append, leVal_append, ih]
    simp only [List.map_cons, List.map_nil, leVal, List.length_map, List.length_range]
    rw [char_toNat k n (by omega), Nat.mod_pow_succ]
    simp

theorem length_chars (k : Const) (n : Nat) : (k.chars n).length = n := by simp [Const.chars]

theorem toInt_cases (x : BitVec 64) :
    (x.toNat < 2 ^ 63 ∧ x.toInt = x.toNat ∧ x.msb = false) ∨
    (2 ^ 63 ≤ x.toNat ∧ x.toInt = (x.toNat : Int) - 2 ^ 64 ∧ x.msb = true) := by
  have := x.isLt
  by_cases h : x.toNat < 2 ^ 63
  · left
    exact ⟨h, by rw [BitVec.toInt_eq_toNat_cond]; simp; omega, by rw [BitVec.msb_eq_decide]; simp; omega⟩
  · right
    exact ⟨by omega, by rw [BitVec.toInt_eq_toNat_cond]; simp; omega, by rw [BitVec.msb_eq_decide]; simp; omega⟩

theorem lt_iff_bits (x : BitVec 64) (m : Nat) : x.toNat < 2 ^ m ↔ ∀ i, m ≤ i → x.getLsbD i = false := by
  constructor
  · intro h i hi
    rw [BitVec.getLsbD]
    exact Nat.testBit_lt_two_pow (Nat.lt_of_lt_of_le h (Nat.pow_le_pow_right (by omega) hi))
  · intro h
    exact Nat.lt_pow_two_of_testBit _ (fun i hi => h i hi)

theorem fillLow_iff (ll : BitVec 64) (n : Nat) (h1 : 1 ≤ n) (h8 : n ≤ 8) :
    (fillLow ll n (decide (¬ ll.toNat < 2 ^ 63)) = 0#64 ∨
      fillLow ll n (decide (¬ ll.toNat < 2 ^ 63)) = BitVec.allOnes 64) ↔
    (-(2 ^ (8 * n) : Int) ≤ ll.toInt ∧ ll.toInt < 2 ^ (8 * n)) := by
  have hb : ∀ ff i, i < 64 → (fillLow ll n ff).getLsbD i = if i < 8 * n then ff else ll.getLsbD i := by
    intro ff i hi
    unfold fillLow
    cases ff <;> by_cases hh : i < 8 * n <;>
      simp [hi, hh, BitVec.getLsbD_shiftLeft, -BitVec.reduceAllOnes, BitVec.getLsbD_allOnes, -BitVec.ofNat_eq_ofNat] <;> omega
  have h0 := hb
  rcases toInt_cases ll with ⟨hl, hI, -⟩ | ⟨hl, hI, -⟩
  · have : decide (¬ ll.toNat < 2 ^ 63) = false := by simpa using hl
    rw [this]
    have hne : fillLow ll n false ≠ BitVec.allOnes 64 := by
      intro e
      have := hb false 0 (by omega)
      rw [e] at this
      simp at this
      omega
    have hz : fillLow ll n false = 0#64 ↔ ll.toNat < 2 ^ (8 * n) := by
      rw [lt_iff_bits]
      constructor
      · intro e i hi
        by_cases hi2 : i < 64
        · have := hb false i hi2
          rw [e] at this
          simp [show ¬ i < 8 * n by omega] at this
          exact this
        · exact BitVec.getLsbD_of_ge _ _ (by omega)
      · intro e
        apply BitVec.eq_of_getLsbD_eq
        intro i hi
        rw [hb false i hi]
        by_cases hh : i < 8 * n
        · simp [hh]
        · simp [hh, e i (by omega)]
    rw [hz]
    have : (0 : Int) < 2 ^ (8 * n) := by positivity
    constructor
    · rintro (h | h)
      · refine ⟨by omega, ?_⟩
        rw [hI]; exact_mod_cast h
      · exact absurd h hne
    · rintro ⟨-, h⟩
      left
      rw [hI] at h
      exact_mod_cast h
  · have : decide (¬ ll.toNat < 2 ^ 63) = true := by simp; omega
    rw [this]
    have hne : fillLow ll n true ≠ 0#64 := by
      intro e
      have := hb true 0 (by omega)
      rw [e] at this
      simp at this
      omega
    have hz : fillLow ll n true = BitVec.allOnes 64 ↔ (~~~ ll).toNat < 2 ^ (8 * n) := by
      rw [lt_iff_bits]
      constructor
      · intro e i hi
        by_cases hi2 : i < 64
        · have := hb true i hi2
          rw [e, BitVec.getLsbD_allOnes, if_neg (show ¬ i < 8 * n by omega)] at this
          rw [BitVec.getLsbD_not, ← this]
          simp [hi2]
        · exact BitVec.getLsbD_of_ge _ _ (by omega)
      · intro e
        apply BitVec.eq_of_getLsbD_eq
        intro i hi
        rw [hb true i hi, BitVec.getLsbD_allOnes]
        by_cases hh : i < 8 * n
        · simp [hh, hi]
        · have := e i (by omega)
          rw [BitVec.getLsbD_not] at this
          simp only [hi, decide_true, Bool.true_and, Bool.not_eq_false'] at this
          rw [if_neg hh, this]; simp [hi]
    rw [hz, BitVec.toNat_not]
    have hlt := ll.isLt
    have : (0 : Int) < 2 ^ (8 * n) := by positivity
    have hc : ((2 ^ (8 * n) : Nat) : Int) = 2 ^ (8 * n) := by norm_cast
    constructor
    · rintro (h | h)
      · exact absurd h hne
      · constructor <;> omega
    · rintro ⟨h, -⟩
      right
      omega

theorem emod_ll (ll : BitVec 64) (n : Nat) (h8 : n ≤ 8) :
    ll.toInt % 2 ^ (8 * n) = ((ll.toNat % 2 ^ (8 * n) : Nat) : Int) := by
  have := ll.isLt
  rcases toInt_cases ll with ⟨hl, hI, -⟩ | ⟨hl, hI, -⟩ <;> rw [hI] <;> push_cast
  · rfl
  · interval_cases n <;> norm_num <;> omega

theorem toInt128 (k : Const) :
    (k.nat < 2 ^ 127 ∧ (k.hl ++ k.ll).toInt = k.nat) ∨
    (2 ^ 127 ≤ k.nat ∧ (k.hl ++ k.ll).toInt = (k.nat : Int) - 2 ^ 128) := by
  have h1 := k.ll.isLt
  have h2 := k.hl.isLt
  have e : (k.hl ++ k.ll).toNat = k.nat := by
    rw [BitVec.toNat_append, Const.nat, Nat.shiftLeft_eq, Nat.mul_comm, ← Nat.two_pow_add_eq_or_of_lt h1]
  rw [BitVec.toInt_eq_toNat_cond, e]
  unfold Const.nat at *
  simp
  omega

theorem leVal_replicate_zero (m : Nat) : leVal (List.replicate m 0#8) = 0 := by
  induction m with
  | zero => rfl
  | succ m ih => simp [List.replicate_succ, leVal, ih]

theorem leVal_replicate_ff (m : Nat) : leVal (List.replicate m 0xFF#8) = 256 ^ m - 1 := by
  induction m with
  | zero => rfl
  | succ m ih =>
    have hp1 : 1 ≤ 256 ^ m := Nat.one_le_pow _ _ (by omega)
    simp [List.replicate_succ, leVal, ih, Nat.pow_succ]
    omega

/-- `number` accepts exactly the numbers in range, and stores their representation. -/
theorem number_spec (c : Cfg) (k : Const) (s : St) (hs : c.inStruct = false) (h1 : 1 ≤ c.n)
    (h8 : c.n ≤ 8 → k.hl = 0#64) :
    (InRange c.n (k.value c.n) ∧ ∃ bs, Represents c.n (k.value c.n) bs ∧ number c k s = .ok (s.put bs)) ∨
    (¬ InRange c.n (k.value c.n) ∧ ∃ e, number c k s = .error e) := by
  have hl1 := k.ll.isLt
  have hl2 := k.hl.isLt
  unfold number
  simp only [hs, Bool.false_eq_true, if_false]
  by_cases hn16 : c.n > 16
  · left
    simp only [hn16, if_true]
    have hr : ¬ c.n ≤ 8 := by omega
    refine ⟨by simp [InRange, hr, show c.n ≠ 10 by omega], _, ?_, rfl⟩
    refine ⟨by simp [length_chars]; omega, ?_⟩
    rw [leVal_append, leVal_chars k 16 (by omega), length_chars, char_toNat k 15 (by omega)]
    obtain ⟨m, hm⟩ : ∃ m, c.n = 16 + m := ⟨c.n - 16, by omega⟩
    have hv : k.value c.n = (k.hl ++ k.ll).toInt := by
      simp [Const.value, hr, show ¬ c.n ≤ 16 by omega]
    have hnat : k.nat < 2 ^ 128 := by unfold Const.nat; omega
    have hpow : (2 : Nat) ^ (8 * c.n) = 2 ^ 128 * 256 ^ m := by
      rw [hm, show (256 : Nat) = 2 ^ 8 by norm_num, ← Nat.pow_mul, ← Nat.pow_add]; congr 1; omega
    have hp1 : 1 ≤ 256 ^ m := Nat.one_le_pow _ _ (by omega)
    have hpowI : (2 : Int) ^ (8 * c.n) = ((2 ^ 128 * 256 ^ m : Nat) : Int) := by rw [← hpow]; norm_cast
    rw [hv, hpowI, show c.n - 16 = m by omega]
    rcases toInt128 k with ⟨hh, e⟩ | ⟨hh, e⟩
    · have h80 : k.nat / 256 ^ 15 % 256 < 128 := by omega
      rw [if_pos h80, leVal_replicate_zero, e, Nat.mod_eq_of_lt (by omega)]
      rw [Int.emod_eq_of_lt (by omega)]
      · omega
      · have := Nat.mul_le_mul_left (2 ^ 128) hp1
        omega
    · have h80 : ¬ k.nat / 256 ^ 15 % 256 < 128 := by omega
      rw [if_neg h80, leVal_replicate_ff, e, Nat.mod_eq_of_lt (by omega)]
      obtain ⟨q, hq⟩ : ∃ q, 256 ^ m = q + 1 := ⟨256 ^ m - 1, by omega⟩
      rw [hq]
      have e2 : ((k.nat : Int) - 2 ^ 128) % ((2 ^ 128 * (q + 1) : Nat) : Int) = k.nat + 2 ^ 128 * q := by
        rw [← Int.add_emod_right, Int.emod_eq_of_lt]
        · push_cast; ring
        · push_cast
          have : (0 : Int) ≤ 2 ^ 128 * q := by positivity
          have e3 : (2 : Int) ^ 128 * (q + 1) = 2 ^ 128 * q + 2 ^ 128 := by ring
          omega
        · push_cast
          omega
      rw [e2]
      push_cast
      norm_num
  · simp only [hn16, if_false]
    by_cases hn8 : c.n ≤ 8
    · simp only [hn8, if_true, show ¬ c.n > 8 by omega, decide_false, Bool.false_and, Bool.false_eq_true, if_false]
      have hhl := h8 hn8
      have hv : k.value c.n = k.ll.toInt := by simp [Const.value, hn8]
      have hcb : decide (¬ (k.char 7).toNat < 0x80) = decide (¬ k.ll.toNat < 2 ^ 63) := by
        rw [char_toNat k 7 (by omega), Const.nat, hhl]
        congr 1
        simp
        omega
      rw [hcb]
      have hf := fillLow_iff k.ll c.n h1 hn8
      have hr : InRange c.n (k.value c.n) ↔
          (-(2 ^ (8 * c.n) : Int) ≤ k.ll.toInt ∧ k.ll.toInt < 2 ^ (8 * c.n)) := by rw [InRange, if_pos hn8, hv]
      by_cases hin : InRange c.n (k.value c.n)
      · left
        refine ⟨hin, k.chars c.n, ⟨length_chars k _, ?_⟩, ?_⟩
        · rw [leVal_chars k c.n (by omega), hv, emod_ll _ _ hn8, Const.nat, hhl]
          rw [show (256 : Nat) = 2 ^ 8 by norm_num, ← Nat.pow_mul]
          simp
        · rw [if_neg]
          rintro ⟨a, b⟩
          rcases hf.2 (hr.1 hin) with h | h
          · exact a h
          · exact b h
      · right
        refine ⟨hin, .tooLarge, ?_⟩
        rw [if_pos]
        constructor <;> intro h
        · exact hin (hr.2 (hf.1 (Or.inl h)))
        · exact hin (hr.2 (hf.1 (Or.inr h)))
    · simp only [hn8, if_false]
      obtain ⟨k', hk', hv, hmod⟩ : ∃ k' : Const,
          (if (c.n > 8 && k.neg && k.ll.msb && k.hl == 0#64) = true then
            { k with hl := BitVec.allOnes 64 } else k) = k' ∧ k.value c.n = (k'.hl ++ k'.ll).toInt ∧ True := by
        refine ⟨_, rfl, ?_, trivial⟩
        have hvu : k.value c.n = if k.neg ∧ k.ll.toInt < 0 ∧ k.hl = 0#64 then k.ll.toInt
            else (k.hl ++ k.ll).toInt := by
          simp [Const.value, hn8, show c.n ≤ 16 by omega]
        rw [hvu]
        by_cases hc : k.neg ∧ k.ll.toInt < 0 ∧ k.hl = 0#64
        · rw [if_pos hc]
          have hmsb : k.ll.msb = true := by
            rcases toInt_cases k.ll with ⟨a, b, d⟩ | ⟨a, b, d⟩
            · have := hc.2.1; omega
            · exact d
          rw [if_pos (by simp [hc.1, hmsb, hc.2.2]; omega)]
          rcases toInt_cases k.ll with ⟨a, b, d⟩ | ⟨a, b, d⟩
          · have := hc.2.1; omega
          · have e : (Const.nat { k with hl := BitVec.allOnes 64 } : Int) = (2 ^ 64 - 1) * 2 ^ 64 + k.ll.toNat := by
              simp [Const.nat]
            rcases toInt128 { k with hl := BitVec.allOnes 64 } with ⟨hh, e'⟩ | ⟨hh, e'⟩
            · omega
            · rw [b]; omega
        · rw [if_neg hc, if_neg]
          simp only [Bool.and_eq_true, beq_iff_eq, not_and, decide_eq_true_eq]
          rintro ⟨⟨-, h2⟩, h3⟩ h4
          apply hc
          refine ⟨h2, ?_, h4⟩
          rcases toInt_cases k.ll with ⟨a, b, d⟩ | ⟨a, b, d⟩
          · rw [d] at h3; simp at h3
          · omega
      rw [hk']
      have hk1 := k'.ll.isLt
      have hk2 := k'.hl.isLt
      have hrep : Represents c.n (k.value c.n) (k'.chars c.n) := by
        refine ⟨length_chars _ _, ?_⟩
        rw [leVal_chars k' c.n (by omega), hv]
        have hp : (2 : Int) ^ (8 * c.n) = ((256 ^ c.n : Nat) : Int) := by
          rw [show (256 : Nat) = 2 ^ 8 by norm_num, ← Nat.pow_mul]; norm_cast
        rw [hp]
        rcases toInt128 k' with ⟨hh, e⟩ | ⟨hh, e⟩
        · rw [e]; norm_cast
        · rw [e]
          have h128 : (2 ^ 128 : Int) = ((256 ^ c.n : Nat) : Int) * ((256 ^ (16 - c.n) : Nat) : Int) := by
            norm_cast
            rw [← Nat.pow_add, show c.n + (16 - c.n) = 16 by omega]; norm_num
          rw [h128, Int.sub_mul_emod_self_left]
          norm_cast
      by_cases hn10 : c.n = 10
      · simp only [hn10, if_true]
        have hrange : InRange 10 (k.value c.n) ↔ ¬ (0xffff < k'.hl.toNat ∧ k'.hl.toNat < 2 ^ 64 - 0xffff) := by
          rw [InRange, if_neg (by omega), if_pos rfl, hv]
          unfold Const.nat at *
          rcases toInt128 k' with ⟨hh, e⟩ | ⟨hh, e⟩ <;> rw [e] <;> unfold Const.nat at * <;> omega
        rw [hn10] at hrange hrep
        by_cases hin : InRange 10 (k.value 10)
        · left
          exact ⟨hin, _, hrep, by rw [if_neg (hrange.1 hin)]⟩
        · right
          exact ⟨hin, .tooLarge, by rw [if_pos (by_contra fun h => hin (hrange.2 h))]⟩
      · simp only [hn10, if_false]
        left
        exact ⟨by simp [InRange, hn8, hn10], _, hrep, rfl⟩

end Verif.Data
