import Verif.Num.Model
import Verif.Num.Spec
/-! # Helper lemmas for numeric literals -/
namespace Verif.Num
open Spec

/-! ## digits -/

theorem isDigit_props {c d : Nat} (h : IsDigit c d) :
    isHexChar c = true ∧ digitIdx c = d ∧ (digitVal32 c).toNat = d ∧ d ≤ 15 ∧ (c ||| 0x20) ≠ 0x78 ∧ toLower c ≠ 120 := by
  unfold IsDigit at h
  have hd : d ≤ 15 := by omega
  have hc : c ≤ 102 := by omega
  rcases h with ⟨h1, rfl⟩ | ⟨h1, h2, rfl | rfl⟩
  · rcases d with _|_|_|_|_|_|_|_|_|_|d <;> first | decide | omega
  · obtain ⟨e, rfl⟩ : ∃ e, d = 10 + e := ⟨d - 10, by omega⟩
    rcases e with _|_|_|_|_|_|e <;> first | decide | omega
  · obtain ⟨e, rfl⟩ : ∃ e, d = 10 + e := ⟨d - 10, by omega⟩
    rcases e with _|_|_|_|_|_|e <;> first | decide | omega

theorem isHexChar_iff (c : Nat) : isHexChar c = true ↔ ∃ d, IsDigit c d := by
  constructor
  · intro h
    have h := of_decide_eq_true h
    unfold toLower at h
    by_cases h1 : 48 ≤ c ∧ c ≤ 57
    · exact ⟨c - 48, Or.inl (by omega)⟩
    · by_cases h2 : 65 ≤ c ∧ c ≤ 90
      · rw [if_pos h2] at h
        exact ⟨c - 55, Or.inr (by omega)⟩
      · rw [if_neg h2] at h
        exact ⟨c - 87, Or.inr (by omega)⟩
  · rintro ⟨d, h⟩; exact (isDigit_props h).1

/-- Properties of a digit string. -/
theorem digits_props {base : Nat} : ∀ {s ds : List Nat}, Digits base s ds →
    (∀ c ∈ s, isHexChar c = true) ∧ ds = s.map digitIdx ∧ (∀ d ∈ ds, d < base) ∧ (∀ c ∈ s, IsDigit c (digitIdx c))
  | [], [], _ => by simp
  | c :: s, d :: ds, h => by
    obtain ⟨h1, h2, h3⟩ := h
    obtain ⟨i1, i2, i3, i4⟩ := digits_props h3
    obtain ⟨p1, p2, _⟩ := isDigit_props h1
    refine ⟨by simpa [p1] using i1, by simp [p2, i2], by simpa [h2] using i3, ?_⟩
    intro c' hc'
    rcases List.mem_cons.mp hc' with rfl | hc'
    · rw [p2]; exact h1
    · exact i4 c' hc'
  | [], _ :: _, h => by simp [Digits] at h
  | _ :: _, [], h => by simp [Digits] at h

theorem takeWhile_append {p : Nat → Bool} {s rest : List Nat} (h : ∀ c ∈ s, p c = true) (hr : p (hd rest) = false) (h0 : p 0 = false) :
    (s ++ rest).takeWhile p = s := by
  induction s with
  | nil =>
    cases rest with
    | nil => rfl
    | cons r rs => simp [hd] at hr; simp [hr]
  | cons c s ih =>
    simp only [List.cons_append, List.takeWhile_cons, h c List.mem_cons_self, if_true]
    rw [ih (fun c' h' => h c' (List.mem_cons_of_mem _ h'))]

/-! ## the bit set of digits seen -/

theorem foldl_or_testBit (s : List Nat) (a i : Nat) :
    (s.foldl (fun a c => a ||| (1 <<< digitIdx c)) a).testBit i = (a.testBit i || s.any (fun c => digitIdx c = i)) := by
  induction s generalizing a with
  | nil => simp
  | cons c s ih =>
    simp only [List.foldl_cons, ih, Nat.testBit_or, List.any_cons, Bool.or_assoc]
    congr 1
    congr 1
    rw [Nat.one_shiftLeft, Nat.testBit_two_pow]

theorem digitsSeen_testBit (s : List Nat) (i : Nat) :
    (digitsSeen s).testBit i = s.any (fun c => digitIdx c = i) := by
  simp [digitsSeen, foldl_or_testBit]

theorem digitsSeen_lt (s : List Nat) (r : Nat) : digitsSeen s < 2 ^ r ↔ ∀ c ∈ s, digitIdx c < r := by
  constructor
  · intro h c hc
    apply Nat.lt_of_not_le
    intro hge
    have hb : (digitsSeen s).testBit (digitIdx c) = true := by
      rw [digitsSeen_testBit, List.any_eq_true]; exact ⟨c, hc, by simp⟩
    have := Nat.ge_two_pow_of_testBit hb
    have := Nat.pow_le_pow_right (n := 2) (by omega) hge
    omega
  · intro h
    apply Nat.lt_pow_two_of_testBit
    intro i hi
    rw [digitsSeen_testBit, List.any_eq_false]
    intro c hc
    have := h c hc
    simp; omega

theorem okNum_iff (s : List Nat) (k : Nat) (hk : k ≤ 32) (h32 : digitsSeen s < 2 ^ 32) :
    okNum (digitsSeen s) (2 ^ k - 1) = true ↔ ∀ c ∈ s, digitIdx c < k := by
  rw [← digitsSeen_lt]
  have hm : ∀ i, (0xFFFFFFFF - (2 ^ k - 1)).testBit i = (decide (i < 32) && !decide (i < k)) := by
    intro i
    have : 0xFFFFFFFF - (2 ^ k - 1) = 2 ^ 32 - ((2 ^ k - 1) + 1) := by omega
    rw [this, Nat.testBit_two_pow_sub_succ (by have := Nat.pow_le_pow_right (n := 2) (by omega) hk; have := Nat.two_pow_pos k; omega)]
    rw [Nat.testBit_two_pow_sub_one]
  unfold okNum
  rw [decide_eq_true_eq]
  constructor
  · intro h
    apply Nat.lt_pow_two_of_testBit
    intro i hi
    by_cases h' : (digitsSeen s).testBit i = true
    · exfalso
      have hi32 : i < 32 := by
        apply Nat.lt_of_not_le; intro h''
        have := Nat.ge_two_pow_of_testBit h'
        have := Nat.pow_le_pow_right (n := 2) (by omega) h''
        omega
      have : (digitsSeen s &&& (0xFFFFFFFF - (2 ^ k - 1))).testBit i = true := by
        rw [Nat.testBit_and, h', hm]; simp [hi32, hi]
      rw [h] at this; simp at this
    · simpa using h'
  · intro h
    apply Nat.eq_of_testBit_eq
    intro i
    rw [Nat.testBit_and, hm, Nat.zero_testBit]
    by_cases hi : i < k
    · simp [hi]
    · have : (digitsSeen s).testBit i = false := by
        apply Nat.testBit_lt_two_pow
        have := Nat.pow_le_pow_right (n := 2) (by omega) (Nat.le_of_not_lt hi)
        omega
      simp [this]

/-! ## the 128-bit multiply-add -/

theorem limbs_length (base : BitVec 32) (val : BitVec 32) (ls : List (BitVec 16)) :
    (limbs base val ls).length = ls.length := by
  induction ls generalizing val with
  | nil => rfl
  | cons l ls ih => simp [limbs, ih]

theorem limbs_val (base : BitVec 32) (hb : base.toNat ≤ 16) (ls : List (BitVec 16)) (val : BitVec 32) (hv : val.toNat < 65536) :
    limbsNat (limbs base val ls) = (val.toNat + base.toNat * limbsNat ls) % 65536 ^ ls.length := by
  induction ls generalizing val with
  | nil => simp [limbs, limbsNat, Nat.mod_one]
  | cons l ls ih =>
    have hl := l.isLt
    have hmul : l.toNat * base.toNat ≤ 65535 * 16 := Nat.mul_le_mul (by omega) hb
    have hvn : (val + l.zeroExtend 32 * base).toNat = val.toNat + l.toNat * base.toNat := by
      simp only [BitVec.toNat_add, BitVec.toNat_mul, BitVec.truncate_eq_setWidth, BitVec.toNat_setWidth]
      rw [Nat.mod_eq_of_lt (show l.toNat < 2 ^ 32 by omega), Nat.mod_eq_of_lt (show l.toNat * base.toNat < 2 ^ 32 by omega),
        Nat.mod_eq_of_lt (by omega)]
    have hsh : ((val + l.zeroExtend 32 * base) >>> 16).toNat = (val.toNat + l.toNat * base.toNat) / 65536 := by
      rw [BitVec.toNat_ushiftRight, hvn, Nat.shiftRight_eq_div_pow]
    simp only [limbs, limbsNat]
    rw [ih _ (by rw [hsh]; omega), hsh]
    simp only [BitVec.truncate_eq_setWidth, BitVec.toNat_setWidth]
    rw [show (val + BitVec.setWidth 32 l * base).toNat = val.toNat + l.toNat * base.toNat from hvn]
    generalize hX : val.toNat + l.toNat * base.toNat = X
    rw [List.length_cons, Nat.pow_succ' (m := 65536)]
    rw [Nat.mod_mul (x := val.toNat + base.toNat * (l.toNat + 65536 * limbsNat ls))]
    have e : val.toNat + base.toNat * (l.toNat + 65536 * limbsNat ls) = X + 65536 * (base.toNat * limbsNat ls) := by
      rw [← hX, Nat.mul_add, Nat.mul_comm base.toNat l.toNat, Nat.mul_left_comm, Nat.add_assoc]
    rw [e]
    rw [Nat.add_mul_mod_self_left, Nat.add_mul_div_left _ _ (by decide)]

theorem posVal_append (b : Nat) (xs : List Nat) (d : Nat) : posVal b (xs ++ [d]) = posVal b xs * b + d := by
  induction xs with
  | nil => simp [posVal]
  | cons x xs ih =>
    simp only [List.cons_append, posVal, ih, List.length_append, List.length_singleton]
    rw [Nat.add_mul, Nat.mul_assoc, ← Nat.pow_succ, Nat.succ_eq_add_one]; omega

theorem fold_val (b : Nat) (hb : b ≤ 16) (s : List Nat) (hs : ∀ c ∈ s, IsDigit c (digitIdx c)) :
    ∀ (a : List (BitVec 16)), a.length = 8 →
      let r := s.foldl (fun a c => limbs (BitVec.ofNat 32 b) (digitVal32 c) a) a
      r.length = 8 ∧ limbsNat r % 2 ^ 128 = (limbsNat a * b ^ s.length + posVal b (s.map digitIdx)) % 2 ^ 128 := by
  induction s with
  | nil => intro a ha; simp [posVal, ha]
  | cons c s ih =>
    intro a ha
    have hd := isDigit_props (hs c List.mem_cons_self)
    have hbb : (BitVec.ofNat 32 b).toNat = b := by simp; omega
    have hl : (limbs (BitVec.ofNat 32 b) (digitVal32 c) a).length = 8 := by rw [limbs_length, ha]
    have hstep := limbs_val (BitVec.ofNat 32 b) (by omega) a (digitVal32 c) (by omega)
    obtain ⟨h1, h2⟩ := ih (fun c' h' => hs c' (List.mem_cons_of_mem _ h')) _ hl
    refine ⟨h1, ?_⟩
    simp only [List.foldl_cons]
    rw [h2, hstep, ha, hbb, hd.2.2.1]
    simp only [List.map_cons, posVal, List.length_map, List.length_cons]
    rw [show (65536 ^ 8 : Nat) = 2 ^ 128 by decide]
    rw [Nat.add_mod, Nat.mul_mod, Nat.mod_mod, ← Nat.mul_mod, ← Nat.add_mod]
    congr 1
    rw [Nat.pow_succ, Nat.add_mul, Nat.mul_comm b (limbsNat a), Nat.mul_assoc, Nat.mul_comm b (b ^ s.length)]
    omega

theorem limbsNat_lt : ∀ a : List (BitVec 16), limbsNat a < 65536 ^ a.length
  | [] => by simp [limbsNat]
  | l :: ls => by
    have := limbsNat_lt ls
    have hl := l.isLt
    simp only [limbsNat, List.length_cons, Nat.pow_succ]
    omega

/-- `myatoi128` on a plain digit string. -/
theorem myatoi128_digits (b : Nat) (hb : b ≤ 16) (s tail : List Nat) (hs : ∀ c ∈ s, IsDigit c (digitIdx c)) (hne : s ≠ [])
    (hx : hd tail ≠ 120 ∧ hd tail ≠ 88) :
    limbsNat (myatoi128 (s ++ tail) b s.length) = posVal b (s.map digitIdx) % 2 ^ 128 := by
  have hlen : max s.length 1 = s.length := by cases s with | nil => exact absurd rfl hne | cons => simp
  have hnopre : ¬ ((hd ((s ++ tail).drop 1) ||| 0x20) = 0x78 ∧ hd (s ++ tail) = 0x30) := by
    rintro ⟨h, -⟩
    cases s with
    | nil => exact hne rfl
    | cons c s =>
      simp only [List.cons_append, List.drop_succ_cons, List.drop_zero] at h
      cases s with
      | cons c' s =>
        exact (isDigit_props (hs c' (by simp))).2.2.2.2.1 (by simpa [hd] using h)
      | nil =>
        simp only [List.nil_append] at h
        generalize hd tail = t at h hx
        have ht : t ≤ 0x78 := by rw [← h]; exact Nat.left_le_or
        have : ∀ t ≤ 0x78, (t ||| 0x20) = 0x78 → t = 120 ∨ t = 88 := by decide
        rcases this t ht h with h | h <;> omega
  obtain ⟨h1, h2⟩ := fold_val b hb s hs (List.replicate 8 0#16) (by simp)
  unfold myatoi128
  simp only [hnopre, if_false, hlen, List.take_left]
  have := limbsNat_lt (s.foldl (fun a c => limbs (BitVec.ofNat 32 b) (digitVal32 c) a) (List.replicate 8 0#16))
  rw [h1, show (65536 ^ 8 : Nat) = 2 ^ 128 by decide] at this
  rw [Nat.mod_eq_of_lt this] at h2
  rw [h2]
  have : limbsNat (List.replicate 8 0#16) = 0 := by decide
  rw [this]; simp

theorem myatoi128_chex (s : List Nat) (x : Nat) (hx : x = 120 ∨ x = 88) (hs : ∀ c ∈ s, IsDigit c (digitIdx c)) (hne : s ≠ []) :
    limbsNat (myatoi128 (48 :: x :: s) 16 s.length) = posVal 16 (s.map digitIdx) % 2 ^ 128 := by
  have hlen : max s.length 1 = s.length := by cases s with | nil => exact absurd rfl hne | cons => simp
  have hpre : ((hd ((48 :: x :: s).drop 1) ||| 0x20) = 0x78 ∧ hd (48 :: x :: s) = 0x30) := by
    rcases hx with rfl | rfl <;> simp [hd]
  obtain ⟨h1, h2⟩ := fold_val 16 (by decide) s hs (List.replicate 8 0#16) (by simp)
  unfold myatoi128
  rw [if_pos hpre]
  simp only [hlen, List.drop_succ_cons, List.drop_zero, List.take_length]
  have := limbsNat_lt (s.foldl (fun a c => limbs (BitVec.ofNat 32 16) (digitVal32 c) a) (List.replicate 8 0#16))
  rw [h1, show (65536 ^ 8 : Nat) = 2 ^ 128 by decide] at this
  rw [Nat.mod_eq_of_lt this] at h2
  rw [h2]
  have : limbsNat (List.replicate 8 0#16) = 0 := by decide
  rw [this]; simp

end Verif.Num
