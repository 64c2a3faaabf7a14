import Verif.Num.Scan
/-! # Property theorems: numeric literals and number-to-text conversion (C03, C04, C34, C35) -/
namespace Verif.Num
open Spec

/-- **C03** Every literal, in each documented notation and every default radix 2..16, of any length, is read up to exactly
its end with its positional value modulo 2^128. -/
theorem C03_literal_value (radix : Nat) (hr : 2 ≤ radix) (hr' : radix ≤ 16) (text rest : List Nat) (v : Nat)
    (h : Literal radix text v rest) : literal radix text = some (v % 2 ^ 128, rest) :=
  literal_correct radix hr hr' text rest v h

/-- **C03** ... and exactly its value when that fits in 128 bits. -/
theorem C03_literal_exact (radix : Nat) (hr : 2 ≤ radix) (hr' : radix ≤ 16) (text rest : List Nat) (v : Nat)
    (h : Literal radix text v rest) (hv : v < 2 ^ 128) : literal radix text = some (v, rest) := by
  rw [literal_correct radix hr hr' text rest v h, Nat.mod_eq_of_lt hv]

/-- Non-vacuity: `0FFh,` is 255; `101b ` is 5 in radix 10; `0x1F` is 31; `12` is 12 in radix 10 and 10 in radix 8. -/
example : Literal 10 [48, 70, 70, 104, 44] 255 [44] :=
  .hex (s := [48, 70, 70]) (ds := [0, 15, 15]) (by simp [Digits, IsDigit]) (by simp) (by simp)
example : Literal 10 [49, 48, 49, 98, 32] 5 [32] :=
  .binB (s := [49, 48, 49]) (ds := [1, 0, 1]) (by simp [Digits, IsDigit]) (by simp) (by simp) (by decide)
    ⟨by intro d; simp only [IsDigit, first]; simp; omega, by simp [first]⟩
example : Literal 8 [49, 50] 10 [] :=
  .plain (s := [49, 50]) (ds := [1, 2]) (by simp [Digits, IsDigit]) (by simp)
    ⟨by intro d; simp only [IsDigit, first]; simp; omega, by simp [first]⟩

/-- **C03** (rejection) A digit string without suffix that contains a digit not below the default radix, and which is not
one of the `b`/`d` forms, is rejected. -/
theorem C03_bad_digit_rejected (radix : Nat) (s ds rest : List Nat) (hd : Digits 16 s ds) (hne : s ≠ [])
    (hbad : ∃ d ∈ ds, radix ≤ d) (hlast : ds.getLast? ≠ some 11 ∧ ds.getLast? ≠ some 13) (ht : Terminates (first rest)) :
    literal radix (s ++ rest) = none := by
  obtain ⟨h1, rfl, h3, h4⟩ := digits_props hd
  obtain ⟨t1, t2⟩ := terminates_facts ht
  simp only [List.mem_cons, List.not_mem_nil, or_false, not_or] at t2
  rw [← hd_eq] at t1 t2
  have e := getNumber_digits radix s rest h4 hne t1 (by omega)
  have hge : ¬ digitsSeen s < 2 ^ radix := by
    intro hlt
    obtain ⟨d, hd, hrd⟩ := hbad
    obtain ⟨c, hc, rfl⟩ := List.mem_map.mp hd
    have := (digitsSeen_lt _ _).mp hlt c hc
    omega
  have hlc : ¬ (toLower (s.getLastD 0) = 98 ∨ toLower (s.getLastD 0) = 100) := by
    obtain ⟨c, hc⟩ : ∃ c, s.getLast? = some c := by
      cases s with | nil => exact absurd rfl hne | cons a s => exact ⟨_, List.getLast?_eq_some_getLast (by simp)⟩
    rw [List.getLastD_eq_getLast?, hc]
    rw [List.getLast?_map, hc] at hlast
    simp only [Option.map_some, Option.getD_some, ne_eq, Option.some.injEq] at hlast ⊢
    unfold digitIdx at hlast
    unfold toLower at hlast ⊢
    split <;> split at hlast <;> simp_all <;> omega
  unfold literal
  rw [e]
  simp only [t2, if_false, hlc, hge, or_self, false_and]
  simp

/-- **C03** (rejection) `y`, `t`, `o`/`q` suffixed literals with a digit outside the base are rejected. -/
theorem C03_bad_suffix_rejected (radix : Nat) (s ds rest : List Nat) (x b : Nat) (hd : Digits 16 s ds) (hne : s ≠ [])
    (hx : (x ∈ [121, 89] ∧ b = 2) ∨ (x ∈ [116, 84] ∧ b = 10) ∨ (x ∈ [111, 79, 113, 81] ∧ b = 8))
    (hbad : ∃ d ∈ ds, b ≤ d) : literal radix (s ++ x :: rest) = none := by
  obtain ⟨h1, rfl, h3, h4⟩ := digits_props hd
  obtain ⟨d, hd, hrd⟩ := hbad
  obtain ⟨c, hc, rfl⟩ := List.mem_map.mp hd
  have hno : ∀ k, k ≤ 32 → k ≤ digitIdx c → okNum (digitsSeen s) (2 ^ k - 1) = false := by
    intro k hk hkc
    cases hh : okNum (digitsSeen s) (2 ^ k - 1) with
    | false => rfl
    | true => have := (okNum_iff s k hk (digits_seen32 h4)).mp hh c hc; omega
  simp only [List.mem_cons, List.not_mem_nil, or_false] at hx
  have ht : isHexChar (Num.hd (x :: rest)) = false := by
    rcases hx with ⟨rfl | rfl, rfl⟩ | ⟨rfl | rfl, rfl⟩ | ⟨rfl | rfl | rfl | rfl, rfl⟩ <;> rfl
  have ht2 : toLower (Num.hd (x :: rest)) ≠ 120 := by
    rcases hx with ⟨rfl | rfl, rfl⟩ | ⟨rfl | rfl, rfl⟩ | ⟨rfl | rfl | rfl | rfl, rfl⟩ <;> simp [Num.hd, toLower]
  have e := getNumber_digits radix s (x :: rest) h4 hne ht ht2
  unfold literal
  rw [e]
  rcases hx with ⟨hx, rfl⟩ | ⟨hx, rfl⟩ | ⟨hx, rfl⟩
  · have hl : toLower (Num.hd (x :: rest)) = 121 := by rcases hx with rfl | rfl <;> rfl
    have := hno 2 (by decide) hrd
    simp [hl, this]
  · have hl : toLower (Num.hd (x :: rest)) = 116 := by rcases hx with rfl | rfl <;> rfl
    have := hno 10 (by decide) hrd
    simp [hl, this]
  · have hl : toLower (Num.hd (x :: rest)) = 111 ∨ toLower (Num.hd (x :: rest)) = 113 := by
      rcases hx with rfl | rfl | rfl | rfl <;> simp [Num.hd, toLower]
    have := hno 8 (by decide) hrd
    rcases hl with hl | hl <;> simp [hl, this]

example : Digits 16 [49, 50] [1, 2] ∧ (∃ d ∈ [1, 2], 2 ≤ d) := by simp [Digits, IsDigit]

/-! ## C04 -/

theorem posVal_zero_cons (b : Nat) (ds : List Nat) : posVal b (0 :: ds) = posVal b ds := by simp [posVal]

/-- Text produced for an unsigned number: digits of the radix, correct value, starting with a decimal digit if asked. -/
theorem toa_unsigned {w : Nat} (value : BitVec w) (radix : Nat) (hr : 2 ≤ radix) (hr' : radix ≤ 16) (addzero : Bool)
    (hroom : 2 ^ w ≤ radix ^ 33) :
    ∃ t ds, toa w value radix false addzero = some t ∧ Digits radix t ds ∧ t ≠ [] ∧ posVal radix ds = value.toNat ∧
      (addzero = true → 48 ≤ first t ∧ first t ≤ 57) := by
  have hv : value.toNat < radix ^ 33 := Nat.lt_of_lt_of_le value.isLt hroom
  unfold toa
  by_cases h0 : value.toNat = 0
  · refine ⟨[48], [0], by simp [h0], by simp [Digits, IsDigit]; omega, by simp, by simp [posVal, h0], by simp [first]⟩
  · have hl := toaLoop_eq radix hr 33 value.toNat [] hv
    have hlt := digs_lt radix hr 33 value.toNat
    have hpv := digs_posVal radix hr 33 value.toNat hv
    have hne := digs_ne_nil radix 33 value.toNat (by decide) h0
    generalize digs radix 33 value.toNat = ds at *
    rw [List.append_nil] at hl
    have hD := digits_of_map radix hr' ds hlt
    by_cases hz : addzero = true ∧ hd (ds.map digitChar) > 57
    · refine ⟨48 :: ds.map digitChar, 0 :: ds, by simp [h0, hl, hz], ⟨by simp [IsDigit], by omega, hD⟩, by simp, ?_, by simp [first]⟩
      rw [posVal_zero_cons, hpv]
    · refine ⟨ds.map digitChar, ds, ?_, hD, by simpa using hne, hpv, ?_⟩
      · simp only [Bool.false_eq_true, if_false, h0, hl, Option.map_some]
        simp [hz]
      · intro ha
        have hz' : ¬ hd (ds.map digitChar) > 57 := fun hh => hz ⟨ha, hh⟩
        rw [hd_eq] at hz'
        refine ⟨?_, by omega⟩
        cases ds with
        | nil => exact absurd rfl hne
        | cons d ds => simp [first, digitChar]; split <;> omega

theorem toa_signed {w : Nat} (value : BitVec w) (radix : Nat) (addzero : Bool) (h0 : value.toNat ≠ 0) :
    toa w value radix true addzero = (toa w (0 - value) radix false addzero).map (45 :: ·) := by
  unfold toa
  have hn : (0 - value).toNat ≠ 0 := by
    intro h
    apply h0
    have e : (0 - value) = 0 := BitVec.eq_of_toNat_eq (by simpa using h)
    have : value = 0 := by
      have h2 := congrArg (fun z => value + z) e
      simpa [BitVec.sub_eq_add_neg] using h2
    simp [this]
  simp only [if_true, hn, if_false, Bool.false_eq_true]
  rw [Option.map_map]; rfl

theorem pow_room (radix : Nat) (hr : 2 ≤ radix) : 2 ^ 32 ≤ radix ^ 33 :=
  Nat.le_trans (by decide : 2 ^ 32 ≤ 2 ^ 33) (Nat.pow_le_pow_left hr 33)

/-- **C04** Round trip of 32-bit values in every radix 2..16, with or without the leading 0: the conversion never leaves its
buffer, and the text, met anywhere in source text in the same radix, is read back as the same value. With `addzero`
the text starts with a decimal digit (so it is tokenised as a number). -/
theorem C04_myltoa_roundtrip (value : BitVec 32) (radix : Nat) (hr : 2 ≤ radix) (hr' : radix ≤ 16) (addzero : Bool) :
    ∃ t, myltoa value radix false addzero = some t ∧
      (∀ rest, Terminates (first rest) → literal radix (t ++ rest) = some (value.toNat, rest)) ∧
      (addzero = true → 48 ≤ first t ∧ first t ≤ 57) := by
  obtain ⟨t, ds, h1, h2, h3, h4, h5⟩ := toa_unsigned value radix hr hr' addzero (pow_room radix hr)
  refine ⟨t, h1, fun rest ht => ?_, h5⟩
  have := literal_correct radix hr hr' _ _ _ (.plain h2 h3 ht)
  rw [this, h4, Nat.mod_eq_of_lt (by have := value.isLt; omega)]

/-- **C04** Signed conversion of a nonzero value: a minus sign, then the text of the negated value. -/
theorem C04_myltoa_signed (value : BitVec 32) (radix : Nat) (hr : 2 ≤ radix) (hr' : radix ≤ 16) (addzero : Bool)
    (h0 : value ≠ 0) :
    ∃ t, myltoa value radix true addzero = some (45 :: t) ∧
      (∀ rest, Terminates (first rest) → literal radix (t ++ rest) = some ((-value).toNat, rest)) := by
  have hn : value.toNat ≠ 0 := fun h => h0 (BitVec.eq_of_toNat_eq (by simpa using h))
  obtain ⟨t, h1, h2, _⟩ := C04_myltoa_roundtrip (0 - value) radix hr hr' addzero
  refine ⟨t, ?_, ?_⟩
  · unfold myltoa at *; rw [toa_signed value radix addzero hn, h1]; rfl
  · intro rest ht; rw [h2 rest ht]; simp

/-- **C04** Round trip of 64-bit values (radix 4..16; all callers use 10). -/
theorem C04_myqtoa_roundtrip (value : BitVec 64) (radix : Nat) (hr : 4 ≤ radix) (hr' : radix ≤ 16) (addzero : Bool) :
    ∃ t, myqtoa value radix false addzero = some t ∧
      (∀ rest, Terminates (first rest) → literal radix (t ++ rest) = some (value.toNat, rest)) ∧
      (addzero = true → 48 ≤ first t ∧ first t ≤ 57) := by
  obtain ⟨t, ds, h1, h2, h3, h4, h5⟩ := toa_unsigned value radix (by omega) hr' addzero
    (Nat.le_trans (by decide : 2 ^ 64 ≤ 4 ^ 33) (Nat.pow_le_pow_left hr 33))
  refine ⟨t, h1, fun rest ht => ?_, h5⟩
  have := literal_correct radix (by omega) hr' _ _ _ (.plain h2 h3 ht)
  rw [this, h4, Nat.mod_eq_of_lt (by have := value.isLt; omega)]

/-- **C04** finding: `myqtoa` would write before its buffer for a large value in radix 2 (no caller does this). -/
theorem C04_myqtoa_radix2_overflow : myqtoa (BitVec.ofNat 64 (2 ^ 33)) 2 false false = none := by decide

/-- **C04** finding: a "negative" zero (sign set, low 32 bits zero) becomes a lone minus sign. -/
theorem C04_negative_zero (radix : Nat) (addzero : Bool) : myltoa 0 radix true addzero = some [45] := by
  cases addzero <;> rfl

/-- **C04** `num2hex64` gives exactly 16 hex digits with the value. -/
theorem C04_num2hex64 (value : BitVec 64) :
    ∃ t ds, num2hex64 value = some t ∧ t.length = 16 ∧ Digits 16 t ds ∧ posVal 16 ds = value.toNat := by
  have hv : value.toNat < 16 ^ 16 := Nat.lt_of_lt_of_le value.isLt (by decide)
  have hl := toaLoop_eq 16 (by decide) 16 value.toNat [] hv
  have hlt := digs_lt 16 (by decide) 16 value.toNat
  have hpv := digs_posVal 16 (by decide) 16 value.toNat hv
  have hlen : ∀ f v, (digs 16 f v).length ≤ f := by
    intro f
    induction f with
    | zero => simp [digs]
    | succ f ih => intro v; unfold digs; split <;> simp; exact ih _
  have hlen := hlen 16 value.toNat
  unfold num2hex64
  generalize digs 16 16 value.toNat = ds at *
  rw [List.append_nil] at hl
  have hD := digits_of_map 16 (by decide) ds hlt
  have hz : ∀ n, Digits 16 (List.replicate n 48 ++ ds.map digitChar) (List.replicate n 0 ++ ds) ∧
      posVal 16 (List.replicate n 0 ++ ds) = posVal 16 ds := by
    intro n
    induction n with
    | zero => simpa using hD
    | succ n ih =>
      refine ⟨⟨by simp [IsDigit], by decide, ih.1⟩, ?_⟩
      rw [List.replicate_succ, List.cons_append, posVal_zero_cons, ih.2]
  refine ⟨List.replicate (16 - ds.length) 48 ++ ds.map digitChar, List.replicate (16 - ds.length) 0 ++ ds, ?_, ?_, (hz _).1, ?_⟩
  · rw [hl]; simp
  · simp; omega
  · rw [(hz _).2, hpv]

/-- **C34** Numbers in generated source lines mean the same in every `.RADIX`: the `%d` text of any 32-bit value, met before
any terminating character in any default radix 2..16, is read back as that value (negative values: minus sign first). -/
theorem C34_generated_number (radix : Nat) (hr : 2 ≤ radix) (hr' : radix ≤ 16) (l : BitVec 32) :
    ∃ t, fmtD radix l = some (if l.msb then 45 :: t else t) ∧
      ∀ rest, Terminates (first rest) →
        literal radix (t ++ rest) = some ((if l.msb then (-l).toNat else l.toNat), rest) := by
  have key : ∀ v : BitVec 32, ∃ t, (toa 32 v 10 false false).map (· ++ if radix ≠ 10 then [116] else []) = some t ∧
      ∀ rest, Terminates (first rest) → literal radix (t ++ rest) = some (v.toNat, rest) := by
    intro v
    obtain ⟨t, ds, h1, h2, h3, h4, h5⟩ := toa_unsigned v 10 (by decide) (by decide) false (pow_room 10 (by decide))
    have hm : v.toNat % 2 ^ 128 = v.toNat := Nat.mod_eq_of_lt (by have := v.isLt; omega)
    by_cases h10 : radix = 10
    · subst h10
      refine ⟨t, by simp [h1], fun rest ht => ?_⟩
      rw [literal_correct 10 hr hr' _ _ _ (.plain h2 h3 ht), h4, hm]
    · refine ⟨t ++ [116], by simp [h1, h10], fun rest ht => ?_⟩
      rw [List.append_assoc, List.singleton_append, literal_correct radix hr hr' _ _ _ (.dec h2 h3 (by simp)), h4, hm]
  unfold fmtD myltoa
  cases hm : l.msb with
  | false =>
    obtain ⟨t, h1, h2⟩ := key l
    exact ⟨t, by simpa using h1, by simpa using h2⟩
  | true =>
    have h0 : l.toNat ≠ 0 := by
      intro h; have : l = 0 := BitVec.eq_of_toNat_eq (by simpa using h)
      subst this; simp at hm
    obtain ⟨t, h1, h2⟩ := key (0 - l)
    refine ⟨t, ?_, fun rest ht => ?_⟩
    · rw [toa_signed l 10 false h0]
      cases h3 : toa 32 (0 - l) 10 false false with
      | none => rw [h3] at h1; simp at h1
      | some u => rw [h3] at h1; simp at h1; subst h1; simp
    · rw [h2 rest ht]; simp

/-- Non-vacuity: in radix 16 the value 10 is written `10t` and read back as 10. -/
example : fmtD 16 10#32 = some [49, 48, 116] ∧ literal 16 [49, 48, 116] = some (10, []) := by decide

/-- **C35** (partial) A numeric macro argument `%expr` is replaced by text denoting the value of the expression (nonzero
part in the current radix). Proved for values with absolute value below 2^32.
Missing: outside that range the text denotes a different number, see `C35_pct_truncates`, `C35_pct_lone_minus`. -/
theorem C35_pct_argument_partial (radix : Nat) (hr : 2 ≤ radix) (hr' : radix ≤ 16) (v : BitVec 64)
    (hv : v.toInt.natAbs < 2 ^ 32) :
    ∃ t, pctArg radix v = some (if v.toInt < 0 then 45 :: t else t) ∧
      ∀ rest, Terminates (first rest) → literal radix (t ++ rest) = some (v.toInt.natAbs, rest) := by
  unfold pctArg
  have hlt := v.isLt
  cases hm : v.msb with
  | false =>
    have hti : v.toInt = v.toNat := BitVec.toInt_eq_toNat_of_msb hm
    obtain ⟨t, h1, h2, _⟩ := C04_myltoa_roundtrip (v.truncate 32) radix hr hr' false
    refine ⟨t, ?_, fun rest ht => ?_⟩
    · rw [h1, if_neg (by omega)]
    · rw [h2 rest ht, hti, BitVec.truncate_eq_setWidth, BitVec.toNat_setWidth, Nat.mod_eq_of_lt (by omega)]; simp
  | true =>
    have hti : v.toInt = v.toNat - 2 ^ 64 := by rw [BitVec.toInt_eq_msb_cond, hm]; simp
    have hnat : (v.truncate 32).toNat = 2 ^ 32 - (2 ^ 64 - v.toNat) := by
      rw [BitVec.truncate_eq_setWidth, BitVec.toNat_setWidth]; omega
    have hne : (v.truncate 32) ≠ 0 := by intro h; rw [h] at hnat; simp at hnat; omega
    obtain ⟨t, h1, h2⟩ := C04_myltoa_signed (v.truncate 32) radix hr hr' false hne
    refine ⟨t, ?_, fun rest ht => ?_⟩
    · rw [h1, if_pos (by omega)]
    · rw [h2 rest ht]
      congr 2
      rw [BitVec.toNat_neg, hnat]
      omega

example : ((-5 : BitVec 64)).toInt.natAbs < 2 ^ 32 := by decide

/-- **C35** counterexample: `%100000001h` becomes `1`. -/
theorem C35_pct_truncates : pctArg 10 (BitVec.ofNat 64 0x100000001) = some [49] := by decide
/-- **C35** counterexample: `%(-100000000h)` becomes a lone `-`. -/
theorem C35_pct_lone_minus : pctArg 10 (BitVec.ofInt 64 (-0x100000000)) = some [45] := by decide

end Verif.Num
