import Verif.Strings.Model
import Verif.Strings.Spec
import Verif.Num.Props
/-! # C15: string functions -/

namespace Verif.Strings

open Spec

theorem strstr_some {p q : Text} {k} (h : strstr p q = some k) :
    ∃ a b, p = a ++ q ++ b ∧ a.length = k := by
  induction p generalizing k with
  | nil =>
    unfold strstr at h
    split at h
    · next hq => cases h; exact ⟨[], [], by simp [List.isEmpty_iff.1 hq], rfl⟩
    · cases h
  | cons c p ih =>
    unfold strstr at h
    split at h
    · next hq =>
      cases h
      obtain ⟨b, hb⟩ := List.isPrefixOf_iff_prefix.1 hq
      exact ⟨[], b, by simp [hb], rfl⟩
    · cases hs : strstr p q with
      | none => rw [hs] at h; cases h
      | some k' =>
        rw [hs] at h; cases h
        obtain ⟨a, b, e, l⟩ := ih hs
        exact ⟨c :: a, b, by simp [e], by simp [l]⟩

theorem strstr_first {p q : Text} {a b : Text} (h : p = a ++ q ++ b) :
    ∃ k, strstr p q = some k ∧ k ≤ a.length := by
  induction p generalizing a with
  | nil =>
    have : q = [] := by
      have := congrArg List.length h
      simp at this; exact List.eq_nil_of_length_eq_zero (by omega)
    subst this
    exact ⟨0, by simp [strstr], by simp⟩
  | cons c p ih =>
    unfold strstr
    split
    · exact ⟨0, rfl, by simp⟩
    · next hn =>
      cases a with
      | nil => exact absurd (List.isPrefixOf_iff_prefix.2 ⟨b, by simpa using h.symm⟩) hn
      | cons d a =>
        simp only [List.cons_append, List.cons.injEq] at h
        obtain ⟨k, e, l⟩ := ih h.2
        exact ⟨k + 1, by simp [e], by simp; omega⟩

theorem occursAt_iff (s sub : Text) (hs : sub ≠ []) (n j : Nat) (h : n + 1 ≤ j) : OccursAt s sub j ↔
    ∃ a b, s.drop n = a ++ sub ++ b ∧ a.length + 1 + n = j := by
  constructor
  · rintro ⟨a, b, e, l⟩
    refine ⟨a.drop n, b, ?_, by simp; omega⟩
    rw [e, List.append_assoc, List.drop_append_of_le_length (by omega), List.append_assoc]
  · rintro ⟨a, b, e, l⟩
    by_cases hn : n ≤ s.length
    · refine ⟨s.take n ++ a, b, ?_, by simp [hn]; omega⟩
      have : s = s.take n ++ s.drop n := (List.take_append_drop n s).symm
      rw [e] at this
      simpa using this
    · have hd : s.drop n = [] := List.drop_eq_nil_of_le (by omega)
      rw [hd] at e
      have := congrArg List.length e
      simp only [List.length_nil, List.length_append] at this
      exact absurd (List.eq_nil_of_length_eq_zero (by omega)) hs

/-- The search both InStr functions make. -/
theorem position_strstr (s sub : Text) (n : Nat) (hs : sub ≠ []) :
    Position s sub (n + 1) (match strstr (s.drop n) sub with | some k => n + k + 1 | none => 0) := by
  cases h : strstr (s.drop n) sub with
  | none =>
    refine .inr ⟨rfl, .inr ?_⟩
    intro j hj ho
    obtain ⟨a, b, e, _⟩ := (occursAt_iff s sub hs n j hj).1 ho
    obtain ⟨k, e', _⟩ := strstr_first e
    rw [h] at e'; cases e'
  | some k =>
    refine .inl ⟨hs, by show n + 1 ≤ n + k + 1; omega, ?_, ?_⟩
    · obtain ⟨a, b, e, l⟩ := strstr_some h
      exact (occursAt_iff s sub hs n _ (by show n + 1 ≤ n + k + 1; omega)).2 ⟨a, b, e, by show a.length + 1 + n = n + k + 1; omega⟩
    · intro j hj hk ho
      obtain ⟨a, b, e, l⟩ := (occursAt_iff s sub hs n j hj).1 ho
      obtain ⟨k', e', l'⟩ := strstr_first e
      rw [h] at e'; cases e'
      have hk : j < n + k + 1 := hk
      omega

theorem isPart_drop (s : Text) (pos size : Nat) (h1 : 1 ≤ pos) (h2 : pos - 1 + size ≤ s.length) :
    IsPart s pos size ((s.drop (pos - 1)).take size) := by
  refine ⟨s.take (pos - 1), (s.drop (pos - 1)).drop size, ?_, by simp; omega, by simp; omega⟩
  rw [List.append_assoc, List.take_append_drop, List.take_append_drop]

theorem len32 {s : Text} (h : s.length < 2 ^ 31) : (BitVec.ofNat 32 s.length).toInt = s.length := by
  rw [BitVec.toInt_eq_toNat_cond, BitVec.toNat_ofNat, Nat.mod_eq_of_lt (by omega), if_pos (by omega)]

theorem nonneg_toNat (a : BitVec 32) (h : 0 ≤ a.toInt) : a.toInt = a.toNat ∧ a.toNat < 2 ^ 31 := by
  have := BitVec.toInt_eq_toNat_cond a
  have := a.isLt
  split at * <;> omega

theorem of_toNat (a : BitVec 32) (h : a.toNat < 2 ^ 31) : a.toInt = a.toNat := by
  have := BitVec.toInt_eq_toNat_cond a
  split at * <;> omega

theorem add_sub_one (a b : BitVec 32) (h1 : 0 < a.toInt) (h2 : 0 ≤ b.toInt) (h3 : a.toInt + b.toInt - 1 < 2 ^ 31) :
    (a + b - 1).toInt = a.toInt + b.toInt - 1 := by
  obtain ⟨e1, l1⟩ := nonneg_toNat a (by omega)
  obtain ⟨e2, l2⟩ := nonneg_toNat b h2
  have e : (a + b - 1).toNat = a.toNat + b.toNat - 1 := by
    rw [BitVec.toNat_sub, BitVec.toNat_add, show (1 : BitVec 32).toNat = 1 from rfl]; omega
  rw [of_toNat _ (by omega), e]; omega

theorem sub_add_one (a b : BitVec 32) (h1 : 0 < b.toInt) (h2 : b.toInt ≤ a.toInt) :
    (a - b + 1).toInt = a.toInt - b.toInt + 1 := by
  obtain ⟨e1, l1⟩ := nonneg_toNat a (by omega)
  obtain ⟨e2, l2⟩ := nonneg_toNat b (by omega)
  have e : (a - b + 1).toNat = a.toNat - b.toNat + 1 := by
    rw [BitVec.toNat_add, BitVec.toNat_sub, show (1 : BitVec 32).toNat = 1 from rfl]; omega
  rw [of_toNat _ (by omega), e]; omega

/-- An operand that is a 32-bit value. -/
def Small (v : BitVec 64) : Prop := -2 ^ 31 ≤ v.toInt ∧ v.toInt < 2 ^ 31

theorem value32_small {v : BitVec 64} (h : Small v) : (value32 v).toInt = v.toInt := by
  unfold value32
  have h1 := h.1
  have h2 := h.2
  have hv := BitVec.toInt_eq_toNat_cond v
  have := BitVec.toInt_eq_toNat_cond (v.setWidth 32)
  have hl := v.isLt
  rw [BitVec.toNat_setWidth] at this
  rw [this]
  split at hv <;> split <;> omega

theorem copyPart_ok (src : Text) (pos size : BitVec 32) (h1 : 0 < pos.toInt)
    (h2 : 0 ≤ size.toInt) (h3 : pos.toInt - 1 + size.toInt ≤ src.length) :
    copyPart src pos size = .ok ((src.drop (pos.toInt.toNat - 1)).take size.toInt.toNat) := by
  unfold copyPart
  rw [if_pos ⟨h3, h2⟩]
  have : (pos.toInt - 1).toNat = pos.toInt.toNat - 1 := by omega
  rw [this]

/-- **C15 @SubStr** with 32-bit operands: position 0 means 1; otherwise the part of the text, or the
error that belongs to the operands. -/
theorem C15_substr_func (src : Text) (hs : src.length < 2 ^ 31) (pos size : BitVec 64) (hp : Small pos)
    (hz : Small size) :
    let p := if pos.toInt = 0 then 1 else pos.toInt
    (0 < p ∧ p ≤ src.length ∧ 0 ≤ size.toInt ∧ p - 1 + size.toInt ≤ src.length →
      ∃ r, subStrFunc src pos (some size) = .ok r ∧ IsPart src p.toNat size.toInt.toNat r) ∧
    (p < 0 ∨ src.length < p → subStrFunc src pos (some size) = .err .pastEnd) ∧
    (0 < p → p ≤ src.length → size.toInt < 0 → subStrFunc src pos (some size) = .err .countNegative) ∧
    (0 < p → p ≤ src.length → src.length < p - 1 + size.toInt → subStrFunc src pos (some size) = .err .tooLarge) ∧
    (0 < p ∧ p ≤ src.length →
      ∃ r, subStrFunc src pos none = .ok r ∧ IsPart src p.toNat (src.length - (p.toNat - 1)) r) ∧
    (p < 0 ∨ src.length < p → subStrFunc src pos none = .err .pastEnd) := by
  intro p
  have hpv := value32_small hp
  have hzv := value32_small hz
  have hl := len32 hs
  -- the adjusted position
  have hadj : (if value32 pos = 0 then (1 : BitVec 32) else value32 pos).toInt = p := by
    by_cases h0 : pos.toInt = 0
    · have : value32 pos = 0 := BitVec.eq_of_toInt_eq (by rw [hpv, h0]; rfl)
      simp only [this, if_true, p, h0]; rfl
    · have : value32 pos ≠ 0 := by
        intro h; rw [h] at hpv; exact h0 (by rw [← hpv]; rfl)
      simp only [if_neg this, p, if_neg h0, hpv]
  have hneg : (value32 pos).toInt < 0 ↔ p < 0 := by
    rw [hpv]; show _ ↔ (if pos.toInt = 0 then (1 : Int) else pos.toInt) < 0
    split <;> omega
  have hp1 : 0 ≤ p → 0 < p := by
    show 0 ≤ (if pos.toInt = 0 then (1 : Int) else pos.toInt) → 0 < (if pos.toInt = 0 then (1 : Int) else pos.toInt)
    split <;> omega
  have hrest : 0 < p → p ≤ src.length →
      (BitVec.ofNat 32 src.length - (if value32 pos = 0 then (1 : BitVec 32) else value32 pos) + 1).toInt =
        src.length - p + 1 := by
    intro a b
    rw [sub_add_one _ _ (by rw [hadj]; exact a) (by rw [hadj, hl]; exact b), hl, hadj]
  refine ⟨?_, ?_, ?_, ?_, ?_, ?_⟩
  · rintro ⟨a, b, c, d⟩
    refine ⟨(src.drop (p.toNat - 1)).take size.toInt.toNat, ?_, isPart_drop src _ _ (by omega) (by omega)⟩
    unfold subStrFunc
    rw [if_neg (by rw [hneg]; omega)]
    simp only [hadj, hl]
    rw [if_neg (by omega)]
    rw [hrest a b, hzv, if_neg (by omega), if_neg (by omega)]
    rw [copyPart_ok _ _ _ (by rw [hadj]; exact a) (by rw [hzv]; exact c) (by rw [hadj, hzv]; exact d), hadj, hzv]
  · intro h
    unfold subStrFunc
    by_cases hn : p < 0
    · rw [if_pos (hneg.2 hn)]
    · rw [if_neg (fun h => hn (hneg.1 h))]
      simp only [hadj, hl]
      rw [if_pos (by omega)]
  · intro a b c
    unfold subStrFunc
    rw [if_neg (by rw [hneg]; omega)]
    simp only [hadj, hl]
    rw [if_neg (by omega), hzv, if_pos c]
  · intro a b c
    unfold subStrFunc
    rw [if_neg (by rw [hneg]; omega)]
    simp only [hadj, hl]
    rw [if_neg (by omega), hzv, if_neg (by omega), hrest a b, if_pos (by omega)]
  · rintro ⟨a, b⟩
    refine ⟨(src.drop (p.toNat - 1)).take (src.length - (p.toNat - 1)), ?_, isPart_drop src _ _ (by omega) (by omega)⟩
    unfold subStrFunc
    rw [if_neg (by rw [hneg]; omega)]
    simp only [hadj, hl]
    rw [if_neg (by omega)]
    rw [copyPart_ok _ _ _ (by rw [hadj]; exact a) (by rw [hrest a b]; omega) (by rw [hadj, hrest a b]; omega), hadj,
      hrest a b]
    have : ((src.length : Int) - p + 1).toNat = src.length - (p.toNat - 1) := by omega
    rw [this]
  · intro h
    unfold subStrFunc
    by_cases hn : p < 0
    · rw [if_pos (hneg.2 hn)]
    · rw [if_neg (fun h => hn (hneg.1 h))]
      simp only [hadj, hl]
      rw [if_pos (by omega)]

/-- **C15 SUBSTR** (directive), with 32-bit operands whose sum does not exceed the range of `int`. -/
theorem C15_substr_dir_partial (src : Text) (hs : src.length < 2 ^ 31) (pos size : BitVec 64) (hp : Small pos)
    (hz : Small size) (hsum : pos.toInt + size.toInt - 1 < 2 ^ 31) :
    (0 < pos.toInt ∧ pos.toInt ≤ src.length ∧ 0 ≤ size.toInt ∧ pos.toInt - 1 + size.toInt ≤ src.length →
      ∃ r, subStrDir src pos (some size) = .ok r ∧ IsPart src pos.toInt.toNat size.toInt.toNat r) ∧
    (¬ (0 < pos.toInt ∧ pos.toInt ≤ src.length ∧ 0 ≤ size.toInt ∧ pos.toInt - 1 + size.toInt ≤ src.length) →
      ∃ e, subStrDir src pos (some size) = .err e) ∧
    (0 < pos.toInt ∧ pos.toInt ≤ src.length →
      ∃ r, subStrDir src pos none = .ok r ∧ IsPart src pos.toInt.toNat (src.length - (pos.toInt.toNat - 1)) r) ∧
    (¬ (0 < pos.toInt ∧ pos.toInt ≤ src.length) → ∃ e, subStrDir src pos none = .err e) := by
  have hpv := value32_small hp
  have hzv := value32_small hz
  have hl := len32 hs
  have hsum' : 0 < pos.toInt → 0 ≤ size.toInt →
      (value32 pos + value32 size - 1).toInt = pos.toInt + size.toInt - 1 := by
    intro a b
    have := add_sub_one (value32 pos) (value32 size) (by omega) (by omega) (by omega)
    rw [this, hpv, hzv]
  have hrest : 0 < pos.toInt → pos.toInt ≤ src.length →
      (BitVec.ofNat 32 src.length - value32 pos + 1).toInt = src.length - pos.toInt + 1 := by
    intro a b
    rw [sub_add_one _ _ (by rw [hpv]; exact a) (by rw [hpv, hl]; exact b), hl, hpv]
  refine ⟨?_, ?_, ?_, ?_⟩
  · rintro ⟨a, b, c, d⟩
    refine ⟨(src.drop (pos.toInt.toNat - 1)).take size.toInt.toNat, ?_, isPart_drop src _ _ (by omega) (by omega)⟩
    unfold subStrDir
    simp only [hpv, hzv, hl, hsum' a c]
    rw [if_neg (by omega), if_neg (by omega), if_neg (by omega), if_neg (by omega)]
    rw [copyPart_ok _ _ _ (by rw [hpv]; exact a) (by rw [hzv]; exact c) (by rw [hpv, hzv]; exact d), hpv, hzv]
  · intro h
    unfold subStrDir
    simp only [hpv, hzv, hl]
    by_cases h1 : pos.toInt ≤ 0
    · exact ⟨_, by rw [if_pos h1]⟩
    · rw [if_neg h1]
      by_cases h2 : size.toInt < 0
      · exact ⟨_, by rw [if_pos h2]⟩
      · rw [if_neg h2]
        by_cases h3 : pos.toInt > src.length
        · exact ⟨_, by rw [if_pos h3]⟩
        · rw [if_neg h3, hsum' (by omega) (by omega), if_pos (by omega)]
          exact ⟨_, rfl⟩
  · rintro ⟨a, b⟩
    refine ⟨(src.drop (pos.toInt.toNat - 1)).take (src.length - (pos.toInt.toNat - 1)), ?_,
      isPart_drop src _ _ (by omega) (by omega)⟩
    unfold subStrDir
    simp only [hpv, hl]
    rw [if_neg (by omega), if_neg (by omega)]
    rw [copyPart_ok _ _ _ (by rw [hpv]; exact a) (by rw [hrest a b]; omega) (by rw [hpv, hrest a b]; omega), hpv,
      hrest a b]
    have : ((src.length : Int) - pos.toInt + 1).toNat = src.length - (pos.toInt.toNat - 1) := by omega
    rw [this]
  · intro h
    unfold subStrDir
    simp only [hpv, hl]
    by_cases h1 : pos.toInt ≤ 0
    · exact ⟨_, by rw [if_pos h1]⟩
    · rw [if_neg h1, if_pos (by omega)]
      exact ⟨_, rfl⟩

/-- **C15, finding.** `x SUBSTR <abc>, 2, 7FFFFFFFh`: the check `pos+size-1 > cnt` overflows and the
directive copies 2 GB from a 3 byte string. -/
theorem C15_substr_dir_overflow : subStrDir [97, 98, 99] 2 (some 0x7FFFFFFF) = .crash := by decide

/-- **C15, finding.** Positions are taken modulo 2^32: `x SUBSTR <abc>, 100000002h` is accepted. -/
theorem C15_position_truncated : subStrDir [97, 98, 99] 0x100000002 none = .ok [98, 99] := by decide

/-- The start position of INSTR: 1 if not given. -/
def startOf : Option (BitVec 64) → Int
  | none => 1
  | some v => v.toInt

/-- The start position of @InStr: 1 if not given or 0. -/
def startOf1 : Option (BitVec 64) → Int
  | none => 1
  | some v => if v.toInt = 0 then 1 else v.toInt

/-- **C15 INSTR** (directive). -/
theorem C15_instr_dir (src sub : Text) (hs : src.length < 2 ^ 31) (pos : Option (BitVec 64))
    (hp : ∀ v, pos = some v → Small v) :
    let start := startOf pos
    (start ≤ src.length → 0 < start → ∃ k, inStrDir pos src sub = .ok (BitVec.ofNat 32 k) ∧ k ≤ src.length ∧
      Position src sub start.toNat k) ∧
    (start ≤ 0 → inStrDir pos src sub = .ok 0) ∧
    (src.length < start → inStrDir pos src sub = .err .pastEnd) := by
  intro start
  have hl := len32 hs
  have hst : (dirStart pos).toInt = start := by
    cases pos with
    | none => rfl
    | some v => exact value32_small (hp v rfl)
  refine ⟨?_, ?_, ?_⟩
  · intro a b
    unfold inStrDir
    simp only [hst, hl]
    rw [if_neg (by omega)]
    by_cases hc : src.length ≥ sub.length ∧ sub.length ≠ 0
    · have hne : sub ≠ [] := by rintro rfl; simp at hc
      have P := position_strstr src sub (start - 1).toNat hne
      have hsn : (start - 1).toNat + 1 = start.toNat := by omega
      rw [hsn] at P
      rw [if_pos ⟨b, hc⟩]
      cases hf : strstr (src.drop (start - 1).toNat) sub with
      | none =>
        rw [hf] at P
        exact ⟨0, rfl, by omega, P⟩
      | some k =>
        rw [hf] at P
        refine ⟨_, rfl, ?_, P⟩
        obtain ⟨x, y, e, l⟩ := strstr_some hf
        have := congrArg List.length e
        simp only [List.length_drop, List.length_append] at this
        omega
    · rw [if_neg (fun h => hc h.2)]
      refine ⟨0, rfl, by omega, .inr ⟨rfl, ?_⟩⟩
      by_cases hz : sub = []
      · exact .inl hz
      · refine .inr fun j _ ho => hc ?_
        obtain ⟨x, y, e, _⟩ := ho
        have := congrArg List.length e
        simp only [List.length_append] at this
        have : sub.length ≠ 0 := fun h => hz (List.eq_nil_of_length_eq_zero h)
        exact ⟨by omega, this⟩
  · intro a
    unfold inStrDir
    simp only [hst, hl]
    rw [if_neg (by omega), if_neg (by omega)]
  · intro a
    unfold inStrDir
    simp only [hst, hl]
    rw [if_pos (by omega)]

/-- The text `t` denotes the number `n` in the current radix. -/
def Denotes (radix : Nat) (t : Text) (n : Nat) : Prop :=
  ∀ rest, Num.Spec.Terminates (Num.Spec.first rest) → Num.literal radix (t ++ rest) = some (n, rest)

theorem denotes_zero (radix : Nat) (hr : 2 ≤ radix) (hr' : radix ≤ 16) : Denotes radix [48] 0 := by
  intro rest ht
  have : Num.Spec.Literal radix ([48] ++ rest) (Num.Spec.posVal radix [0]) rest :=
    .plain ⟨.inl ⟨by omega, rfl⟩, by omega, trivial⟩ (by simp) ht
  have := Num.C03_literal_value radix hr hr' _ _ _ this
  simpa [Num.Spec.posVal] using this

/-- **C15 @InStr**: the position of the first occurrence at or after `pos` (0 counts as 1) as a number in
the current radix; error if the position is negative or beyond the end. -/
theorem C15_instr_func (radix : Nat) (hr : 2 ≤ radix) (hr' : radix ≤ 16) (src sub : Text)
    (hs : src.length < 2 ^ 31) (pos : Option (BitVec 64)) (hp : ∀ v, pos = some v → Small v) :
    let start := startOf1 pos
    (0 < start → start ≤ src.length → ∃ t k, inStrFunc radix pos src sub = .ok t ∧ Denotes radix t k ∧
      Position src sub start.toNat k) ∧
    (start < 0 ∨ src.length < start → inStrFunc radix pos src sub = .err .pastEnd) := by
  intro start
  have hst : (funcStart pos).toInt = start := by
    cases pos with
    | none => rfl
    | some v =>
      have hv := value32_small (hp v rfl)
      show (if value32 v = 0 then (1 : BitVec 32) else value32 v).toInt = if v.toInt = 0 then 1 else v.toInt
      by_cases h0 : v.toInt = 0
      · have : value32 v = 0 := BitVec.eq_of_toInt_eq (by rw [hv, h0]; rfl)
        simp only [this, if_true, h0]; rfl
      · have : value32 v ≠ 0 := by
          intro h; rw [h] at hv; exact h0 (by rw [← hv]; rfl)
        simp only [if_neg this, if_neg h0, hv]
  have hsx : ∀ p : BitVec 32, 0 < p.toInt → (p.signExtend 64).toNat = p.toInt.toNat := by
    intro p h
    have h1 : (p.signExtend 64).toInt = p.toInt := BitVec.toInt_signExtend_of_le (by omega)
    have := BitVec.toInt_eq_toNat_cond (p.signExtend 64)
    rw [h1] at this
    split at this <;> omega
  have hsn : ∀ p : BitVec 32, p.toInt < 0 → (p.signExtend 64).toNat ≥ 2 ^ 63 := by
    intro p h
    have h1 : (p.signExtend 64).toInt = p.toInt := BitVec.toInt_signExtend_of_le (by omega)
    have := BitVec.toInt_eq_toNat_cond (p.signExtend 64)
    rw [h1] at this
    split at this <;> omega
  constructor
  · intro a b
    unfold inStrFunc
    simp only []
    rw [hsx _ (by rw [hst]; exact a), hst]
    rw [if_neg (by omega)]
    have z := denotes_zero radix hr hr'
    by_cases he : sub.isEmpty = true
    · rw [if_pos he]
      exact ⟨_, 0, rfl, z, .inr ⟨rfl, .inl (List.isEmpty_iff.1 he)⟩⟩
    · rw [if_neg he]
      have hne : sub ≠ [] := by rintro rfl; exact he rfl
      have P := position_strstr src sub (start.toNat - 1) hne
      rw [show start.toNat - 1 + 1 = start.toNat by omega] at P
      cases hf : strstr (src.drop (start.toNat - 1)) sub with
      | none => rw [hf] at P; exact ⟨_, 0, rfl, z, P⟩
      | some k =>
        rw [hf] at P
        obtain ⟨t, h1, h2, _⟩ := Num.C04_myltoa_roundtrip (BitVec.ofNat 32 (start.toNat - 1 + k + 1)) radix hr hr' true
        refine ⟨t, _, by simp [h1], ?_, P⟩
        have : (BitVec.ofNat 32 (start.toNat - 1 + k + 1)).toNat = start.toNat - 1 + k + 1 := by
          rw [BitVec.toNat_ofNat, Nat.mod_eq_of_lt]
          obtain ⟨x, y, e, l⟩ := strstr_some hf
          have := congrArg List.length e
          simp only [List.length_drop, List.length_append] at this
          have : sub.length ≠ 0 := fun h => hne (List.eq_nil_of_length_eq_zero h)
          omega
        rw [this] at h2
        exact h2
  · intro h
    unfold inStrFunc
    simp only []
    rw [if_pos]
    rcases h with h | h
    · have := hsn _ (by rw [hst]; exact h)
      omega
    · rw [hsx _ (by rw [hst]; omega), hst]; omega

/-- **C15 @SizeStr**. -/
theorem C15_sizestr_func (radix : Nat) (hr : 2 ≤ radix) (hr' : radix ≤ 16) (src : Option Text)
    (hs : (src.getD []).length < 2 ^ 32) :
    ∃ t, sizeStrFunc radix src = .ok t ∧ Denotes radix t (src.getD []).length := by
  cases src with
  | none => exact ⟨_, rfl, denotes_zero radix hr hr'⟩
  | some s =>
    obtain ⟨t, h1, h2, _⟩ := Num.C04_myltoa_roundtrip (BitVec.ofNat 32 s.length) radix hr hr' true
    refine ⟨t, by simp [sizeStrFunc, h1], ?_⟩
    have : (BitVec.ofNat 32 s.length).toNat = s.length := by
      rw [BitVec.toNat_ofNat, Nat.mod_eq_of_lt (show s.length < 2 ^ 32 from hs)]
    rw [this] at h2
    exact h2

/-- **C15 SIZESTR**. -/
theorem C15_sizestr_dir (src : Text) (hs : src.length < 2 ^ 32) : (sizeStrDir src).toNat = src.length := by
  unfold sizeStrDir; rw [BitVec.toNat_ofNat, Nat.mod_eq_of_lt hs]

theorem catCheck_iff (items : List Text) : ∀ count, count < MAX_LINE_LEN →
    (catCheck count items = none ↔ MAX_LINE_LEN ≤ count + items.flatten.length) := by
  induction items with
  | nil => intro c h; simp [catCheck]; exact h
  | cons t ts ih =>
    intro c h
    unfold catCheck
    split
    · simp; omega
    · rw [ih _ (by omega)]; simp; omega

theorem catCopy_eq (items : List Text) : catCopy items = items.flatten := by
  induction items with
  | nil => rfl
  | cons t ts ih => simp [catCopy, ih]

/-- **C15 CATSTR/TEXTEQU**: the concatenation, if it has fewer than 1024 characters, else an error. -/
theorem C15_catstr_dir (items : List Text) : catStrDir items =
    if items.flatten.length < 1024 then .ok items.flatten else .err .tooLong := by
  unfold catStrDir
  have h := catCheck_iff items 0 (by decide)
  split
  · next h' =>
    rw [if_neg]
    have := h.1 h'
    simp only [MAX_LINE_LEN] at this; omega
  · next h' =>
    rw [if_pos, catCopy_eq]
    rw [h'] at h
    simp only [reduceCtorEq, false_iff, MAX_LINE_LEN] at h
    omega

/-! ### @CatStr -/

theorem strlen_put (s : Text) (hz : ∀ c ∈ s, c ≠ 0) : ∀ (m : Memory) (p : Nat),
    (∀ k, (h : k < s.length) → m (p + k) = s[k]) → m (p + s.length) = 0 → strlen m p = some s.length := by
  induction s with
  | nil => intro m p _ h; rw [strlen.eq_def, if_pos (by simpa using h)]; rfl
  | cons c s ih =>
    intro m p h h0
    have hc : m p = c := by have := h 0 (by simp); simpa using this
    rw [strlen.eq_def, if_neg (by rw [hc]; exact hz c (by simp))]
    rw [ih (fun x hx => hz x (by simp [hx])) m (p + 1)]
    · simp
    · intro k hk
      have := h (k + 1) (by simp; omega)
      rw [show p + 1 + k = p + (k + 1) by omega, this]; simp
    · rw [show p + 1 + s.length = p + (s.length + 1) by omega]; simpa using h0

theorem storeArgs_below (args : List Text) : ∀ (m : Memory) (p a : Nat), a < p → storeArgs m p args a = m a := by
  induction args with
  | nil => intro m p a _; rfl
  | cons s as ih =>
    intro m p a h
    unfold storeArgs
    rw [ih _ _ _ (by unfold alignedPtr; omega)]
    unfold putStr
    rw [if_neg (by omega), if_neg (by omega)]

/-- **C15 @CatStr**: the arguments stored by the macro expansion are found again and concatenated. -/
theorem C15_catstr_func (args : List Text) (hz : ∀ s ∈ args, ∀ c ∈ s, c ≠ 0) (m : Memory) (p : Nat) :
    catStrFunc (storeArgs m p args) p args.length = some args.flatten := by
  induction args generalizing m p with
  | nil => rfl
  | cons s as ih =>
    have hb : ∀ a, a < alignedPtr p s.length → storeArgs m p (s :: as) a = putStr m p s a := by
      intro a ha
      show storeArgs (putStr m p s) (alignedPtr p s.length) as a = _
      exact storeArgs_below as _ _ a ha
    have hlt : p + s.length < alignedPtr p s.length := by unfold alignedPtr; omega
    have hc : ∀ k, (h : k < s.length) → storeArgs m p (s :: as) (p + k) = s[k] := by
      intro k hk
      rw [hb _ (by omega)]
      unfold putStr
      rw [if_pos (by omega), show p + k - p = k by omega]
      simp [List.getD, hk]
    have h0 : storeArgs m p (s :: as) (p + s.length) = 0 := by
      rw [hb _ hlt]; unfold putStr; rw [if_neg (by omega), if_pos rfl]
    show (strlen _ p).bind _ = _
    rw [strlen_put s (hz s (by simp)) _ p hc h0]
    simp only [Option.bind_some]
    have := ih (fun x hx => hz x (by simp [hx])) (putStr m p s) (alignedPtr p s.length)
    show (catStrFunc (storeArgs (putStr m p s) (alignedPtr p s.length) as) _ as.length).bind _ = _
    rw [this]
    simp only [Option.bind_some]
    show some _ = some _
    congr 1
    rw [List.flatten_cons]
    congr 1
    apply List.ext_getElem
    · simp
    · intro i h1 h2
      simp only [List.getElem_map, List.getElem_range]
      exact hc i h2

/-! ### Examples -/

example : subStrFunc [97, 98, 99, 100] 2 (some 2) = .ok [98, 99] := by decide
example : inStrDir none [97, 98, 97, 98] [98] = .ok 2 := by decide
example : inStrDir (some 3) [97, 98, 97, 98] [98] = .ok 4 := by decide
example : inStrFunc 10 none [97, 98] [98] = .ok [50] := by decide
example : Small 3 ∧ Small (-5) := by constructor <;> (unfold Small; decide)
example : catStrDir [[97], [], [98, 99]] = .ok [97, 98, 99] := by decide

end Verif.Strings
