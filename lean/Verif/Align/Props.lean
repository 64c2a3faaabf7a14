import Verif.Align.Spec
/-! # Property theorems: ALIGN / EVEN (C08) -/
namespace Verif.Align

theorem nopMax_eq (m : Mode) : nopMax m = match m with | .use16 => 3 | _ => 7 := by cases m <;> rfl

/-- The pattern of `n` bytes (1 ≤ n ≤ max) that `fillCode` ends with. -/
def pat (m : Mode) (r : Nat) : List Byte :=
  let (n, i) := findNop r (nopMax m) 1
  (List.range n).map fun k => (nopLists m).getD (i + k) 0

theorem pat_ok : ∀ m : Mode, ∀ r : Fin 8, 1 ≤ r.1 → r.1 ≤ nopMax m →
    (pat m r.1).length = r.1 := by
  intro m; cases m <;> decide

theorem toInt_pow2 (j : Nat) (hj : j ≤ 30) : (BitVec.ofNat 32 (2 ^ j)).toInt = 2 ^ j := by
  have : (2:Nat) ^ j ≤ 2 ^ 30 := Nat.pow_le_pow_right (by omega) hj
  have h : (BitVec.ofNat 32 (2 ^ j)).toNat = 2 ^ j := by
    rw [BitVec.toNat_ofNat, Nat.mod_eq_of_lt (by omega)]
  rw [BitVec.toInt_eq_toNat_of_lt (by rw [h]; omega), h]
  push_cast; rfl

theorem eatNop_pat (m : Mode) (r : Nat) (h1 : 1 ≤ r) (h2 : r ≤ nopMax m) (t : List Byte) :
    eatNop m (pat m r ++ t) = some t := by
  cases m
  · have : nopMax .use16 = 3 := rfl
    have : r = 1 ∨ r = 2 ∨ r = 3 := by omega
    rcases this with rfl | rfl | rfl
    · show eatNop _ ([0x90#8] ++ t) = _; simp [eatNop]
    · show eatNop _ ([0x8b#8, 0xc0#8] ++ t) = _; simp [eatNop]
    · show eatNop _ ([0x2e#8, 0x8b#8, 0xc0#8] ++ t) = _; simp [eatNop]
  · have : nopMax .use32 = 7 := rfl
    have : r = 1 ∨ r = 2 ∨ r = 3 ∨ r = 4 ∨ r = 5 ∨ r = 6 ∨ r = 7 := by omega
    rcases this with rfl | rfl | rfl | rfl | rfl | rfl | rfl
    · show eatNop _ ([0x90#8] ++ t) = _; simp [eatNop]
    · show eatNop _ ([0x8b#8, 0xff#8] ++ t) = _; simp [eatNop]
    · show eatNop _ ([0x8d#8, 0x40#8, 0#8] ++ t) = _; simp [eatNop, ea]
    · show eatNop _ ([0x8d#8, 0x44#8, 0x20#8, 0#8] ++ t) = _; simp [eatNop, ea]
    · show eatNop _ ([0x2e#8, 0x8d#8, 0x44#8, 0x20#8, 0#8] ++ t) = _; simp [eatNop, ea]
    · show eatNop _ ([0x8d#8, 0x80#8, 0#8, 0#8, 0#8, 0#8] ++ t) = _; simp [eatNop, ea]
    · show eatNop _ ([0x8d#8, 0xa4#8, 0x24#8, 0#8, 0#8, 0#8, 0#8] ++ t) = _; simp [eatNop, ea]
  · have : nopMax .use64 = 7 := rfl
    have : r = 1 ∨ r = 2 ∨ r = 3 ∨ r = 4 ∨ r = 5 ∨ r = 6 ∨ r = 7 := by omega
    rcases this with rfl | rfl | rfl | rfl | rfl | rfl | rfl
    · show eatNop _ ([0x90#8] ++ t) = _; simp [eatNop]
    · show eatNop _ ([0x66#8, 0x90#8] ++ t) = _; simp [eatNop]
    · show eatNop _ ([0x0f#8, 0x1f#8, 0#8] ++ t) = _; simp [eatNop, ea]
    · show eatNop _ ([0x0f#8, 0x1f#8, 0x40#8, 0#8] ++ t) = _; simp [eatNop, ea]
    · show eatNop _ ([0x0f#8, 0x1f#8, 0x44#8, 0#8, 0#8] ++ t) = _; simp [eatNop, ea]
    · show eatNop _ ([0x66#8, 0x0f#8, 0x1f#8, 0x44#8, 0#8, 0#8] ++ t) = _; simp [eatNop, ea]
    · show eatNop _ ([0x0f#8, 0x1f#8, 0x80#8, 0#8, 0#8, 0#8, 0#8] ++ t) = _; simp [eatNop, ea]

theorem big_is_pat (m : Mode) : (List.range (nopMax m)).map (fun i => (nopLists m).getD (i + 1) 0) = pat m (nopMax m) := by
  cases m <;> decide

theorem nopSeq_pat (m : Mode) (r : Nat) (h1 : 1 ≤ r) (h2 : r ≤ nopMax m) (t : List Byte) (ht : NopSeq m t) :
    NopSeq m (pat m r ++ t) := by
  refine .cons (eatNop_pat m r h1 h2 t) ?_ ht
  have h8 : r < 8 := by rw [nopMax_eq] at h2; cases m <;> simp at h2 <;> omega
  have := pat_ok m ⟨r, h8⟩ h1 h2
  simp only at this
  simp [this]; omega

theorem bigNops_spec (m : Mode) (fuel size : Nat) (hf : size ≤ fuel) :
    (bigNops m fuel size).2 ≤ nopMax m ∧ (bigNops m fuel size).1.length + (bigNops m fuel size).2 = size ∧
      ∀ t, NopSeq m t → NopSeq m ((bigNops m fuel size).1 ++ t) := by
  have hpos : 1 ≤ nopMax m ∧ nopMax m ≤ 7 := by rw [nopMax_eq]; cases m <;> simp
  induction fuel generalizing size with
  | zero =>
    have : size = 0 := by omega
    subst this
    exact ⟨by simp [bigNops], by simp [bigNops], fun t ht => by simpa [bigNops] using ht⟩
  | succ fuel ih =>
    unfold bigNops
    split
    · rename_i hgt
      obtain ⟨a, b, c⟩ := ih (size - nopMax m) (by omega)
      generalize bigNops m fuel (size - nopMax m) = x at *
      obtain ⟨bs, r⟩ := x
      simp only at *
      refine ⟨a, ?_, ?_⟩
      · simp; omega
      · intro t ht
        rw [big_is_pat, List.append_assoc]
        exact nopSeq_pat m _ hpos.1 (Nat.le_refl _) _ (c t ht)
    · exact ⟨by simp only; omega, by simp, fun t ht => by simpa using ht⟩

theorem fillCode_spec (m : Mode) (size : Nat) : (fillCode m size).length = size ∧ NopSeq m (fillCode m size) := by
  obtain ⟨a, b, c⟩ := bigNops_spec m size size (Nat.le_refl _)
  have hmax : nopMax m ≤ 7 := by rw [nopMax_eq]; cases m <;> simp
  unfold fillCode
  generalize bigNops m size size = x at *
  obtain ⟨bs, r⟩ := x
  simp only at *
  split
  · rename_i h0
    exact ⟨by omega, by simpa using c [] .nil⟩
  · rename_i h0
    have h8 : r < 8 := by omega
    have hl := pat_ok m ⟨r, h8⟩ (by simp; omega) a
    simp only at hl
    change (bs ++ pat m r).length = size ∧ NopSeq m (bs ++ pat m r)
    refine ⟨by simp [hl]; omega, c _ ?_⟩
    have := nopSeq_pat m r (by omega) a [] .nil
    simpa using this

/-- What the padding must look like. -/
def FillOk (written code : Bool) (m : Mode) (f : Fill) : Prop :=
  match f with
  | .skip n => n = 0 ∨ written = false
  | .bytes bs => written = true ∧ if code then NopSeq m bs else ∀ b ∈ bs, b = 0#8

theorem fill_spec (written code : Bool) (m : Mode) (size : Nat) :
    (fill written code m size).size = size ∧ FillOk written code m (fill written code m size) := by
  unfold fill FillOk
  cases written
  · simp [Fill.size]
  · cases code
    · simp [Fill.size]
    · have := fillCode_spec m size
      simp [Fill.size, this]

theorem pow_loop_eq (k : Nat) (hk : k ≤ 30) (v : BitVec 32) (j fuel : Nat) (hj : j ≤ k)
    (hlo : ∀ i, j ≤ i → i < k → (2 ^ i : Int) < v.toInt) (hhi : v.toInt ≤ 2 ^ k) (hf : k - j < fuel) :
    powerLoop v fuel (BitVec.ofNat 32 (2 ^ j)) = some (BitVec.ofNat 32 (2 ^ k)) := by
  induction fuel generalizing j with
  | zero => omega
  | succ fuel ih =>
    have hp := toInt_pow2
    unfold powerLoop
    simp only [BitVec.slt, hp j (by omega)]
    by_cases hjk : j = k
    · subst hjk
      rw [if_neg (by simp; omega)]
    · rw [if_pos (by simpa using hlo j (Nat.le_refl _) (by omega))]
      have : BitVec.ofNat 32 (2 ^ j) <<< 1 = BitVec.ofNat 32 (2 ^ (j + 1)) := by
        apply BitVec.eq_of_toNat_eq
        simp [Nat.shiftLeft_eq, Nat.pow_succ]
      rw [this]
      exact ih (j + 1) (by omega) (fun i h1 h2 => hlo i (by omega) h2) (by omega)

theorem align_pow (fuel : Nat) (written code : Bool) (m : Mode) (addr : BitVec 32) (k : Nat) (hk : k ≤ 30) (hf : 31 ≤ fuel) :
    align fuel written code m addr (BitVec.ofNat 32 (2 ^ k)) =
      .ok (if addr.toNat % 2 ^ k ≠ 0 then fill written code m (2 ^ k - addr.toNat % 2 ^ k) else .skip 0) := by
  have hpk : (2:Nat) ^ k ≤ 2 ^ 30 := Nat.pow_le_pow_right (by omega) hk
  have hpos : 0 < (2:Nat) ^ k := Nat.pow_pos (by omega)
  have hInt := toInt_pow2 k hk
  have := pow_loop_eq k hk (BitVec.ofNat 32 (2 ^ k)) 0 fuel (by omega) ?_ (by rw [hInt]; omega) (by omega)
  · simp only [Nat.pow_zero] at this
    unfold align
    rw [this]
    simp only [ne_eq, not_true, if_false]
    have hm : (addr % BitVec.ofNat 32 (2 ^ k)).toNat = addr.toNat % 2 ^ k := by
      rw [BitVec.toNat_umod]; simp [Nat.mod_eq_of_lt (show 2 ^ k < 4294967296 by omega)]
    have hz : addr % BitVec.ofNat 32 (2 ^ k) = 0#32 ↔ addr.toNat % 2 ^ k = 0 := by
      constructor
      · intro h; rw [← hm, h]; rfl
      · intro h; apply BitVec.eq_of_toNat_eq; rw [hm, h]; rfl
    simp only [hz]
    have hlt := Nat.mod_lt addr.toNat hpos
    have hs : (BitVec.ofNat 32 (2 ^ k) - addr % BitVec.ofNat 32 (2 ^ k)).toNat = 2 ^ k - addr.toNat % 2 ^ k := by
      rw [BitVec.toNat_sub, hm]
      simp only [BitVec.toNat_ofNat]
      rw [Nat.mod_eq_of_lt (show 2 ^ k < 2 ^ 32 by omega)]
      have := addr.isLt
      omega
    rw [hs]
  · intro i _ hi
    rw [hInt]
    have : (2:Nat) ^ i < 2 ^ k := Nat.pow_lt_pow_right (by omega) hi
    exact_mod_cast this

/-- **C08** ALIGN 2^k advances the location counter to the least multiple of 2^k that is not below it. The gap is filled with
complete no-effect instructions of the current mode in code segments, with zeros in other segments; as long as the
segment has no contents at this point the location counter is moved without writing. -/
theorem C08_align (fuel : Nat) (written code : Bool) (m : Mode) (addr : BitVec 32) (k : Nat) (hk : k ≤ 30) (hf : 31 ≤ fuel) :
    ∃ f, align fuel written code m addr (BitVec.ofNat 32 (2 ^ k)) = .ok f ∧
      2 ^ k ∣ addr.toNat + f.size ∧ f.size < 2 ^ k ∧
      (∀ n, addr.toNat ≤ n → 2 ^ k ∣ n → addr.toNat + f.size ≤ n) ∧ FillOk written code m f := by
  have hpos : 0 < (2:Nat) ^ k := Nat.pow_pos (by omega)
  have hlt := Nat.mod_lt addr.toNat hpos
  have hdm := Nat.div_add_mod addr.toNat (2 ^ k)
  refine ⟨_, align_pow fuel written code m addr k hk hf, ?_⟩
  have least : ∀ d n : Nat, d < 2 ^ k → 2 ^ k ∣ addr.toNat + d → addr.toNat ≤ n → 2 ^ k ∣ n → addr.toNat + d ≤ n := by
    intro d n hd h1 h2 h3
    obtain ⟨a, ha⟩ := h1
    obtain ⟨b, hb⟩ := h3
    apply Nat.le_of_not_lt; intro hc
    have : 2 ^ k * b < 2 ^ k * a := by omega
    have hba : b + 1 ≤ a := Nat.lt_of_mul_lt_mul_left this
    have := Nat.mul_le_mul_left (2 ^ k) hba
    rw [Nat.mul_add] at this
    omega
  split
  · rename_i h0
    obtain ⟨e1, e2⟩ := fill_spec written code m (2 ^ k - addr.toNat % 2 ^ k)
    have hd : 2 ^ k ∣ addr.toNat + (2 ^ k - addr.toNat % 2 ^ k) := by
      refine ⟨addr.toNat / 2 ^ k + 1, ?_⟩
      rw [Nat.mul_add]; omega
    rw [e1]
    exact ⟨hd, by omega, fun n => least _ n (by omega) hd, e2⟩
  · rename_i h0
    simp only [ne_eq, Classical.not_not] at h0
    have hd : 2 ^ k ∣ addr.toNat + 0 := Nat.dvd_of_mod_eq_zero h0
    refine ⟨hd, hpos, fun n => least 0 n hpos hd, Or.inl rfl⟩

/-- **C08** (EVEN) the same with 2. -/
theorem C08_even (written code : Bool) (m : Mode) (addr : BitVec 32) :
    (addr.toNat + (even written code m addr).size) % 2 = 0 ∧ (even written code m addr).size ≤ 1 ∧
      FillOk written code m (even written code m addr) := by
  have h := align_pow 31 written code m addr 1 (by omega) (by omega)
  have he : align 31 written code m addr (BitVec.ofNat 32 (2 ^ 1)) = .ok (even written code m addr) := by
    unfold align even
    have : powerLoop (BitVec.ofNat 32 (2 ^ 1)) 31 1#32 = some 2#32 := by decide
    rw [this]; rfl
  obtain ⟨f, h1, h2, h3, _, h4⟩ := C08_align 31 written code m addr 1 (by omega) (by omega)
  rw [he] at h1; cases h1
  exact ⟨Nat.mod_eq_zero_of_dvd h2, by omega, h4⟩

theorem loop_ge (v : BitVec 32) (k : Nat) (hk : k ≤ 30) (fuel : Nat) (hf : 31 ≤ fuel)
    (hlo : ∀ i < k, (2 ^ i : Int) < v.toInt) (hhi : v.toInt ≤ 2 ^ k) :
    powerLoop v fuel 1#32 = some (BitVec.ofNat 32 (2 ^ k)) :=
  pow_loop_eq k hk v 0 fuel (by omega) (fun i _ h => hlo i h) hhi (by omega)

/-- **C08** (rejection) Values up to 2^30 that are not powers of two - also zero and negative ones - are rejected with an error,
nothing is emitted. -/
theorem C08_rejects (fuel : Nat) (written code : Bool) (m : Mode) (addr v : BitVec 32) (hf : 31 ≤ fuel)
    (hv : v.toInt ≤ 2 ^ 30) (hn : ∀ k : Nat, v.toInt ≠ 2 ^ k) :
    align fuel written code m addr v = .powerOf2 v.toInt := by
  have : ∃ k ≤ 30, (∀ i < k, (2 ^ i : Int) < v.toInt) ∧ v.toInt ≤ 2 ^ k := by
    have step : ∀ n ≤ 30, (∃ k ≤ 30, (∀ i < k, (2 ^ i : Int) < v.toInt) ∧ v.toInt ≤ 2 ^ k) ∨ ∀ i < n, (2 ^ i : Int) < v.toInt := by
      intro n hn
      induction n with
      | zero => right; intro i hi; omega
      | succ n ih =>
        rcases ih (by omega) with h | h
        · exact .inl h
        · by_cases hc : v.toInt ≤ 2 ^ n
          · exact .inl ⟨n, by omega, h, hc⟩
          · right
            intro i hi
            by_cases hin : i = n
            · subst hin; omega
            · exact h i (by omega)
    rcases step 30 (Nat.le_refl _) with h | h
    · exact h
    · exact ⟨30, Nat.le_refl _, h, hv⟩
  obtain ⟨k, hk, h1, h2⟩ := this
  unfold align
  rw [loop_ge v k hk fuel hf h1 h2]
  simp only
  rw [if_pos]
  intro he
  apply hn k
  rw [← he]
  exact toInt_pow2 k hk

theorem loop_zero (v : BitVec 32) (hv : 0 < v.toInt) (fuel : Nat) : powerLoop v fuel 0#32 = none := by
  induction fuel with
  | zero => rfl
  | succ n ih => unfold powerLoop; rw [if_pos (by simpa [BitVec.slt] using hv)]; simpa using ih

/-- **C08** (finding) For a value above 2^30 the power-of-two test never ends: `ALIGN 40000001h` hangs the assembler. -/
theorem C08_large_value_hangs (fuel : Nat) (written code : Bool) (m : Mode) (addr v : BitVec 32) (hv : 2 ^ 30 < v.toInt) :
    align fuel written code m addr v = .looping := by
  have step : ∀ j ≤ 30, ∀ fuel, powerLoop v fuel (BitVec.ofNat 32 (2 ^ j)) = none := by
    intro j hj
    have : ∀ d, ∀ j, j + d = 30 → ∀ fuel, powerLoop v fuel (BitVec.ofNat 32 (2 ^ j)) = none := by
      intro d
      induction d with
      | zero =>
        intro j hj fuel
        have : j = 30 := by omega
        subst this
        cases fuel with
        | zero => rfl
        | succ fuel =>
          unfold powerLoop
          rw [if_pos (by simp [BitVec.slt] at hv ⊢; omega)]
          cases fuel with
          | zero => rfl
          | succ fuel =>
            unfold powerLoop
            rw [if_pos (by simp [BitVec.slt] at hv ⊢; omega)]
            exact loop_zero v (by omega) fuel
      | succ d ih =>
        intro j hj fuel
        cases fuel with
        | zero => rfl
        | succ fuel =>
          unfold powerLoop
          split
          · have : BitVec.ofNat 32 (2 ^ j) <<< 1 = BitVec.ofNat 32 (2 ^ (j + 1)) := by
              apply BitVec.eq_of_toNat_eq
              simp [Nat.shiftLeft_eq, Nat.pow_succ]
            rw [this]
            exact ih (j + 1) (by omega) fuel
          · rename_i hc
            exfalso
            apply hc
            have hpk : (2:Nat) ^ j ≤ 2 ^ 30 := Nat.pow_le_pow_right (by omega) (by omega)
            simp only [BitVec.slt, decide_eq_true_eq]
            rw [toInt_pow2 j (by omega)]
            have : ((2 ^ j : Nat) : Int) ≤ ((2 ^ 30 : Nat) : Int) := Int.ofNat_le.mpr hpk
            rw [Int.natCast_pow, Int.natCast_pow] at this
            exact Int.lt_of_le_of_lt this hv
    exact this (30 - j) j (by omega)
  unfold align
  rw [show (1#32) = BitVec.ofNat 32 (2 ^ 0) from rfl, step 0 (by omega) fuel]

/-- **C08** (proc/segment alignment) The internal alignment routine (OPTION PROCALIGN, 2^value) does the same. -/
theorem C08_align_internal (written code : Bool) (m : Mode) (addr : BitVec 32) (k : Nat) (hk : k ≤ 30) :
    align 31 written code m addr (BitVec.ofNat 32 (2 ^ k)) = .ok (alignCurrOffset written code m addr k) := by
  rw [align_pow 31 written code m addr k hk (by omega)]
  have hpk : (2:Nat) ^ k ≤ 2 ^ 30 := Nat.pow_le_pow_right (by omega) hk
  have hpos : 0 < (2:Nat) ^ k := Nat.pow_pos (by omega)
  have hs : 1#32 <<< k = BitVec.ofNat 32 (2 ^ k) := by
    apply BitVec.eq_of_toNat_eq; simp [Nat.shiftLeft_eq]
  have hm : (addr % BitVec.ofNat 32 (2 ^ k)).toNat = addr.toNat % 2 ^ k := by
    rw [BitVec.toNat_umod]; simp [Nat.mod_eq_of_lt (show 2 ^ k < 4294967296 by omega)]
  have hz : addr % BitVec.ofNat 32 (2 ^ k) = 0#32 ↔ addr.toNat % 2 ^ k = 0 := by
    constructor
    · intro h; rw [← hm, h]; rfl
    · intro h; apply BitVec.eq_of_toNat_eq; rw [hm, h]; rfl
  unfold alignCurrOffset
  simp only [hs, ne_eq, hz]
  have hlt := Nat.mod_lt addr.toNat hpos
  have hsub : (BitVec.ofNat 32 (2 ^ k) - addr % BitVec.ofNat 32 (2 ^ k)).toNat = 2 ^ k - addr.toNat % 2 ^ k := by
    rw [BitVec.toNat_sub, hm]
    simp only [BitVec.toNat_ofNat]
    rw [Nat.mod_eq_of_lt (show 2 ^ k < 2 ^ 32 by omega)]
    have := addr.isLt
    omega
  rw [hsub]

/-- Non-vacuity: ALIGN 16 at 1003h in 32-bit code: 13 bytes in two instructions. -/
example : align 31 true true .use32 0x1003#32 16#32 =
    .ok (.bytes [0x8d, 0xa4, 0x24, 0, 0, 0, 0, 0x8d, 0x80, 0, 0, 0, 0]) := by decide
example : align 31 true true .use64 0x1003#32 12#32 = .powerOf2 12 := by decide

end Verif.Align
