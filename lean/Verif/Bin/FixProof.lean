import Verif.Bin.FixSpec
namespace Verif.Bin
open Spec

theorem put_out : ∀ (n : Nat) (mem : Mem) (i v j : Nat), (j < i ∨ i + n ≤ j) → put n mem i v j = mem j
  | 0, _, _, _, _, _ => rfl
  | n + 1, mem, i, v, j, h => by
    unfold put
    rw [put_out n _ (i + 1) (v / 256) j (by omega)]
    exact if_neg (by omega)

theorem rd_congr : ∀ (n : Nat) {m m' : Mem} (i : Nat), (∀ j, i ≤ j → j < i + n → m j = m' j) → rd n m i = rd n m' i
  | 0, _, _, _, _ => rfl
  | n + 1, m, m', i, h => by
    unfold rd
    rw [h i (by omega) (by omega), rd_congr n (i + 1) (fun j h1 h2 => h j (by omega) (by omega))]

theorem rd_put : ∀ (n : Nat) (mem : Mem) (i v : Nat), rd n (put n mem i v) i = v % 256 ^ n
  | 0, _, _, v => by simp [rd, Nat.mod_one]
  | n + 1, mem, i, v => by
    unfold rd put
    rw [rd_put n, put_out n _ _ _ _ (by omega)]
    simp only [if_true, BitVec.toNat_ofNat]
    rw [show (256 : Nat) ^ (n + 1) = 256 * 256 ^ n by rw [Nat.pow_succ, Nat.mul_comm], Nat.mod_mul]

theorem rd_lt : ∀ (n : Nat) (mem : Mem) (i : Nat), rd n mem i < 256 ^ n
  | 0, _, _ => by simp [rd]
  | n + 1, mem, i => by
    have := rd_lt n mem (i + 1)
    have h := (mem i).isLt
    unfold rd
    rw [Nat.pow_succ]; omega

theorem and_mask (x : W) (k : Nat) (hk : k ≤ 32) : (x &&& BitVec.ofNat 32 (2 ^ k - 1)).toNat = x.toNat % 2 ^ k := by
  rw [BitVec.toNat_and, BitVec.toNat_ofNat]
  have : (2 ^ k - 1) % 2 ^ 32 = 2 ^ k - 1 := Nat.mod_eq_of_lt (by
    have := Nat.pow_le_pow_right (n := 2) (by omega) hk
    have := Nat.two_pow_pos k
    omega)
  rw [this, Nat.and_two_pow_sub_one_eq_mod]

theorem and_f (x : W) : (x &&& 0xF).toNat = x.toNat % 16 := and_mask x 4 (by omega)
theorem and_ff (x : W) : (x &&& 0xff).toNat = x.toNat % 256 := and_mask x 8 (by omega)
theorem and_ffff (x : W) : (x &&& 0xffff).toNat = x.toNat % 65536 := and_mask x 16 (by omega)

theorem para_toNat (x : W) : ((x >>> 4) <<< 4).toNat = x.toNat / 16 * 16 := by
  rw [BitVec.toNat_shiftLeft, BitVec.toNat_ushiftRight, Nat.shiftRight_eq_div_pow, Nat.shiftLeft_eq]
  have := x.isLt
  omega

/-- Offset in the frame of the group. -/
theorem frame_grp {f : FFix} {s : FSeg} {o g : W} (hg : s.group = some g) (hf : f.frame ≠ .seg) :
    frameOffset f s o = (g &&& 0xF) + s.startOffset + o := by
  unfold frameOffset paragraph linear groupStart
  rw [hg]
  rw [if_pos ⟨rfl, hf⟩]
  apply BitVec.eq_of_toNat_eq
  simp only [Option.getD_some, BitVec.toNat_sub, BitVec.toNat_add, para_toNat, and_f]
  have := g.isLt
  omega

/-- Offset in the frame of the segment. -/
theorem frame_seg {f : FFix} {s : FSeg} {o : W} (hn : ¬ (s.group.isSome ∧ f.frame ≠ .seg))
    (ha : groupStart s &&& 0xF = 0) :
    frameOffset f s o = (s.startOffset &&& 0xF) + o := by
  have ha' : (groupStart s).toNat % 16 = 0 := by rw [← and_f, ha]; rfl
  unfold frameOffset paragraph linear
  rw [if_neg hn]
  apply BitVec.eq_of_toNat_eq
  simp only [BitVec.toNat_sub, BitVec.toNat_add, para_toNat, and_f]
  have := (groupStart s).isLt
  have := s.startOffset.isLt
  omega

/-- The first switch for a fixup with target, by kind of type. -/
theorem value_target {p : FPar} {u : Bool} {f : FFix} {s : FSeg} {o : W} {v64 : BitVec 64}
    (ht : Target f s o) :
    fixValue p u f v64 =
      match f.type with
      | .imgRel => some (o + s.startOffset - p.imagestart, v64, some s)
      | .secRel =>
        (match beforeDollar s.name with
        | none => some (o - s.startLoc, v64, some s)
        | some n =>
          match p.segs.find? (fun s => s.name = n) with
          | none => some (o - s.startLoc, v64, some s)
          | some first => some (o + s.startOffset - first.startOffset, v64, some s))
      | .relOff8 | .relOff16 | .relOff32 => some (s.startOffset + o, v64, some s)
      | _ =>
        match s.group with
        | some g =>
          if f.frame ≠ .seg then
            if p.fmt = .pe ∨ p.fmt = .b64 then
              some ((g &&& 0xF) + s.startOffset + o + p.imagebase,
                if u then ((g &&& 0xF) + s.startOffset + o).setWidth 64 + p.imagebase64 else v64, some s)
            else some ((g &&& 0xF) + s.startOffset + o, v64, some s)
          else some ((s.startOffset &&& 0xF) + o, v64, some s)
        | none => some ((s.startOffset &&& 0xF) + o, v64, some s) := by
  obtain ⟨y, hy, h⟩ := ht
  unfold fixValue
  rw [hy]
  simp only
  rcases h with ⟨hv, hs, ho⟩ | ⟨hv, hs, ho⟩
  · rw [if_pos (by simp [hv])]
    have z : ∀ x : W, x + 0 = x := fun x => BitVec.add_zero x
    simp only [hv, hs, if_true, ho, z]
    cases f.type <;> rfl
  · rw [if_pos (by simp [hs])]
    simp only [hv, hs, Bool.false_eq_true, if_false, ho]
    cases f.type <;> simp only [BitVec.add_assoc] <;> rfl

/-- The value of an offset fixup. -/
theorem value_off {p : FPar} {u : Bool} {f : FFix} {s : FSeg} {o : W} {v64 : BitVec 64}
    (ht : Target f s o) (hty : f.type ≠ .imgRel ∧ f.type ≠ .secRel ∧ f.type ≠ .relOff8 ∧ f.type ≠ .relOff16 ∧
      f.type ≠ .relOff32)
    (hsup : ¬ (s.group.isSome ∧ f.frame ≠ .seg) → groupStart s &&& 0xF = 0) :
    ∃ w64, fixValue p u f v64 = some (frameOffset f s o + base32 p f s, w64, some s) ∧
      (s.group.isSome → f.frame ≠ .seg → p.fmt = .pe → u = true →
        w64 = (frameOffset f s o).setWidth 64 + p.imagebase64) := by
  rw [value_target ht]
  cases hg : s.group with
  | none =>
    have hn : ¬ (s.group.isSome ∧ f.frame ≠ .seg) := by rw [hg]; simp
    rw [frame_seg hn (hsup hn)]
    have hb : base32 p f s = 0 := by unfold base32; exact if_neg (fun h => hn h.2)
    rw [hb, show ∀ x : W, x + 0 = x from fun x => BitVec.add_zero x]
    exact ⟨v64, by cases hf : f.type <;> rw [hf] at hty <;> simp at hty <;> rfl, by intro h; simp at h⟩
  | some g =>
    by_cases hf : f.frame = .seg
    · have hn : ¬ (s.group.isSome ∧ f.frame ≠ .seg) := fun h => h.2 hf
      rw [frame_seg hn (hsup hn)]
      have hb : base32 p f s = 0 := by unfold base32; exact if_neg (fun h => hn h.2)
      rw [hb, show ∀ x : W, x + 0 = x from fun x => BitVec.add_zero x]
      refine ⟨v64, ?_, fun _ h => absurd hf h⟩
      simp only [hf, ne_eq, not_true_eq_false, if_false]
      cases ht : f.type <;> rw [ht] at hty <;> simp at hty <;> rfl
    · rw [frame_grp hg hf]
      by_cases hpe : p.fmt = .pe ∨ p.fmt = .b64
      · have hb : base32 p f s = p.imagebase := by
          unfold base32; exact if_pos ⟨hpe, by rw [hg]; rfl, hf⟩
        rw [hb]
        refine ⟨if u then ((g &&& 0xF) + s.startOffset + o).setWidth 64 + p.imagebase64 else v64, ?_, ?_⟩
        · simp only [ne_eq, hf, not_false_eq_true, if_true, hpe]
          cases ht : f.type <;> rw [ht] at hty <;> simp at hty <;> rfl
        · intro _ _ _ hu; rw [hu]; rfl
      · have hb : base32 p f s = 0 := by unfold base32; exact if_neg (fun h => hpe h.1)
        rw [hb, show ∀ x : W, x + 0 = x from fun x => BitVec.add_zero x]
        refine ⟨v64, ?_, fun _ _ h => absurd (Or.inl h) hpe⟩
        simp only [ne_eq, hf, not_false_eq_true, if_true, hpe, if_false]
        cases ht : f.type <;> rw [ht] at hty <;> simp at hty <;> rfl

theorem rel_arith {A T : W} {old : Nat} {n : Nat} (hn : n ≤ 4) {k : Nat} (hk : k = (T - A).toNat % 256 ^ n) :
    (A.toNat + (old + k) % 256 ^ n) % 256 ^ n = (T.toNat + old) % 256 ^ n := by
  subst hk
  have hd : (2 : Nat) ^ 32 % 256 ^ n = 0 := by
    have : (2 : Nat) ^ 32 = 256 ^ n * 256 ^ (4 - n) := by rw [← Nat.pow_add, show n + (4 - n) = 4 by omega]
    rw [this, Nat.mul_mod_right]
  have hT : (A.toNat + (T - A).toNat) % 256 ^ n = T.toNat % 256 ^ n := by
    rw [BitVec.toNat_sub]
    have hA := A.isLt
    obtain ⟨q, hq⟩ : ∃ q, 2 ^ 32 = 256 ^ n * q := ⟨2 ^ 32 / 256 ^ n, (Nat.mul_div_cancel' (Nat.dvd_of_mod_eq_zero hd)).symm⟩
    by_cases hle : A.toNat ≤ T.toNat
    · have : (2 ^ 32 - A.toNat + T.toNat) % 2 ^ 32 = T.toNat - A.toNat := by
        have := T.isLt; omega
      rw [this, Nat.add_sub_cancel' hle]
    · have : (2 ^ 32 - A.toNat + T.toNat) % 2 ^ 32 = 2 ^ 32 - A.toNat + T.toNat := Nat.mod_eq_of_lt (by omega)
      rw [this, show A.toNat + (2 ^ 32 - A.toNat + T.toNat) = T.toNat + 2 ^ 32 by omega, hq, Nat.add_mul_mod_self_left]
  rw [Nat.add_mod_mod, ← Nat.add_assoc, Nat.add_mod_mod, Nat.add_right_comm,
    Nat.add_mod _ old, hT, ← Nat.add_mod]

end Verif.Bin
