import Verif.Omf.Proofs
/-! # A linker reads back what was written -/
namespace Verif.Omf

theorem rdIndex_idxBytes (i : BitVec 16) (t : List Byte) (h : i.toNat ≤ 0x7fff) :
    rdIndex (idxBytes i ++ t) = some (i.toNat, t) := by
  unfold idxBytes
  have h1 := lo_toNat i
  have h2 := hi_toNat i
  split
  · have h3 := or80_toNat (hi i) (by omega)
    simp only [List.cons_append, List.nil_append, rdIndex, h3]
    rw [if_neg (by omega)]
    simp only [h1, h2]; congr 2; omega
  · simp only [List.cons_append, List.nil_append, rdIndex, h1]
    rw [if_pos (by omega)]; congr 2; omega

theorem rdWord_wordBytes (w : BitVec 16) (t : List Byte) : rdWord (wordBytes w ++ t) = some (w.toNat, t) := by
  simp only [wordBytes, List.cons_append, List.nil_append, rdWord, lo_toNat, hi_toNat]
  congr 2; omega

theorem rdDword_le32 (w : BitVec 32) (t : List Byte) : rdDword (le32 w ++ t) = some (w.toNat, t) := by
  have := w.isLt
  simp [le32, rdDword, Nat.shiftRight_eq_div_pow]
  omega

theorem rdOfs_ofsBytes (is32 : Bool) (w : BitVec 32) (t : List Byte) (h : ofsOk is32 w) :
    rdOfs is32 (ofsBytes is32 w ++ t) = some (w.toNat, t) := by
  cases is32
  · simp [rdOfs, ofsBytes, rdWord_wordBytes]
    rcases h with h | h
    · cases h
    · omega
  · simp [rdOfs, ofsBytes, rdDword_le32]

theorem bv16_zero (b : BitVec 16) : b = 0#16 ↔ b.toNat = 0 := by
  constructor
  · rintro rfl; rfl
  · intro h; exact BitVec.eq_of_toNat_eq h

theorem rdBase_baseBytes (b : Base) (t : List Byte) (h : idxOk b.grp ∧ idxOk b.seg) :
    rdBase (baseBytes b ++ t) = some (b.meaning, t) := by
  simp only [rdBase, baseBytes, List.append_assoc, bind, Option.bind]
  rw [rdIndex_idxBytes _ _ h.1]; simp only
  rw [rdIndex_idxBytes _ _ h.2]; simp only
  simp only [bv16_zero, Base.meaning]
  split
  · rw [rdWord_wordBytes]; rfl
  · rfl

theorem and15 (a : Byte) : a &&& 15#8 = 0#8 ↔ a.toNat % 16 = 0 := by
  have : ∀ a : Byte, (a &&& 15#8 = 0#8) ↔ a.toNat % 16 = 0 := by decide
  exact this a

theorem acbp_fields : ∀ (c a : Fin 8) (u big : Bool),
    let x := BitVec.ofNat 8 (c.1 <<< 2) ||| b2n u ||| BitVec.ofNat 8 (a.1 <<< 5)
    let y := if big then x ||| 2#8 else x
    y.toNat / 32 = a.1 ∧ y.toNat / 4 % 8 = c.1 ∧ (y.toNat % 2 == 1) = u ∧ (y.toNat / 2 % 2 = 1 ↔ big = true) := by
  decide

theorem readContent_bodyOf (r : Rec) (c : Byte) (b : List Byte) (m : Bool × Content)
    (hb : bodyOf r = some (c, b)) (hm : r.meaning = some m) (hf : r.Fits) : readContent c.toNat b = some m := by
  obtain ⟨cmd, is32, data, info⟩ := r
  cases info with
  | plain =>
    simp only [Rec.meaning] at hm
    split at hm
    · rename_i h
      simp only [List.mem_cons, List.not_mem_nil, or_false] at h
      rcases h with h | h | h | h | h | h | h | h | h | h <;>
        (simp [bodyOf, h] at hb; obtain ⟨rfl, rfl⟩ := hb; simp [readContent, h]; simpa [h] using hm)
    · split at hm
      · rename_i h
        simp only [List.mem_cons, List.not_mem_nil, or_false] at h
        rcases h with h | h | h <;>
          (simp [bodyOf, h] at hb; obtain ⟨rfl, rfl⟩ := hb
           cases is32 <;> simp [readContent, b2n, h] <;> simpa [h] using hm)
      · cases hm
  | coment a k =>
    simp only [Rec.meaning] at hm
    split at hm
    · rename_i h
      simp [bodyOf, h] at hb; obtain ⟨rfl, rfl⟩ := hb
      simp [readContent, rdByte]; simpa using hm
    · cases hm
  | modend mm st =>
    simp only [Rec.meaning] at hm
    split at hm
    · rename_i h
      simp [bodyOf, h] at hb; obtain ⟨rfl, rfl⟩ := hb
      simp only [Option.some.injEq] at hm; subst hm
      cases mm <;> cases st <;> cases is32 <;> simp [readContent, rdByte, b2n]
    · cases hm
  | ledata i o =>
    simp only [Rec.Fits] at hf
    simp only [Rec.meaning] at hm
    split at hm
    · rename_i h
      simp [bodyOf, h] at hb; obtain ⟨rfl, rfl⟩ := hb
      simp only [Option.some.injEq] at hm; subst hm
      cases is32 <;> simp [readContent, b2n, BitVec.toNat_add, h, rdIndex_idxBytes _ _ hf.1, rdOfs_ofsBytes _ _ _ hf.2]
    · split at hm
      · rename_i h
        simp [bodyOf, h] at hb; obtain ⟨rfl, rfl⟩ := hb
        simp only [Option.some.injEq] at hm; subst hm
        cases is32 <;> simp [readContent, b2n, BitVec.toNat_add, h, rdIndex_idxBytes _ _ hf.1, rdOfs_ofsBytes _ _ _ hf.2]
      · cases hm
  | pubdef p =>
    simp only [Rec.Fits] at hf
    simp only [Rec.meaning] at hm
    split at hm
    · rename_i h
      simp [bodyOf, h] at hb; obtain ⟨rfl, rfl⟩ := hb
      simp only [Option.some.injEq] at hm; subst hm
      cases is32 <;> simp [readContent, b2n, BitVec.toNat_add, h, rdBase_baseBytes _ _ hf]
    · split at hm
      · rename_i h
        simp [bodyOf, h] at hb; obtain ⟨rfl, rfl⟩ := hb
        simp only [Option.some.injEq] at hm; subst hm
        cases is32 <;> simp [readContent, b2n, BitVec.toNat_add, h, rdBase_baseBytes _ _ hf]
      · cases hm
  | linnum p =>
    simp only [Rec.Fits] at hf
    simp only [Rec.meaning] at hm
    split at hm
    · rename_i h
      simp [bodyOf, h] at hb; obtain ⟨rfl, rfl⟩ := hb
      simp only [Option.some.injEq] at hm; subst hm
      cases is32 <;> simp [readContent, b2n, rdBase_baseBytes _ _ hf]
    · cases hm
  | linsym f n =>
    simp only [Rec.Fits] at hf
    simp only [Rec.meaning] at hm
    split at hm
    · rename_i h
      simp [bodyOf, h] at hb; obtain ⟨rfl, rfl⟩ := hb
      simp only [Option.some.injEq] at hm; subst hm
      cases is32 <;> simp [readContent, rdByte, b2n, rdIndex_idxBytes _ _ hf]
    · cases hm
  | comdat f a al o t p n =>
    simp only [Rec.Fits] at hf
    obtain ⟨h1, h2, h3, h4⟩ := hf
    simp only [Rec.meaning] at hm
    split at hm
    · rename_i h
      simp [bodyOf, h] at hb; obtain ⟨rfl, rfl⟩ := hb
      simp only [Option.some.injEq] at hm; subst hm
      simp only [and15]
      by_cases ha : a.toNat % 16 = 0
      · cases is32 <;> simp [readContent, rdByte, b2n, BitVec.toNat_add, h, ha, rdOfs_ofsBytes _ _ _ h1,
          rdIndex_idxBytes _ _ h2, rdIndex_idxBytes _ _ h3, rdBase_baseBytes _ _ (h4 ha)]
      · cases is32 <;> simp [readContent, rdByte, b2n, BitVec.toNat_add, h, ha, rdOfs_ofsBytes _ _ _ h1,
          rdIndex_idxBytes _ _ h2, rdIndex_idxBytes _ _ h3]
    · cases hm
  | segdef s =>
    obtain ⟨use32, align, combine, absFrame, absOffset, length, name, cls, ovl⟩ := s
    simp only [Rec.Fits] at hf
    obtain ⟨h1, h2, h3, h4, h5, h6, h7⟩ := hf
    simp only [Rec.meaning] at hm
    split at hm
    · rename_i h
      simp only [bodyOf, h, Option.some.injEq, Prod.mk.injEq] at hb; obtain ⟨rfl, rfl⟩ := hb
      simp only [Option.some.injEq] at hm; subst hm
      have hfld := acbp_fields ⟨combine, h2⟩ ⟨align, h1⟩ use32 (!is32 && decide (length = 0x10000#32))
      simp only at hfld
      have hac : acbp is32 ⟨use32, align, combine, absFrame, absOffset, length, name, cls, ovl⟩ =
          (if (!is32 && decide (length = 0x10000#32)) = true then
            BitVec.ofNat 8 (combine <<< 2) ||| b2n use32 ||| BitVec.ofNat 8 (align <<< 5) ||| 2#8
           else BitVec.ofNat 8 (combine <<< 2) ||| b2n use32 ||| BitVec.ofNat 8 (align <<< 5)) := by
        simp only [acbp]; congr 1; simp
      rw [← hac] at hfld
      generalize acbp is32 _ = A at hfld
      obtain ⟨e1, e2, e3, e4⟩ := hfld
      have i5 := fun t => rdIndex_idxBytes _ t h5
      have i6 := fun t => rdIndex_idxBytes _ t h6
      have i7 := rdIndex_idxBytes _ [] h7
      rw [List.append_nil] at i7
      have hcmd : (152#8 + b2n is32).toNat / 2 * 2 = 0x98 ∧ ((152#8 + b2n is32).toNat % 2 == 1) = is32 := by
        cases is32 <;> decide
      simp only [readContent, hcmd, List.append_assoc, List.cons_append, List.nil_append, rdByte, bind, Option.bind,
        e1, e2, e3, e4, pure]
      have hlen : ∀ t, ∃ n, rdOfs is32 (ofsBytes is32 length ++ t) = some (n, t) ∧
          (if (!is32 && decide (length = 0x10000#32)) = true ∧ is32 = false then n + 65536 else n) = length.toNat := by
        intro t
        cases is32
        · by_cases hl : length = 0x10000#32
          · subst hl; refine ⟨0, ?_, by simp⟩
            simp [rdOfs, ofsBytes, rdWord_wordBytes]
          · refine ⟨length.toNat, rdOfs_ofsBytes _ _ _ (Or.inr ?_), by simp [hl]⟩
            rcases h4 with h4 | h4
            · cases h4
            · have : length.toNat ≠ 65536 := fun h' => hl (BitVec.eq_of_toNat_eq (by simpa using h'))
              omega
        · exact ⟨length.toNat, rdOfs_ofsBytes _ _ _ (Or.inl rfl), by simp⟩
      by_cases ha : align = 0
      · subst ha
        simp only [if_true]
        obtain ⟨n, hn1, hn2⟩ := hlen (idxBytes name ++ (idxBytes cls ++ idxBytes ovl))
        simp only [List.append_assoc, rdWord_wordBytes, List.cons_append, List.nil_append, rdByte, hn1, i5, i6, i7, hn2]
        have := h3 rfl
        simp; omega
      · simp only [if_neg ha]
        obtain ⟨n, hn1, hn2⟩ := hlen (idxBytes name ++ (idxBytes cls ++ idxBytes ovl))
        simp only [List.nil_append, hn1, i5, i6, i7, hn2]
    · cases hm

end Verif.Omf
