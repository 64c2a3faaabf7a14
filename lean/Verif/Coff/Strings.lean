import Verif.Coff.Bytes
/-! String table and record decoding. -/
namespace Verif.Coff

/-- The string list's size field is right. -/
def LNOk (ln : LN) : Prop := ln.size = 4 + (ln.strs.flatMap (fun s => s ++ [0])).length

/-- `b` extends `a`. -/
def Ext (a b : LN) : Prop := LNOk a ∧ LNOk b ∧ ∃ more, b.strs = a.strs ++ more

theorem Ext.refl {a : LN} (h : LNOk a) : Ext a a := ⟨h, h, [], by simp⟩

theorem Ext.trans {a b c : LN} (h : Ext a b) (h' : Ext b c) : Ext a c := by
  obtain ⟨h1, _, m, hm⟩ := h
  obtain ⟨_, h2, n, hn⟩ := h'
  exact ⟨h1, h2, m ++ n, by rw [hn, hm, List.append_assoc]⟩

theorem LNOk_alloc {ln : LN} (h : LNOk ln) (s : List Byte) : LNOk (allocString ln s).2 := by
  simp only [LNOk] at h ⊢
  simp only [allocString, List.flatMap_append, List.length_append, h]
  simp
  omega

theorem Ext_alloc {ln : LN} (h : LNOk ln) (s : List Byte) : Ext ln (allocString ln s).2 :=
  ⟨h, LNOk_alloc h s, [s], rfl⟩

theorem strTable_length {ln : LN} (h : LNOk ln) : (strTable ln).length = ln.size := by
  simp only [strTable, List.length_append, le_length, h]
  exact h.symm

theorem Ext.size_le {a b : LN} (h : Ext a b) : a.size ≤ b.size := by
  obtain ⟨h1, h2, m, hm⟩ := h
  rw [h1, h2, hm, List.flatMap_append, List.length_append]
  omega

/-- What was allocated is found at the offset returned. -/
theorem alloc_found {ln fin : LN} {s : List Byte} (h : Ext (allocString ln s).2 fin) (hl : LNOk ln)
    (hs : (0 : Byte) ∉ s) : cstr (strTable fin) (allocString ln s).1 = s := by
  obtain ⟨_, _, m, hm⟩ := h
  simp only [allocString] at hm ⊢
  simp only [cstr, strTable, hm, List.flatMap_append, List.append_assoc]
  rw [hl, ← List.append_assoc, show 4 + (List.flatMap (fun s => s ++ [0]) ln.strs).length
    = (le 4 fin.size ++ List.flatMap (fun s => s ++ [0]) ln.strs).length by simp, List.drop_left]
  simp only [List.flatMap_cons, List.flatMap_nil, List.append_nil, List.append_assoc, List.cons_append, List.nil_append]
  exact takeWhile_append_stop s _ hs

theorem alloc_lt {ln fin : LN} {s : List Byte} (h : Ext (allocString ln s).2 fin) :
    (allocString ln s).1 < fin.size := by
  have := h.size_le
  simp only [allocString] at this ⊢
  omega

/-! ## Records -/

theorem symRec_length (ln : LN) (n : List Byte) (v s t c a : Nat) : (symRec ln n v s t c a).1.length = 18 := by
  simp only [symRec]
  split <;> simp [strncpy_length]

theorem symRec_ext {ln : LN} (h : LNOk ln) (n : List Byte) (v s t c a : Nat) : Ext ln (symRec ln n v s t c a).2 := by
  simp only [symRec]
  split
  · exact Ext_alloc h n
  · exact Ext.refl h

theorem eq_eight (l : List Byte) (h : l.length = 8) : ∃ a b c d e f g i, l = [a, b, c, d, e, f, g, i] := by
  match l, h with
  | [a, b, c, d, e, f, g, i], _ => exact ⟨a, b, c, d, e, f, g, i, rfl⟩

theorem tail_fields (nm : List Byte) (hn : nm.length = 8) (v s t c a : Nat) :
    u32 (nm ++ le 4 v ++ le 2 s ++ le 2 t ++ le 1 c ++ le 1 a) 8 = v % 2 ^ 32 ∧
    u16 (nm ++ le 4 v ++ le 2 s ++ le 2 t ++ le 1 c ++ le 1 a) 12 = s % 65536 ∧
    u16 (nm ++ le 4 v ++ le 2 s ++ le 2 t ++ le 1 c ++ le 1 a) 14 = t % 65536 ∧
    u8 (nm ++ le 4 v ++ le 2 s ++ le 2 t ++ le 1 c ++ le 1 a) 16 = c % 256 ∧
    u8 (nm ++ le 4 v ++ le 2 s ++ le 2 t ++ le 1 c ++ le 1 a) 17 = a % 256 := by
  obtain ⟨x1, x2, x3, x4, x5, x6, x7, x8, rfl⟩ := eq_eight nm hn
  refine ⟨?_, ?_, ?_, ?_, ?_⟩ <;> simp [u32, u16, u8, le] <;> omega

theorem name_nonzero (n : List Byte) (h : NameOk n) : (strncpy 8 n).getD 0 0 ≠ 0 := by
  obtain ⟨h1, h2⟩ := h
  cases n with
  | nil => exact absurd rfl h1
  | cons x n =>
    intro e
    simp [strncpy] at e
    exact h2 (by simp [e])

theorem u32_zero_first (f : List Byte) (h : u32 f 0 = 0) : f.getD 0 0 = 0 := by
  simp only [u32, u16, u8] at h
  have : (f.getD 0 0).toNat = 0 := by omega
  exact BitVec.eq_of_toNat_eq (by simpa using this)

/-- A symbol record decodes to what was passed. -/
theorem decode_symRec {ln fin : LN} {n : List Byte} {v s t c a : Nat} (hl : LNOk ln)
    (he : Ext (symRec ln n v s t c a).2 fin) (hn : NameOk n) (hsz : fin.size < 2 ^ 32) :
    decode (strTable fin) (symRec ln n v s t c a).1
      = ⟨n, v % 2 ^ 32, s % 65536, t % 65536, c % 256, a % 256⟩ := by
  by_cases hlen : n.length > 8
  · simp only [symRec, hlen, if_true] at he ⊢
    have htf := tail_fields (le 4 0 ++ le 4 (allocString ln n).1) (by simp) v s t c a
    simp only [decode, htf]
    have hlt := alloc_lt he
    have h0 : u32 (le 4 0 ++ le 4 (allocString ln n).1 ++ le 4 v ++ le 2 s ++ le 2 t ++ le 1 c ++ le 1 a) 0 = 0 := by
      simp [u32, u16, u8, le]
    have h4 : u32 (le 4 0 ++ le 4 (allocString ln n).1 ++ le 4 v ++ le 2 s ++ le 2 t ++ le 1 c ++ le 1 a) 4
        = (allocString ln n).1 := by
      have : (allocString ln n).1 % 2 ^ 32 = (allocString ln n).1 := Nat.mod_eq_of_lt (by omega)
      generalize (allocString ln n).1 = z at this
      simp [u32, u16, u8, le]
      omega
    rw [h0, h4, if_pos rfl, alloc_found he hl hn.2]
  · simp only [symRec, hlen, if_false] at he ⊢
    have htf := tail_fields (strncpy 8 n) (strncpy_length 8 n) v s t c a
    simp only [decode, htf]
    have h0 : u32 (strncpy 8 n ++ le 4 v ++ le 2 s ++ le 2 t ++ le 1 c ++ le 1 a) 0 ≠ 0 := by
      intro e
      have := u32_zero_first _ e
      rw [List.getD_eq_getElem?_getD] at this
      simp only [List.append_assoc] at this
      rw [List.getElem?_append_left (by simp [strncpy_length]), ← List.getD_eq_getElem?_getD] at this
      exact name_nonzero n hn this
    rw [if_neg h0]
    congr 1
    simp only [List.append_assoc]
    rw [List.take_append_of_le_length (by simp [strncpy_length]), List.take_of_length_le (by simp [strncpy_length])]
    exact strncpy_read 8 n (by omega) hn.2

end Verif.Coff
