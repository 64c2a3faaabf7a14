import Verif.Omf.Spec
/-! # Proofs for OMF output -/
namespace Verif.Omf

theorem lo_toNat (w : BitVec 16) : (lo w).toNat = w.toNat % 256 := by simp [lo]
theorem hi_toNat (w : BitVec 16) : (hi w).toNat = w.toNat / 256 := by
  have := w.isLt
  simp [hi, Nat.shiftRight_eq_div_pow]; omega

theorem or80_toNat (b : Byte) (h : b.toNat < 128) : (0x80#8 ||| b).toNat = 128 + b.toNat := by
  have key : ∀ b : Byte, b < 128#8 → 0x80#8 ||| b = 128#8 + b := by decide
  rw [key b (by simpa [BitVec.lt_def] using h)]
  simp [BitVec.toNat_add]; omega

/-! ### Frames -/

theorem foldl_add_toNat (l : List Byte) (a : Byte) : (l.foldl (· + ·) a).toNat = (a.toNat + byteSum l) % 256 := by
  induction l generalizing a with
  | nil => have := a.isLt; simp [byteSum]; omega
  | cons b l ih => simp [ih, byteSum, BitVec.toNat_add]; omega

/-- Command, body (without checksum) to bytes. -/
def mkFrame (c : Byte) (body : List Byte) : List Byte :=
  c :: lo (BitVec.ofNat 16 (body.length + 1)) :: hi (BitVec.ofNat 16 (body.length + 1)) ::
    (body ++ [- (body.foldl (· + ·) (c + lo (BitVec.ofNat 16 (body.length + 1)) + hi (BitVec.ofNat 16 (body.length + 1))))])

theorem wEndRec_eq (c : Byte) (b : List Byte) (h : b.length < bufSize) : wEndRec ⟨c, b⟩ = .ok (mkFrame c b) := by
  simp [wEndRec, mkFrame, Nat.not_le.mpr h]

theorem mkFrame_sum (c : Byte) (b : List Byte) : byteSum (mkFrame c b) % 256 = 0 := by
  simp only [mkFrame]
  generalize lo (BitVec.ofNat 16 (b.length + 1)) = x
  generalize hi (BitVec.ofNat 16 (b.length + 1)) = y
  have := foldl_add_toNat b (c + x + y)
  simp only [byteSum, List.map_cons, List.map_append, List.sum_cons, List.sum_append, List.map_nil, List.sum_nil,
    BitVec.toNat_neg, BitVec.toNat_add] at *
  rw [this]; omega

theorem mkFrame_len (c : Byte) (b : List Byte) (h : b.length < bufSize) :
    (lo (BitVec.ofNat 16 (b.length + 1))).toNat + 256 * (hi (BitVec.ofNat 16 (b.length + 1))).toNat = b.length + 1 := by
  rw [lo_toNat, hi_toNat]; simp [bufSize] at *; omega

theorem byteSum_append (a b : List Byte) : byteSum (a ++ b) = byteSum a + byteSum b := by simp [byteSum]

theorem readFrame_mkFrame (c : Byte) (b t : List Byte) (h : b.length < bufSize) :
    readFrame (mkFrame c b ++ t) = some (c.toNat, b, t) := by
  have h1 := mkFrame_len c b h
  have h2 := mkFrame_sum c b
  simp only [mkFrame] at *
  generalize (BitVec.ofNat 16 (b.length + 1)) = w at *
  generalize hx : (-(b.foldl (· + ·) (c + lo w + hi w))) = x at *
  simp only [readFrame, List.cons_append, h1]
  have ht : List.take (b.length + 1) (b ++ [x] ++ t) = b ++ [x] := by
    rw [List.take_append_of_le_length (by simp), List.take_of_length_le (by simp)]
  have hd : List.drop (b.length + 1) (b ++ [x] ++ t) = t := by
    simp [List.drop_append]
  rw [ht, hd, if_pos ⟨by omega, by simp, h2⟩]
  simp

/-! ### Buffer operations -/

theorem putByte_ok {o : Out} {v : Byte} (h : o.buf.length + 1 ≤ bufSize) :
    putByte o v = .ok ⟨o.cmd, o.buf ++ [v]⟩ := by
  simp [putByte, Nat.lt_of_succ_le h]

theorem putIndex_ok {o : Out} {i : BitVec 16} (h : o.buf.length + 2 ≤ bufSize) :
    putIndex o i = .ok ⟨o.cmd, o.buf ++ idxBytes i⟩ := by
  unfold putIndex idxBytes
  split
  · simp only [bind, Except.bind]
    rw [putByte_ok (by omega)]
    simp only
    rw [putByte_ok (by simp; omega)]
    simp
  · simp only [bind, Except.bind, pure, Except.pure]
    rw [putByte_ok (by omega)]

def wordBytes (v : BitVec 16) : List Byte := [lo v, hi v]

theorem putWord_ok {o : Out} {v : BitVec 16} (h : o.buf.length + 2 ≤ bufSize) :
    putWord o v = .ok ⟨o.cmd, o.buf ++ wordBytes v⟩ := by
  simp only [putWord, bind, Except.bind]
  rw [putByte_ok (by omega)]
  simp only
  rw [putByte_ok (by simp; omega)]
  simp [wordBytes]

theorem putDword_ok {o : Out} {v : BitVec 32} (h : o.buf.length + 4 ≤ bufSize) :
    putDword o v = .ok ⟨o.cmd, o.buf ++ le32 v⟩ := by
  simp only [putDword, le32, List.foldlM_cons, List.foldlM_nil, bind, Except.bind, pure, Except.pure]
  rw [putByte_ok (by omega)]; simp only
  rw [putByte_ok (by simp; omega)]; simp only
  rw [putByte_ok (by simp; omega)]; simp only
  rw [putByte_ok (by simp; omega)]; simp

def ofsBytes (is32 : Bool) (v : BitVec 32) : List Byte := if is32 then le32 v else wordBytes (v.truncate 16)

theorem putOfs_ok {o : Out} {is32 : Bool} {v : BitVec 32} (h : o.buf.length + 4 ≤ bufSize) :
    putOfs is32 o v = .ok ⟨o.cmd, o.buf ++ ofsBytes is32 v⟩ := by
  cases is32
  · simp only [putOfs, ofsBytes]; exact putWord_ok (by omega)
  · simp only [putOfs, ofsBytes]; exact putDword_ok h

theorem idxBytes_len (i : BitVec 16) : (idxBytes i).length ≤ 2 := by unfold idxBytes; split <;> simp
theorem ofsBytes_len (b : Bool) (v : BitVec 32) : (ofsBytes b v).length ≤ 4 := by cases b <;> simp [ofsBytes, le32, wordBytes]

def baseBytes (b : Base) : List Byte :=
  idxBytes b.grp ++ idxBytes b.seg ++ (if b.grp = 0#16 ∧ b.seg = 0#16 then wordBytes b.frame else [])

theorem baseBytes_len (b : Base) : (baseBytes b).length ≤ 6 := by
  have := idxBytes_len b.grp
  have := idxBytes_len b.seg
  unfold baseBytes; split <;> simp [wordBytes] <;> omega

theorem putBase_ok {o : Out} {b : Base} (h : o.buf.length + 6 ≤ bufSize) :
    putBase o b = .ok ⟨o.cmd, o.buf ++ baseBytes b⟩ := by
  have := idxBytes_len b.grp
  have := idxBytes_len b.seg
  simp only [putBase, bind, Except.bind, baseBytes]
  rw [putIndex_ok (by omega)]; simp only
  rw [putIndex_ok (by simp; omega)]; simp only
  split
  · rw [putWord_ok (by simp; omega)]; simp
  · simp [pure, Except.pure]

/-- Prefix + caller's data, written by `PutMem`, then `WEndRec`. -/
theorem putMem_end (c : Byte) (p d : List Byte) (h : p.length + 1 ≤ bufSize) :
    (do let o ← putMem ⟨c, p⟩ d; wEndRec o) =
      if (p ++ d).length < bufSize then .ok (mkFrame c (p ++ d)) else .error .fatal := by
  simp only [bind, Except.bind, putMem]
  rw [if_neg (by omega)]
  by_cases hl : (p ++ d).length < bufSize
  · rw [if_pos hl, if_pos (by simp at hl; omega)]
    exact wEndRec_eq _ _ hl
  · rw [if_neg hl, if_neg (by simp at hl; omega)]

/-- Command byte and body of a record; `none`: command and contents do not belong together. -/
def bodyOf (r : Rec) : Option (Byte × List Byte) :=
  match r.command.toNat, r.info with
  | 0x80, .plain | 0x8c, .plain | 0x96, .plain | 0x9a, .plain | 0xb0, .plain | 0xb4, .plain | 0xb8, .plain
  | 0xbc, .plain | 0xc6, .plain | 0xca, .plain => some (r.command, r.data)
  | 0x9c, .plain | 0xb2, .plain | 0xc8, .plain => some (r.command ||| b2n r.is32, r.data)
  | 0x88, .coment attr cls => some (0x88#8, [attr] ++ [cls] ++ r.data)
  | 0x98, .segdef s => some (0x98#8 + b2n r.is32, [acbp r.is32 s] ++
      (if s.align = 0 then wordBytes s.absFrame ++ [s.absOffset.truncate 8] else []) ++ ofsBytes r.is32 s.length
      ++ idxBytes s.name ++ idxBytes s.cls ++ idxBytes s.ovl)
  | 0xa0, .ledata idx offset | 0xa2, .ledata idx offset =>
      some (r.command + b2n r.is32, idxBytes idx ++ ofsBytes r.is32 offset ++ r.data)
  | 0x8a, .modend main start => some (0x8a#8 + b2n (r.is32 && start),
      if start then [(if main then 0x80#8 else 0#8) ||| 0x41#8] ++ r.data else [if main then 0x80#8 else 0#8])
  | 0x90, .pubdef b | 0xb6, .pubdef b => some (r.command + b2n r.is32, baseBytes b ++ r.data)
  | 0x94, .linnum b => some (0x94#8 + b2n r.is32, baseBytes b ++ r.data)
  | 0xc2, .comdat flags attributes align offset typeIdx b name => some (r.command + b2n r.is32,
      [flags] ++ [attributes] ++ [align] ++ ofsBytes r.is32 offset ++ idxBytes typeIdx
      ++ (if attributes &&& 0x0f#8 = 0#8 then baseBytes b else []) ++ idxBytes name ++ r.data)
  | 0xc4, .linsym flags name => some (0xc4#8 + b2n r.is32, [flags] ++ idxBytes name ++ r.data)
  | _, _ => none

theorem writeRecord_eq (r : Rec) : writeRecord r =
    match bodyOf r with
    | none => .error .fatal
    | some (c, b) => if b.length < bufSize then .ok (mkFrame c b) else .error .fatal := by
  obtain ⟨cmd, is32, data, info⟩ := r
  unfold writeRecord bodyOf
  dsimp only
  generalize hn : cmd.toNat = n
  split <;> (try dsimp only)
  iterate 10 exact putMem_end _ [] data (by simp [bufSize])
  iterate 3 exact putMem_end _ [] data (by simp [bufSize])
  · -- coment
    simp only [bind, Except.bind, wBegRec]
    rw [putByte_ok (by simp [bufSize])]; simp only
    rw [putByte_ok (by simp [bufSize])]; simp only
    exact putMem_end _ _ data (by simp [bufSize])
  · -- segdef
    rename_i s
    have := idxBytes_len s.name
    have := idxBytes_len s.cls
    have := idxBytes_len s.ovl
    have := ofsBytes_len is32 s.length
    simp only [bind, Except.bind, wBegRec]
    rw [putByte_ok (by simp [bufSize])]; simp only
    by_cases ha : s.align = 0
    · simp only [ha, if_true]
      rw [putWord_ok (by simp [bufSize])]; simp only
      rw [putByte_ok (by simp [bufSize, wordBytes])]; simp only
      rw [putOfs_ok (by simp [bufSize, wordBytes])]; simp only
      rw [putIndex_ok (by simp [bufSize, wordBytes]; omega)]; simp only
      rw [putIndex_ok (by simp [bufSize, wordBytes]; omega)]; simp only
      rw [putIndex_ok (by simp [bufSize, wordBytes]; omega)]; simp only
      rw [wEndRec_eq _ _ (by simp [bufSize, wordBytes]; omega)]
      rw [if_pos (by simp [bufSize, wordBytes]; omega)]
      simp
    · simp only [ha, if_false, pure, Except.pure]
      rw [putOfs_ok (by simp [bufSize, wordBytes])]; simp only
      rw [putIndex_ok (by simp [bufSize, wordBytes]; omega)]; simp only
      rw [putIndex_ok (by simp [bufSize, wordBytes]; omega)]; simp only
      rw [putIndex_ok (by simp [bufSize, wordBytes]; omega)]; simp only
      rw [wEndRec_eq _ _ (by simp [bufSize, wordBytes]; omega)]
      rw [if_pos (by simp [bufSize, wordBytes]; omega)]
      simp
  · rename_i idx offset
    have := idxBytes_len idx
    have := ofsBytes_len is32 offset
    simp only [bind, Except.bind, wBegRec]
    rw [putIndex_ok (by simp [bufSize])]; simp only
    rw [putOfs_ok (by simp [bufSize]; omega)]; simp only
    exact putMem_end _ _ data (by simp [bufSize]; omega)
  · rename_i idx offset
    have := idxBytes_len idx
    have := ofsBytes_len is32 offset
    simp only [bind, Except.bind, wBegRec]
    rw [putIndex_ok (by simp [bufSize])]; simp only
    rw [putOfs_ok (by simp [bufSize]; omega)]; simp only
    exact putMem_end _ _ data (by simp [bufSize]; omega)
  · -- modend
    rename_i main start
    simp only [bind, Except.bind, wBegRec]
    cases start
    · simp only [Bool.false_eq_true, if_false]
      rw [putByte_ok (by simp [bufSize])]; simp only
      rw [wEndRec_eq _ _ (by simp [bufSize])]
      simp [bufSize]
    · simp only [if_true]
      rw [putByte_ok (by simp [bufSize])]; simp only
      exact putMem_end _ _ data (by simp [bufSize])
  · rename_i b
    have := baseBytes_len b
    simp only [bind, Except.bind, wBegRec]
    rw [putBase_ok (by simp [bufSize])]; simp only
    exact putMem_end _ _ data (by simp [bufSize]; omega)
  · rename_i b
    have := baseBytes_len b
    simp only [bind, Except.bind, wBegRec]
    rw [putBase_ok (by simp [bufSize])]; simp only
    exact putMem_end _ _ data (by simp [bufSize]; omega)
  · rename_i b
    have := baseBytes_len b
    simp only [bind, Except.bind, wBegRec]
    rw [putBase_ok (by simp [bufSize])]; simp only
    exact putMem_end _ _ data (by simp [bufSize]; omega)
  · -- comdat
    rename_i flags attributes align offset typeIdx b name
    have := idxBytes_len typeIdx
    have := idxBytes_len name
    have := baseBytes_len b
    have := ofsBytes_len is32 offset
    simp only [bind, Except.bind, wBegRec]
    rw [putByte_ok (by simp [bufSize])]; simp only
    rw [putByte_ok (by simp [bufSize])]; simp only
    rw [putByte_ok (by simp [bufSize])]; simp only
    rw [putOfs_ok (by simp [bufSize])]; simp only
    rw [putIndex_ok (by simp [bufSize]; omega)]; simp only
    split
    · rw [putBase_ok (by simp [bufSize]; omega)]; simp only
      rw [putIndex_ok (by simp [bufSize]; omega)]; simp only
      exact putMem_end _ _ data (by simp [bufSize]; omega)
    · simp only [pure, Except.pure]
      rw [putIndex_ok (by simp [bufSize]; omega)]; simp only
      simp only [List.append_nil]
      exact putMem_end _ _ data (by simp [bufSize]; omega)
  · rename_i flags name
    have := idxBytes_len name
    simp only [bind, Except.bind, wBegRec]
    rw [putByte_ok (by simp [bufSize])]; simp only
    rw [putIndex_ok (by simp [bufSize])]; simp only
    exact putMem_end _ _ data (by simp [bufSize]; omega)
  · simp_all
end Verif.Omf
