import Mathlib.Data.List.Forall2
import Verif.Omf.Fix
/-! # Property theorems: OMF output (C05, C06, C07, C36, C37) -/
namespace Verif.Omf

/-- **C05** (framing) Whatever the record: the first three bytes are the command and the length, the length counts exactly
the bytes that follow, and all bytes sum to 0 modulo 256; the record fits the 4 KB buffer. -/
theorem C05_framing (r : Rec) (bs : List Byte) (h : writeRecord r = .ok bs) :
    ∃ c l hh rest, bs = c :: l :: hh :: rest ∧ rest.length = l.toNat + 256 * hh.toNat ∧ byteSum bs % 256 = 0 ∧
      rest.length ≤ 0xFF0 := by
  rw [writeRecord_eq] at h
  split at h
  · cases h
  · rename_i c b _
    split at h
    · rename_i hl
      cases h
      refine ⟨_, _, _, _, rfl, ?_, mkFrame_sum _ _, ?_⟩
      · rw [mkFrame_len c _ hl]; simp
      · simp [bufSize] at *; omega
    · cases h

/-- **C05** (no overflow) No record content makes the writer leave its buffer: it is written or assembly is aborted. -/
theorem C05_no_overflow (r : Rec) : writeRecord r ≠ .error .ub := by
  rw [writeRecord_eq]
  split
  · simp
  · split <;> simp

/-- **C05** (contents) For every record whose fields fit the format, a linker reading the file at that point recovers the
16/32-bit kind, every field and the data, and continues with the next record. -/
theorem C05_contents (r : Rec) (bs t : List Byte) (m : Bool × Content) (hm : r.meaning = some m) (hf : r.Fits)
    (h : writeRecord r = .ok bs) :
    ∃ c body, readFrame (bs ++ t) = some (c, body, t) ∧ readContent c body = some m := by
  rw [writeRecord_eq] at h
  split at h
  · cases h
  · rename_i c b hb
    split at h
    · rename_i hl
      cases h
      exact ⟨c.toNat, b, readFrame_mkFrame c b t hl, readContent_bodyOf r c b m hb hm hf⟩
    · cases h

/-- **C05** (written or aborted) A meaningful record is written unless its contents exceed the buffer. -/
theorem C05_written (r : Rec) (m : Bool × Content) (hm : r.meaning = some m) (hd : r.data.length ≤ 0xFF0 - 32) :
    ∃ bs, writeRecord r = .ok bs := by
  rw [writeRecord_eq]
  have hb : ∃ c b, bodyOf r = some (c, b) ∧ b.length < bufSize := by
    obtain ⟨cmd, is32, data, info⟩ := r
    simp only at hd
    cases info with
    | plain =>
      simp only [Rec.meaning] at hm
      split at hm
      · rename_i h
        simp only [List.mem_cons, List.not_mem_nil, or_false] at h
        rcases h with h | h | h | h | h | h | h | h | h | h <;>
          exact ⟨_, _, by simp [bodyOf, h]; exact ⟨rfl, rfl⟩, by simp [bufSize]; omega⟩
      · split at hm
        · rename_i h
          simp only [List.mem_cons, List.not_mem_nil, or_false] at h
          rcases h with h | h | h <;>
            exact ⟨_, _, by simp [bodyOf, h]; exact ⟨rfl, rfl⟩, by simp [bufSize]; omega⟩
        · cases hm
    | coment a k =>
      simp only [Rec.meaning] at hm
      split at hm
      · rename_i h
        exact ⟨_, _, by simp [bodyOf, h]; exact ⟨rfl, rfl⟩, by simp [bufSize]; omega⟩
      · cases hm
    | modend mm st =>
      simp only [Rec.meaning] at hm
      split at hm
      · rename_i h
        refine ⟨_, _, by simp [bodyOf, h]; exact ⟨rfl, rfl⟩, ?_⟩
        cases st <;> simp [bufSize]; omega
      · cases hm
    | ledata i o =>
      have := idxBytes_len i
      have := ofsBytes_len is32 o
      simp only [Rec.meaning] at hm
      split at hm
      · rename_i h
        exact ⟨_, _, by simp [bodyOf, h]; exact ⟨rfl, rfl⟩, by simp [bufSize]; omega⟩
      · split at hm
        · rename_i h
          exact ⟨_, _, by simp [bodyOf, h]; exact ⟨rfl, rfl⟩, by simp [bufSize]; omega⟩
        · cases hm
    | pubdef p =>
      have := baseBytes_len p
      simp only [Rec.meaning] at hm
      split at hm
      · rename_i h
        exact ⟨_, _, by simp [bodyOf, h]; exact ⟨rfl, rfl⟩, by simp [bufSize]; omega⟩
      · split at hm
        · rename_i h
          exact ⟨_, _, by simp [bodyOf, h]; exact ⟨rfl, rfl⟩, by simp [bufSize]; omega⟩
        · cases hm
    | linnum p =>
      have := baseBytes_len p
      simp only [Rec.meaning] at hm
      split at hm
      · rename_i h
        exact ⟨_, _, by simp [bodyOf, h]; exact ⟨rfl, rfl⟩, by simp [bufSize]; omega⟩
      · cases hm
    | linsym f n =>
      have := idxBytes_len n
      simp only [Rec.meaning] at hm
      split at hm
      · rename_i h
        exact ⟨_, _, by simp [bodyOf, h]; exact ⟨rfl, rfl⟩, by simp [bufSize]; omega⟩
      · cases hm
    | comdat f a al o t p n =>
      have := idxBytes_len n
      have := idxBytes_len t
      have := baseBytes_len p
      have := ofsBytes_len is32 o
      simp only [Rec.meaning] at hm
      split at hm
      · rename_i h
        refine ⟨_, _, by simp [bodyOf, h]; exact ⟨rfl, rfl⟩, ?_⟩
        split <;> simp [bufSize] <;> omega
      · cases hm
    | segdef s =>
      have := idxBytes_len s.name
      have := idxBytes_len s.cls
      have := idxBytes_len s.ovl
      have := ofsBytes_len is32 s.length
      simp only [Rec.meaning] at hm
      split at hm
      · rename_i h
        refine ⟨_, _, by simp [bodyOf, h]; exact ⟨rfl, rfl⟩, ?_⟩
        split <;> simp [bufSize, wordBytes] <;> omega
      · cases hm
  obtain ⟨c, b, h1, h2⟩ := hb
  exact ⟨mkFrame c b, by simp only [h1, h2, if_true]⟩

/-- **C05** (whole file) A file is the concatenation of records; it splits back into exactly these records. -/
theorem C05_file (rs : List Rec) (out : List (List Byte)) (h : rs.mapM writeRecord = .ok out) :
    ∃ l, readFile out.length out.flatten = some l ∧ l.length = rs.length ∧
      ∀ i (hi : i < rs.length), ∀ m, rs[i].meaning = some m → rs[i].Fits →
        ∃ c b, l[i]? = some (c, b) ∧ readContent c b = some m := by
  induction rs generalizing out with
  | nil => simp [List.mapM_nil, pure, Except.pure] at h; subst h; exact ⟨[], by simp [readFile]⟩
  | cons r rs ih =>
    simp only [List.mapM_cons, bind, Except.bind] at h
    split at h
    · cases h
    · rename_i o ho
      split at h
      · cases h
      · rename_i os hos
        simp only [pure, Except.pure, Except.ok.injEq] at h
        subst h
        obtain ⟨l, h1, h2, h3⟩ := ih os hos
        have ho' := ho
        rw [writeRecord_eq] at ho
        split at ho
        · cases ho
        · rename_i c b hb
          split at ho
          · rename_i hl
            cases ho
            have hr := readFrame_mkFrame c b os.flatten hl
            refine ⟨(c.toNat, b) :: l, ?_, by simp [h2], ?_⟩
            · simp only [List.length_cons, List.flatten_cons]
              rw [show mkFrame c b ++ os.flatten = _ :: _ from rfl] at hr ⊢
              simp only [readFile, hr, bind, Option.bind, h1, pure]
            · intro i hi m hm hf
              cases i with
              | zero => exact ⟨c.toNat, b, rfl, readContent_bodyOf r c b m hb hm hf⟩
              | succ i => exact h3 i (by simpa using hi) m hm hf
          · cases ho

/-- Non-vacuity of C05: a 16-bit SEGDEF of exactly 64 KB, read back as such. -/
def sampleSeg : Rec :=
  ⟨0x98#8, false, [], .segdef ⟨false, 3, 2, 0, 0, 0x10000#32, 2, 0x123, 1⟩⟩
example : sampleSeg.Fits ∧ sampleSeg.meaning = some (false, .segdef false 3 2 none 65536 2 0x123 1) ∧
    writeRecord sampleSeg = .ok [0x98, 8, 0, 0x6a, 0, 0, 2, 0x81, 0x23, 1, 0x4f] ∧
    readContent 0x98 [0x6a, 0, 0, 2, 0x81, 0x23, 1] = some (false, .segdef false 3 2 none 65536 2 0x123 1) := by
  refine ⟨⟨by decide, by decide, by decide, by decide, ?_, ?_, ?_⟩, by decide, rfl, by decide⟩ <;>
    (unfold idxOk; decide)

/-- **C06** (index) Index fields up to 0x7FFF are recovered together with the following bytes. -/
theorem C06_index (i : BitVec 16) (t : List Byte) (h : i.toNat ≤ 0x7fff) : rdIndex (idxBytes i ++ t) = some (i.toNat, t) :=
  rdIndex_idxBytes i t h

/-- **C06** (COMDEF) Every 32-bit COMDEF length is recovered together with the following bytes. -/
theorem C06_comdef (v : BitVec 32) (t : List Byte) : rdComdef (putComdefNumber v ++ t) = some (v.toNat, t) := by
  have := v.isLt
  unfold putComdefNumber comdefSize
  by_cases h1 : v.toNat < 128
  · simp only [h1, if_true, List.cons_append, List.nil_append, rdComdef]
    have e : (v.truncate 8).toNat = v.toNat := by simp; omega
    rw [if_pos (by omega), e]
  · by_cases h2 : v.toNat ≤ 0xFFFF
    · simp [h1, h2, rdComdef, comdefBytes, Nat.shiftRight_eq_div_pow]; omega
    · by_cases h3 : v.toNat ≤ 0xFFFFFF
      · simp [h1, h2, h3, rdComdef, comdefBytes, Nat.shiftRight_eq_div_pow]; omega
      · simp [h1, h2, h3, rdComdef, comdefBytes, Nat.shiftRight_eq_div_pow]; omega

/-- The number of bytes reserved for a COMDEF length is the number written (`get_size_of_comdef_number` is what
`omf_write_comdef` uses to size the record). -/
theorem C06_comdef_size (v : BitVec 32) : (putComdefNumber v).length = comdefSize v := by
  unfold putComdefNumber comdefSize
  repeat' split
  all_goals simp_all [comdefBytes]
  all_goals (repeat' split at *) <;> simp_all

example : rdIndex (idxBytes 0x1234 ++ [7]) = some (0x1234, [7]) ∧ idxBytes 0x7f = [0x7f] ∧ idxBytes 0x80 = [0x80, 0x80] ∧
    putComdefNumber 0x12345 = [0x84, 0x45, 0x23, 0x01] := by decide

/-- **C07** (location and target) A linker reading the subrecord recovers: self/segment relative mode, the patched part and
width, the position in the data record, the target and its displacement (0: it is stored at the location). -/
theorem C07_location_and_target (f : Fixup) (start : Nat) (ms : Bool) (t : List Byte) (tg : Item) (p : Part) (n : Nat)
    (ldr sr : Bool) (hft : f.frameType ∈ [0, 1, 2, 5, 6]) (hw : f.wantTarget = some tg)
    (hk : f.type.meaning f.loaderResolved = some (p, n, ldr, sr)) (hi : f.idxOk)
    (h1 : start ≤ f.locofs) (h2 : f.locofs < start + 1024) (h3 : f.locofs < 2 ^ 32) :
    ∃ loc ref, rdFix ms (fixGenFix f start ms ++ t) = some (⟨sr, loc, f.locofs - start, ref⟩, t) ∧
      locMeaning loc = some (p, n, ldr) ∧ (ref.target, ref.targetDatum) = tg ∧ ref.displ = 0 := by
  obtain ⟨lr, hlr⟩ := fillLogref_some f tg hw
  obtain ⟨loc, hl, hm, hlt⟩ := locOf_meaning f p n ldr sr hk
  have hft6 : f.frameType ≤ 6 := by
    simp only [List.mem_cons, List.not_mem_nil, or_false] at hft; omega
  obtain ⟨a1, a2, a3, a4, a5⟩ := fill_spec f lr tg hft6 hw hlr
  obtain ⟨i1, i2⟩ := fill_idx f lr hlr hi
  refine ⟨loc, _, fixGenFix_read f start ms t loc sr lr hl hlr hlt h1 h2 h3 a4 a3 (fun _ => i1) i2 a5, hm, ?_, rfl⟩
  simp [a1, a2]

/-- **C07** (frame, partial) The frame a linker uses is the requested one, or the target's when none was requested -
*provided* an explicitly requested frame is not of the same kind as the target with a different index. In that case
(e.g. `OFFSET seg2:label` with label in `seg1`) the code replaces it by the target's frame, see `C07_frame_lost`. -/
theorem C07_frame_partial (f : Fixup) (start : Nat) (ms : Bool) (t : List Byte) (tg : Item) (p : Part) (n : Nat)
    (ldr sr : Bool) (hft : f.frameType ∈ [0, 1, 2, 5, 6]) (hw : f.wantTarget = some tg)
    (hk : f.type.meaning f.loaderResolved = some (p, n, ldr, sr)) (hi : f.idxOk)
    (h1 : start ≤ f.locofs) (h2 : f.locofs < start + 1024) (h3 : f.locofs < 2 ^ 32)
    (hsame : ∀ fr, f.wantFrame = some fr → fr.1 = tg.1 → fr = tg) :
    ∃ loc ref, rdFix ms (fixGenFix f start ms ++ t) = some (⟨sr, loc, f.locofs - start, ref⟩, t) ∧
      ref.frameItem = some (f.wantFrame.getD tg) := by
  obtain ⟨lr, hlr⟩ := fillLogref_some f tg hw
  obtain ⟨loc, hl, hm, hlt⟩ := locOf_meaning f p n ldr sr hk
  have hft6 : f.frameType ≤ 6 := by
    simp only [List.mem_cons, List.not_mem_nil, or_false] at hft; omega
  obtain ⟨a1, a2, a3, a4, a5⟩ := fill_spec f lr tg hft6 hw hlr
  obtain ⟨i1, i2⟩ := fill_idx f lr hlr hi
  refine ⟨loc, _, fixGenFix_read f start ms t loc sr lr hl hlr hlt h1 h2 h3 a4 a3 (fun _ => i1) i2 a5, ?_⟩
  have := fill_frame f lr tg hft hw hlr
  simp only at this
  rw [this]
  rcases hwf : f.wantFrame with _ | ⟨m, d⟩
  · rfl
  · simp only [Option.getD_some]
    split
    · rename_i hmt
      rw [hsame _ hwf hmt]
    · rfl

/-- **C07** (finding) The excluded case really loses the frame: a linker sees the target's frame instead of the requested one. -/
theorem C07_frame_lost (f : Fixup) (start : Nat) (ms : Bool) (t : List Byte) (tg fr : Item) (p : Part) (n : Nat)
    (ldr sr : Bool) (hft : f.frameType ∈ [0, 1, 2, 5, 6]) (hw : f.wantTarget = some tg)
    (hk : f.type.meaning f.loaderResolved = some (p, n, ldr, sr)) (hi : f.idxOk)
    (h1 : start ≤ f.locofs) (h2 : f.locofs < start + 1024) (h3 : f.locofs < 2 ^ 32)
    (hwf : f.wantFrame = some fr) (hm : fr.1 = tg.1) :
    ∃ loc ref, rdFix ms (fixGenFix f start ms ++ t) = some (⟨sr, loc, f.locofs - start, ref⟩, t) ∧
      ref.frameItem = some tg := by
  obtain ⟨lr, hlr⟩ := fillLogref_some f tg hw
  obtain ⟨loc, hl, _, hlt⟩ := locOf_meaning f p n ldr sr hk
  have hft6 : f.frameType ≤ 6 := by
    simp only [List.mem_cons, List.not_mem_nil, or_false] at hft; omega
  obtain ⟨a1, a2, a3, a4, a5⟩ := fill_spec f lr tg hft6 hw hlr
  obtain ⟨i1, i2⟩ := fill_idx f lr hlr hi
  refine ⟨loc, _, fixGenFix_read f start ms t loc sr lr hl hlr hlt h1 h2 h3 a4 a3 (fun _ => i1) i2 a5, ?_⟩
  have := fill_frame f lr tg hft hw hlr
  simp only [hwf] at this
  rw [this, if_pos hm]

/-- Non-vacuity of C07: offset of an external in group 2 at position 0x123; and the lost frame: segment 2 requested, segment 1 seen. -/
def sampleFix : Fixup := ⟨.off16, false, 1, 2#16, 0x523, some (.ext 300#16 9#16)⟩
def lostFix : Fixup := ⟨.off16, false, 0, 2#16, 0x523, some (.label 1#16)⟩
example : sampleFix.wantTarget = some (2, 300) ∧ sampleFix.wantFrame = some (1, 2) ∧
    sampleFix.type.meaning false = some (.offset, 2, false, false) ∧
    rdFix false (fixGenFix sampleFix 0x400 false) = some (⟨false, 1, 0x123, ⟨1, some 2, 2, 300, 0⟩⟩, []) := by decide
example : lostFix.wantFrame = some (0, 2) ∧
    (rdFix false (fixGenFix lostFix 0x400 false)).map (fun x => x.1.ref.frameItem) = some (some (0, 1)) := by decide

/-- **C07** (MODEND) The program start address: a linker recovers target and displacement, and the frame is the group
given, else that of the target. -/
theorem C07_start_address (f : Fixup) (isExt : Bool) (idx g : BitVec 16) (offset : BitVec 32) (ms : Bool) (t : List Byte)
    (hft : f.frameType ∈ [0, 1, 2, 5, 6]) (hi : idx.toNat ≤ 0x7fff) (hg : g.toNat ≤ 0x7fff)
    (hfd : f.frameDatum.toNat ≤ 0x7fff) (ho : ms = true ∨ offset.toNat < 65536) :
    ∃ ref, rdRef ms (fixGenModend f isExt idx g offset ms ++ t) = some (ref, t) ∧
      ref.target = (if isExt then 2 else 0) ∧ ref.targetDatum = idx.toNat ∧ ref.displ = offset.toNat ∧
      ref.frameItem = some (
        if f.frameType = 1 then (1, if isExt = true ∧ f.frameDatum.toNat = 0 then g.toNat else f.frameDatum.toNat)
        else if f.frameType = 2 then (2, f.frameDatum.toNat)
        else (ref.target, ref.targetDatum)) := by
  have hfr : (if f.frameType ≠ 6 ∧ f.frameType ≠ 0 then f.frameType else 5) < 8 := by
    simp only [List.mem_cons, List.not_mem_nil, or_false] at hft; split <;> omega
  unfold fixGenModend
  simp only
  rw [rdRef_translate ⟨if f.frameType ≠ 6 ∧ f.frameType ≠ 0 then f.frameType else 5,
      if isExt = true ∧ f.frameType = 1 ∧ f.frameDatum = 0 then g else f.frameDatum, false, if isExt then 2 else 0, idx, offset⟩
      ms t hfr (by simp only; split <;> omega) ?_ hi ho (by left; simp only; split <;> omega)]
  · refine ⟨_, rfl, ?_, rfl, rfl, ?_⟩
    · cases isExt <;> simp
    · simp only [List.mem_cons, List.not_mem_nil, or_false] at hft
      rcases hft with h | h | h | h | h <;> simp [h, Ref.frameItem]
      simp only [bv16_zero]; split <;> rfl
  · intro _
    simp only
    split
    · exact hg
    · exact hfd

/-- **C36** All relocations of a data record are written: taking 16-bit and 32-bit FIXUPP records separately, the fixups of
each kind are partitioned, in order, into records of at most 1020 bytes, each record being the concatenation of the
complete subrecords of its fixups. -/
theorem C36_all_fixups_written (is32 : Bool) (start : Nat) (fs : List Fixup) :
    ∃ groups : List (List Fixup), groups.flatten = fs.filter (·.type.is32 == is32) ∧
      writeFixupp is32 start fs.length fs = (groups.map fun g => g.flatMap (fixGenFix · start is32)).filter (· ≠ []) ∧
      ∀ d ∈ writeFixupp is32 start fs.length fs, 0 < d.length ∧ d.length ≤ 1020 := by
  obtain ⟨gs, h1, h2, h3⟩ := writeFixupp_spec is32 start fs.length fs (Nat.le_refl _)
  refine ⟨gs.map (·.filter (·.type.is32 == is32)), ?_, ?_, ?_⟩
  · rw [← h1, List.filter_flatten]
  · rw [h2, List.map_map]; rfl
  · intro d hd
    refine ⟨?_, h3 d hd⟩
    rw [h2] at hd
    have := (List.mem_filter.mp hd).2
    exact List.length_pos_iff.mpr (by simpa using this)

/-- Expected reading of one fixup. -/
def Fixup.Readable (start : Nat) (f : Fixup) : Prop :=
  f.frameType ∈ [0, 1, 2, 5, 6] ∧ (∃ tg, f.wantTarget = some tg) ∧ (∃ k, f.type.meaning f.loaderResolved = some k) ∧ f.idxOk ∧
    start ≤ f.locofs ∧ f.locofs < start + 1024 ∧ f.locofs < 2 ^ 32

theorem fixGenFix_ne (f : Fixup) (start : Nat) (ms : Bool) (tg : Item) (p : Part) (n : Nat) (ldr sr : Bool)
    (hw : f.wantTarget = some tg) (hk : f.type.meaning f.loaderResolved = some (p, n, ldr, sr)) :
    0 < (fixGenFix f start ms).length := by
  obtain ⟨lr, hlr⟩ := fillLogref_some f tg hw
  obtain ⟨loc, hl, _, _⟩ := locOf_meaning f p n ldr sr hk
  simp [fixGenFix, hl, hlr]

theorem rdFixes_group (is32 : Bool) (start : Nat) (g : List Fixup) (h : ∀ f ∈ g, f.Readable start) (fuel : Nat)
    (hn : g.length ≤ fuel) :
    ∃ l, rdFixes is32 fuel (g.flatMap (fixGenFix · start is32)) = some l ∧ l.length = g.length ∧
      List.Forall₂ (fun (r : FixRec) (f : Fixup) => r.offset = f.locofs - start ∧
        some (r.ref.target, r.ref.targetDatum) = f.wantTarget) l g := by
  induction g generalizing fuel with
  | nil => exact ⟨[], by cases fuel <;> simp [rdFixes], rfl, .nil⟩
  | cons f g ih =>
    obtain ⟨h0, ⟨tg, hw⟩, ⟨⟨p, n, ldr, sr⟩, hk⟩, hi, h1, h2, h3⟩ := h f (by simp)
    cases fuel with
    | zero => simp at hn
    | succ fuel =>
      obtain ⟨l, r1, r2, r3⟩ := ih (fun x hx => h x (by simp [hx])) fuel (by simpa using hn)
      obtain ⟨loc, ref, e1, e2, e3, e4⟩ := C07_location_and_target f start is32 (g.flatMap (fixGenFix · start is32)) tg p n ldr sr
        h0 hw hk hi h1 h2 h3
      refine ⟨⟨sr, loc, f.locofs - start, ref⟩ :: l, ?_, by simp only [List.length_cons, r2], .cons ⟨rfl, by rw [e3, hw]⟩ r3⟩
      have hpos := fixGenFix_ne f start is32 tg p n ldr sr hw hk
      rw [List.flatMap_cons]
      rcases hh : fixGenFix f start is32 with _ | ⟨a, tl⟩
      · rw [hh] at hpos; simp at hpos
      · rw [hh] at e1
        simp only [List.cons_append] at e1 ⊢
        simp only [rdFixes, e1, r1, bind, Option.bind, pure]

/-- **C36** (read back) A linker that reads the FIXUPP records back gets, in order, one fixup for each relocation, at its
position and with its target. -/
theorem C36_linker_sees_all (is32 : Bool) (start : Nat) (fs : List Fixup) (h : ∀ f ∈ fs, f.Readable start) :
    ∃ ls : List (List FixRec), (writeFixupp is32 start fs.length fs).mapM (rdFixes is32 fs.length) = some ls ∧
      List.Forall₂ (fun (r : FixRec) (f : Fixup) => r.offset = f.locofs - start ∧
        some (r.ref.target, r.ref.targetDatum) = f.wantTarget) ls.flatten (fs.filter (·.type.is32 == is32)) := by
  obtain ⟨gs, h1, h2, _⟩ := C36_all_fixups_written is32 start fs
  rw [h2, ← h1]
  have hall : ∀ g ∈ gs, (∀ f ∈ g, f.Readable start) ∧ g.length ≤ fs.length := by
    intro g hg
    have hsub : ∀ f ∈ g, f ∈ fs := by
      intro f hf
      have : f ∈ gs.flatten := List.mem_flatten.mpr ⟨g, hg, hf⟩
      rw [h1] at this
      exact (List.mem_filter.mp this).1
    refine ⟨fun f hf => h f (hsub f hf), ?_⟩
    have := List.length_filter_le (·.type.is32 == is32) fs
    rw [← h1] at this
    have h' : g.length ≤ gs.flatten.length := (List.sublist_flatten_of_mem hg).length_le
    omega
  clear h1 h2
  induction gs with
  | nil => exact ⟨[], rfl, .nil⟩
  | cons g gs ih =>
    obtain ⟨ls, i1, i2⟩ := ih (fun g hg => hall g (by simp [hg]))
    obtain ⟨l, j1, _, j3⟩ := rdFixes_group is32 start g (hall g (by simp)).1 fs.length (hall g (by simp)).2
    by_cases he : g.flatMap (fixGenFix · start is32) = []
    · rw [he] at j1
      have : l = [] := by
        have : rdFixes is32 fs.length [] = some [] := by cases fs.length <;> rfl
        rw [this] at j1; simpa using j1.symm
      subst this
      cases j3
      refine ⟨ls, ?_, by simpa using i2⟩
      simpa using i1
    · refine ⟨l :: ls, ?_, ?_⟩
      · rw [List.map_cons, List.filter_cons_of_pos (by simpa using he)]
        simp only [List.mapM_cons, j1, i1, bind, Option.bind, pure]
      · simpa using List.rel_append j3 i2

example : sampleFix.Readable 0x400 := by
  refine ⟨by decide, ⟨_, rfl⟩, ⟨_, rfl⟩, ⟨by decide, by decide, by decide⟩, by decide, by decide, by decide⟩

/-- **C37** Segment contents. After any sequence of emitted bytes, unsplittable items, ORGs and flushes, followed by the
final flush: nothing was written outside the code buffer, every LEDATA record holds 1..1014 bytes, the image a linker
builds from them is exactly what was emitted, and every fixup was written once, in order, with an LEDATA record that
contains its location (so its position fits the 10-bit field). -/
theorem C37_segment_contents (ops : List Op) (h : OpsOk 0 ops) :
    ∃ s, segInit.run (ops ++ [.flush]) = .ok s ∧ image s.recs = (emitted ops).mem ∧ s.cur = (emitted ops).pos ∧
      (∀ r ∈ s.recs, 0 < r.2.length ∧ r.2.length ≤ 1014) ∧
      s.fixRecs.flatMap (·.2) = opFixups ops ∧
      ∀ p ∈ s.fixRecs, ∃ d, (p.1, d) ∈ s.recs ∧ ∀ f ∈ p.2, p.1 ≤ f.locofs ∧ f.locofs < p.1 + d.length := by
  obtain ⟨s, h1, h2, h3⟩ := run_inv ops segInit _ _ init_inv h
  obtain ⟨i1, i2, i3, i4, i5, i6⟩ := flush_inv s _ _ h3
  refine ⟨flush s, ?_, i6, by rw [i3, h2]; rfl, i1.recs, ?_, i1.fixRecs⟩
  · unfold Seg.run at h1 ⊢
    rw [List.foldlM_append, h1]; rfl
  · have := i1.allfx
    rw [i5, List.append_nil] at this
    simpa using this

/-- **C37** (finding) INCBIN of a file larger than the 1024-byte OMF code buffer writes outside it. -/
theorem C37_incbin_overflows (bs : List Byte) (h : 1024 < bs.length) : outputBinBytes segInit bs = .error .ub := by
  simp [outputBinBytes, segInit, ledataMax, store, h]

/-- **C37** (finding) So does a wide string (OPTION WSTRING etc.) longer than 512 characters: the test uses half the size. -/
theorem C37_wide_string_overflows (bs : List Byte) (h : 512 < bs.length) : outputInterleaved segInit bs none = .error .ub := by
  have hl : (bs.flatMap fun b => [b, 0#8]).length = 2 * bs.length := by
    induction bs with
    | nil => rfl
    | cons b t ih =>
      clear h ih
      induction t with
      | nil => rfl
      | cons c t ih => simp at ih ⊢; omega
  unfold outputInterleaved store
  simp only
  split
  · rw [if_pos (by simp only [hl]; omega)]
  · rw [if_pos (by simp only [hl]; omega)]

example : OpsOk 0 [.byte 1, .bytes [2, 3, 4] (some { sampleFix with locofs := 2 }), .org 0x100 false, .byte 5] ∧
    (emitted [.byte 1, .bytes [2, 3, 4] (some { sampleFix with locofs := 2 }), .org 0x100 false, .byte 5]).mem 0x100 = some 5 := by
  refine ⟨⟨by decide, by decide, ?_, trivial⟩, by decide⟩
  intro x hx; simp at hx; subst hx; decide

end Verif.Omf
