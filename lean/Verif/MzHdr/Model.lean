import Verif.Bin.Model
/-! # Model: the header of DOS MZ files — bin.c GetImageSize, bin_write_module; option.c SetMZ (C81)

The header fields are `uint_16` (H/pespec.h:9-29), sizes and offsets are `uint_32`. -/
namespace Verif.MzHdr
open Verif.Bin

/-- A segment as bin_write_module sees it: the fields of `Verif.Bin.Seg` after the layout,
`bytes_written != 0`, `CodeBuffer != NULL`, `combine == COMB_STACK`, and `group->offset` if it is in a group. -/
structure MSeg where
  seg : Seg
  written : Bool
  buf : Bool
  stack : Bool
  group : Option W
  deriving DecidableEq, Repr

/-- `struct MZDATA` (H/globals.h:698-703). -/
structure MzData where
  ofsFixups : BitVec 16
  alignment : BitVec 16
  heapmin : BitVec 16
  heapmax : BitVec 16
  deriving DecidableEq, Repr

/-- The default values (bin.c:58-60). -/
def mzdata : MzData := ⟨0x1E, 0x10, 0, 0xFFFF⟩

/-- The loop `for( j = 16; j < alignment; j <<= 1 )` (option.c:864); `n` bounds the rounds, 13 are enough for
16 bits. -/
def pow2Loop (a : Nat) : Nat → Nat → Nat
  | 0, j => j
  | n + 1, j => if j < a then pow2Loop a n (j * 2) else j

/-- The end of SetMZ (option.c:859-870): the corrected parameters, and whether INVALID_HEADER_ALIGNMENT was
reported. -/
def setMZ (d : MzData) : MzData × Bool :=
  let d1 := if d.ofsFixups < 0x1E then { d with ofsFixups := 0x1E } else d
  let bad := pow2Loop d1.alignment.toNat 13 16 != d1.alignment.toNat
  (if d1.heapmax < d1.heapmin then { d1 with heapmax := d1.heapmin } else d1, bad)

/-- `max_offset - start_loc` (bin.c:401, 1735). -/
def size (s : MSeg) : W := s.seg.maxOffset - s.seg.startLoc

/-- The loop of GetImageSize (bin.c:387-411) with `first`, `vsize`, `size`. -/
def imageLoop (memimage : Bool) : Bool → W → W → List MSeg → W
  | _, _, sz, [] => sz
  | first, vsize, sz, s :: r =>
    if s.seg.segtype = .abs || s.seg.info then imageLoop memimage first vsize sz r
    else if !memimage && !s.written && !r.any (·.written) then sz
    else
      let vsize' := if first then vsize else vsize + s.seg.startLoc
      let tmp := s.seg.fileOffset + size s
      let tmp' := if memimage then tmp + vsize' else tmp
      imageLoop memimage false vsize' (if sz < tmp' then tmp' else sz) r

/-- GetImageSize (bin.c:379-414). -/
def imageSize (memimage : Bool) (segs : List MSeg) : W := imageLoop memimage true 0 0 segs

/-- `struct IMAGE_DOS_HEADER` (H/pespec.h:9-22), as far as it is filled. -/
structure Hdr where
  cblp : BitVec 16
  cp : BitVec 16
  crlc : BitVec 16
  cparhdr : BitVec 16
  minalloc : BitVec 16
  maxalloc : BitVec 16
  ss : BitVec 16
  sp : BitVec 16
  ip : BitVec 16
  cs : BitVec 16
  lfarlc : BitVec 16
  deriving DecidableEq, Repr

/-- SS:SP (bin.c:1645-1652). -/
def stackRegs (s : MSeg) : BitVec 16 × BitVec 16 :=
  let addr : W := match s.group with | none => s.seg.startOffset | some g => s.seg.startOffset + g
  (((addr >>> 4) + (if addr &&& 0xF ≠ 0 then 1 else 0)).setWidth 16, s.seg.maxOffset.setWidth 16)

/-- CS:IP (bin.c:1665-1673): `s` is the segment of the start label, `ofs` the label's offset. -/
def entryRegs (s : MSeg) (ofs : W) : BitVec 16 × BitVec 16 :=
  match s.group with
  | some g => ((g >>> 4).setWidth 16, ((g &&& 0xF) + s.seg.startOffset + ofs).setWidth 16)
  | none => ((s.seg.startOffset >>> 4).setWidth 16, ((s.seg.startOffset &&& 0xF) + ofs).setWidth 16)

/-- `first` paragraphs count of the heap (bin.c:1635): rounded up. -/
def paras (n : W) : BitVec 16 := (n / 16 + (if n % 16 ≠ 0 then 1 else 0)).setWidth 16

/-- The header (bin.c:1540-1541, 1624-1677): parameters, number of relocations, segments (after the layout),
start label. -/
def mzHeader (d : MzData) (nrelocs : Nat) (segs : List MSeg) (start : Option (MSeg × W)) : Hdr :=
  let reloccnt : BitVec 16 := BitVec.ofNat 16 nrelocs
  let sizehdr := mzSizeHdr reloccnt d.ofsFixups d.alignment
  let sizetotal := imageSize false segs
  let sizeheap := imageSize true segs - sizetotal
  let minalloc := if paras sizeheap < d.heapmin then d.heapmin else paras sizeheap
  let st := match segs.find? (·.stack) with | none => (0, 0) | some s => stackRegs s
  let en := match start with | none => (0, 0) | some (s, ofs) => entryRegs s ofs
  { cblp := (sizetotal % 512).setWidth 16
    cp := (sizetotal / 512 + (if sizetotal % 512 ≠ 0 then 1 else 0)).setWidth 16
    crlc := reloccnt
    cparhdr := (sizehdr >>> 4).setWidth 16
    minalloc := minalloc
    maxalloc := if d.heapmax < minalloc then minalloc else d.heapmax
    ss := st.1, sp := st.2, ip := en.2, cs := en.1
    lfarlc := d.ofsFixups }

/-- The length of the file after the sections were written (bin.c:1692-1694, 1722-1780): each `fseek` and
`fwrite` extends it to at least the end of the section.  MZ format, not FLAT (then every byte is written). -/
def fileLength : Nat → List MSeg → Nat
  | len, [] => len
  | len, s :: r =>
    if s.seg.segtype = .abs then fileLength len r
    else
      let sz : W := if !s.written && !r.any (·.written) then 0 else size s
      if sz ≠ 0 ∧ s.buf = true then
        fileLength (max len (s.seg.fileOffset.toNat + sz.toNat)) r
      else fileLength len r

end Verif.MzHdr
