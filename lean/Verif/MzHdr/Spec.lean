import Verif.MzHdr.Model
/-! # Specification: what DOS does with the header of an MZ file (C81) -/
namespace Verif.MzHdr.Spec
open Verif.MzHdr

/-- The size of the file as the header tells it: `cp` pages of 512 bytes, `cblp` bytes in the last one, 0 for a
full page. -/
def fileLen (h : Hdr) : Nat :=
  if h.cblp.toNat = 0 then 512 * h.cp.toNat else 512 * (h.cp.toNat - 1) + h.cblp.toNat

/-- The load image starts behind the header, which is counted in paragraphs. -/
def hdrLen (h : Hdr) : Nat := 16 * h.cparhdr.toNat

/-- The memory DOS reserves for the program at least: the image in paragraphs, and `minalloc` paragraphs. -/
def memory (h : Hdr) : Nat := 16 * ((fileLen h - hdrLen h + 15) / 16 + h.minalloc.toNat)

/-- Linear address of a register pair, relative to the start of the load image. -/
def linear (s o : BitVec 16) : Nat := 16 * s.toNat + o.toNat

/-- Segments that take part in the image. -/
def placed (s : MSeg) : Bool := decide (s.seg.segtype ≠ .abs) && !s.seg.info

/-- The end of a segment in the file. -/
def fileEnd (s : MSeg) : Nat := s.seg.fileOffset.toNat + (s.seg.maxOffset.toNat - s.seg.startLoc.toNat)

/-- No quantity leaves 32 bits: segments end behind their start, and below 2^32, also with all ORG starts added. -/
def Sane (segs : List MSeg) : Prop :=
  ∀ s ∈ segs, s.seg.startLoc.toNat ≤ s.seg.maxOffset.toNat ∧
    fileEnd s + (segs.map (fun t => t.seg.startLoc.toNat)).sum < 2 ^ 32

end Verif.MzHdr.Spec

namespace Verif.MzHdr.Spec
open Verif.MzHdr

/-- A segment whose bytes belong into the file: it has initialised bytes, or one behind it has. -/
def Stored (segs : List MSeg) (s : MSeg) : Prop :=
  ∃ a b, segs = a ++ s :: b ∧ placed s = true ∧ (s.written = true ∨ ∃ t ∈ b, t.written = true)

/-- What the layout (C23) guarantees: segments are placed in order behind the header. -/
def Ordered (hdr : Nat) (segs : List MSeg) : Prop :=
  (∀ s ∈ segs, placed s = true → hdr ≤ s.seg.fileOffset.toNat) ∧
  segs.Pairwise (fun a b => placed a = true → placed b = true →
    a.seg.fileOffset.toNat ≤ b.seg.fileOffset.toNat)

/-- Segments with initialised bytes are not empty, and their bytes are in a buffer. -/
def Filled (segs : List MSeg) : Prop :=
  ∀ s ∈ segs, s.seg.info = false ∧
    (s.written = true → placed s = true ∧ s.seg.startLoc.toNat < s.seg.maxOffset.toNat) ∧
    (Stored segs s → s.buf = true)

end Verif.MzHdr.Spec
