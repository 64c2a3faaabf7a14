import Verif.Bin.Model
/-! # Specification: what a linker layout must satisfy (C23) -/
namespace Verif.Bin.Spec
open Verif.Bin

/-- Segments that occupy space in the output: neither absolute nor informational. -/
def placed (s : Seg) : Bool := s.segtype ≠ .abs && !s.info

/-- Number of bytes the segment occupies in the output file.  Uninitialised (BSS) segments occupy no
file space in MZ and PE files. -/
def fileSize (fmt : Fmt) (s : Seg) : Nat :=
  if s.segtype = .bss ∧ fmt ≠ .none then 0 else s.maxOffset.toNat - s.startLoc.toNat

/-- Number of bytes the segment occupies in memory. -/
def memSize (s : Seg) : Nat := s.maxOffset.toNat - s.startLoc.toNat

/-- File position of the byte with segment offset `o`. -/
def filePos (s : Seg) (o : Nat) : Int := s.fileOffset.toNat + ((o : Int) - s.startLoc.toNat)

/-- What the user wrote about a segment (everything the layout does not compute). -/
def decl (s : Seg) : Seg := { s with startLoc := 0, fileOffset := 0, startOffset := 0 }

/-- Upper bound of the file space a list of segments can need: size plus largest padding.  `a` is a
further alignment (log2) imposed by the format. -/
def budget (a : Nat) : List Seg → Nat
  | [] => 0
  | s :: ss => 2 ^ max a s.alignment + s.maxOffset.toNat + budget a ss

/-- Sane declarations: alignments are representable, ORG does not start behind the segment's end. -/
def Sane (ss : List Seg) : Prop :=
  ∀ s ∈ ss, s.alignment ≤ 31 ∧ s.startLoc.toNat ≤ s.maxOffset.toNat

end Verif.Bin.Spec

namespace Verif.Bin.Spec
open Verif.Bin

/-- Sum of the sizes of the initialised segments of a section. -/
def rawSum (sec : List Seg) : W :=
  (sec.map (fun s => if s.segtype ≠ .bss then s.maxOffset else 0)).foldr (· + ·) 0

/-- The section header of a section `a :: mem`. -/
def header (rps : W) (a : Seg) (mem : List Seg) : SecHdr :=
  let last := (a :: mem).getLast (by simp)
  { name := a.name
    virtualAddress := a.startOffset
    virtualSize := last.maxOffset + (last.startOffset - a.startOffset)
    pointerToRawData := if a.segtype ≠ .bss then a.fileOffset else 0
    sizeOfRawData := alignUp (rawSum (a :: mem)) rps }

/-- A list of sections as pe_set_values should see it: every section's segments carry the section's
index, none is empty, neighbouring sections have different indices. -/
def Sections : List (Seg × List Seg) → Prop
  | [] => True
  | (a, mem) :: rest =>
    (∀ s ∈ a :: mem, s.lname = a.lname ∧ s.maxOffset ≠ 0 ∧ s.segtype ≠ .hdr) ∧
    (∀ b ∈ rest.head?, b.1.lname ≠ a.lname) ∧ Sections rest

end Verif.Bin.Spec
