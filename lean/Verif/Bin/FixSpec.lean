import Verif.Bin.FixModel
/-! # Specification: the values fixups must store (C24) -/
namespace Verif.Bin.Spec
open Verif.Bin

/-- The number of bytes a fixup occupies. -/
def width : FixType → Nat
  | .relOff8 | .off8 | .hiByte => 1
  | .relOff16 | .off16 | .seg => 2
  | .relOff32 | .off32 | .imgRel | .secRel | .ptr16 => 4
  | .off64 => 8
  | .ptr32 => 6
  | .void | .other => 0

/-- `Target f s o`: the fixup refers to the place at offset `o` of segment `s` (an assembly-time variable
carries its segment in the fixup and its value in the fixup's offset). -/
def Target (f : FFix) (s : FSeg) (o : W) : Prop :=
  ∃ y, f.sym = some y ∧
    ((y.isVar = true ∧ f.segmentVar = some s ∧ o = f.offset) ∨
     (y.isVar = false ∧ y.segment = some s ∧ o = f.offset + y.offset))

/-- Where the group of a segment starts in the image (0 without group). -/
def groupStart (s : FSeg) : W := s.group.getD 0

/-- The paragraph of the frame of the fixup: the group's, unless there is none or the fixup is explicitly
relative to the segment. -/
def paragraph (f : FFix) (s : FSeg) : W :=
  if s.group.isSome ∧ f.frame ≠ .seg then groupStart s >>> 4
  else (groupStart s + s.startOffset) >>> 4

/-- The linear address of offset `o` of a segment in the image. -/
def linear (s : FSeg) (o : W) : W := groupStart s + s.startOffset + o

/-- The end of the instruction part the displacement is relative to. -/
def relEnd (cur : FCur) (f : FFix) : W :=
  cur.startOffset + f.locofs + (if f.type = .relOff32 ∧ cur.use64 then f.addbytes else BitVec.ofNat 32 (width f.type))

/-- PE image base to be added to a 32-bit address. -/
def base32 (p : FPar) (f : FFix) (s : FSeg) : W :=
  if (p.fmt = .pe ∨ p.fmt = .b64) ∧ s.group.isSome ∧ f.frame ≠ .seg then p.imagebase else 0

/-- Offset within the frame. -/
def frameOffset (f : FFix) (s : FSeg) (o : W) : W := linear s o - (paragraph f s <<< 4)

/-- What a fixup location must contain afterwards (`new`), given what it contained before (`old`). -/
def Correct (p : FPar) (cur : FCur) (f : FFix) (s : FSeg) (o : W) (old new : Mem) : Prop :=
  let i := (f.locofs - cur.startLoc).toNat
  let n := width f.type
  match f.type with
  -- relative: end of field + displacement = target (plus what the field held before)
  | .relOff8 | .relOff16 | .relOff32 =>
    ((relEnd cur f).toNat + rd n new i) % 256 ^ n = ((s.startOffset + o).toNat + rd n old i) % 256 ^ n
  -- offsets in the frame, truncated to the size of the field
  | .off8 | .off16 | .off32 => rd n new i = (frameOffset f s o + base32 p f s).toNat % 256 ^ n
  | .hiByte => rd n new i = (frameOffset f s o + base32 p f s).toNat / 256 % 256
  | .off64 =>
    if p.fmt = .pe ∧ cur.use64 = true then
      rd n new i = ((frameOffset f s o).toNat + p.imagebase64.toNat) % 256 ^ n
    else rd n new i = (frameOffset f s o + base32 p f s).toNat
  -- relative to the image / to the section
  | .imgRel => rd n new i = (s.startOffset + o - p.imagestart).toNat
  | .secRel =>
    (∀ first, (∃ n, beforeDollar s.name = some n ∧ p.segs.find? (fun s => s.name = n) = some first) →
      rd n new i = (s.startOffset + o - first.startOffset).toNat) ∧
    ('$' ∉ s.name → rd n new i = (o - s.startLoc).toNat)
  -- far pointers: offset and paragraph
  | .ptr16 => rd 2 new i = (frameOffset f s o).toNat % 65536 ∧ rd 2 new (i + 2) = (paragraph f s).toNat % 65536
  | .ptr32 => rd 4 new i = (frameOffset f s o).toNat ∧ rd 2 new (i + 4) = (paragraph f s).toNat % 65536
  | .seg => rd 2 new i = (paragraph f s).toNat % 65536
  | .void | .other => False

/-- The fixups of which bin.c stores the specified value: ordinary offsets and displacements always, except that
a frame-relative offset needs a paragraph-aligned group if it is relative to a segment in it, that a 64-bit
address in a PE image needs a segment of a group (FLAT); far pointers and selectors only in MZ files, for
a frame that is the group, or a segment outside any group (a far pointer: or in a paragraph-aligned group). -/
def Supported (p : FPar) (cur : FCur) (f : FFix) (s : FSeg) : Prop :=
  match f.type with
  | .relOff8 | .relOff16 | .relOff32 | .imgRel | .secRel => True
  | .off8 | .off16 | .off32 | .hiByte => f.frame = .seg → groupStart s &&& 0xF = 0
  | .off64 =>
    if p.fmt = .pe ∧ cur.use64 = true then s.group.isSome ∧ f.frame ≠ .seg
    else f.frame = .seg → groupStart s &&& 0xF = 0
  | .ptr16 | .ptr32 =>
    p.fmt = .mz ∧ s.abs = false ∧
      ((f.frame = .grp ∧ s.group.isSome) ∨ (f.frame = .seg ∧ groupStart s &&& 0xF = 0) ∨
       (f.frame = .other ∧ s.group = none))
  | .seg =>
    p.fmt = .mz ∧ s.abs = false ∧ (∀ y, f.sym = some y → y.state = .other) ∧
      ((f.frame = .grp ∧ s.group.isSome) ∨ (f.frame ≠ .grp ∧ s.group = none))
  | .void | .other => False

/-- The fixups of a segment do not overlap. -/
def Disjoint (cur : FCur) (fs : List FFix) : Prop :=
  fs.Pairwise (fun f g =>
    (f.locofs - cur.startLoc).toNat + width f.type ≤ (g.locofs - cur.startLoc).toNat ∨
    (g.locofs - cur.startLoc).toNat + width g.type ≤ (f.locofs - cur.startLoc).toNat)

end Verif.Bin.Spec
