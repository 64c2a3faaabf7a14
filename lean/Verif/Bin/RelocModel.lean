import Verif.Bin.Model
/-! # Model: PE base relocations and MZ relocations of bin.c (C25) -/
namespace Verif.Bin

/-- `enum fixup_types` (H/fixup.h) as far as bin.c handles them. -/
inductive FixType
  | void | relOff8 | relOff16 | relOff32 | off8 | off16 | off32 | off64 | seg | ptr16 | ptr32 | hiByte
  | imgRel | secRel | other
  deriving DecidableEq, Repr

/-- A fixup as seen by pe_set_base_relocs. -/
structure RFix where
  type : FixType
  locofs : W
  deriving DecidableEq, Repr

/-- A segment as seen by pe_set_base_relocs: `segtype == SEGTYPE_HDR`, `start_offset`, FixupList. -/
structure RSeg where
  hdr : Bool
  startOffset : W
  fixups : List RFix
  deriving DecidableEq, Repr

/-- The type codes stored in the table (bin.c:1176-1182; H/pespec.h IMAGE_REL_BASED_*):
LOW = 2, HIGHLOW = 3, DIR64 = 10; 0 = no entry. -/
def relType : FixType → BitVec 16
  | .off16 => 2
  | .off32 => 3
  | .off64 => 10
  | _ => 0

/-- `currloc = start_offset + ( fixup->locofs & 0xFFFFF000 )` (bin.c:1139, 1185). -/
def pageOf (start locofs : W) : W := start + (locofs &&& 0xFFFFF000)

/-- Counters of the first pass: `currpage`, `cnt1`, `cnt2`. -/
structure Cnt where
  page : W
  cnt1 : W
  cnt2 : W
  deriving DecidableEq, Repr

/-- Counting pass, one fixup (bin.c:1134-1147). -/
def countFix (start : W) (c : Cnt) (f : RFix) : Cnt :=
  match f.type with
  | .off16 | .off32 | .off64 =>
    let loc := pageOf start f.locofs
    let c1 : Cnt := if loc ≠ c.page then
        ⟨loc, if c.cnt1 &&& 1 ≠ 0 then c.cnt1 + 1 else c.cnt1, c.cnt2 + 1⟩
      else c
    { c1 with cnt1 := c1.cnt1 + 1 }
  | _ => c

/-- Counting pass (bin.c:1130-1162). -/
def countAll (segs : List RSeg) : Cnt :=
  segs.foldl (fun c s => if s.hdr then c else s.fixups.foldl (countFix s.startOffset) c) ⟨-1, 0, 0⟩

/-- `reloc->sym.max_offset` (bin.c:1163): the size of the table in bytes, also allocated (1164). -/
def relocSize (segs : List RSeg) : W := (countAll segs).cnt2 * 8 + (countAll segs).cnt1 * 2

/-- The table buffer as 16-bit words; `base` = `baserel`, `prel`, both as word index. -/
structure WSt where
  mem : Nat → BitVec 16
  base : Nat
  prel : Nat

def put16 (mem : Nat → BitVec 16) (i : Nat) (v : BitVec 16) : Nat → BitVec 16 :=
  fun j => if j = i then v else mem j

/-- Store / load of a 32-bit field (little endian, as two words). -/
def put32 (mem : Nat → BitVec 16) (i : Nat) (v : W) : Nat → BitVec 16 :=
  put16 (put16 mem i (v.setWidth 16)) (i + 1) ((v >>> 16).setWidth 16)

def get32 (mem : Nat → BitVec 16) (i : Nat) : W := (mem (i + 1)) ++ (mem i)

/-- Writing pass, one fixup (bin.c:1174-1204). -/
def writeFix (start : W) (st : WSt) (f : RFix) : WSt :=
  let t := relType f.type
  if t = 0 then st
  else
    let loc := pageOf start f.locofs
    let st1 : WSt :=
      if loc ≠ get32 st.mem st.base then
        let st0 : WSt :=
          if get32 st.mem st.base ≠ -1 then
            let p : WSt :=
              if get32 st.mem (st.base + 2) &&& 2 ≠ 0 then
                ⟨put32 (put16 st.mem st.prel 0) (st.base + 2)
                   (get32 (put16 st.mem st.prel 0) (st.base + 2) + 2), st.base, st.prel + 1⟩
              else st
            ⟨p.mem, p.prel, p.prel + 4⟩
          else st
        ⟨put32 (put32 st0.mem st0.base loc) (st0.base + 2) 8, st0.base, st0.prel⟩
      else st
    let mem1 := put16 st1.mem st1.prel ((f.locofs &&& 0xfff).setWidth 16 ||| (t <<< 12))
    ⟨put32 mem1 (st1.base + 2) (get32 mem1 (st1.base + 2) + 2), st1.base, st1.prel + 1⟩

/-- Writing pass (bin.c:1166-1207); `mem` is the buffer as allocated. -/
def writeAll (mem : Nat → BitVec 16) (segs : List RSeg) : WSt :=
  segs.foldl (fun c s => if s.hdr then c else s.fixups.foldl (writeFix s.startOffset) c)
    ⟨put32 mem 0 (-1), 0, 4⟩

/-! ## MZ relocations -/

/-- The linear position of a segment relocation as GetSegRelocs computes it (bin.c:341-361): the pair
(valueofs, valueseg).  `group` is `group->offset` if the segment is in a group. -/
def mzLoop (loc : W) (seg : BitVec 16) : W × BitVec 16 :=
  if h : 0x10000 ≤ loc.toNat then mzLoop (loc - 16) (seg + 1) else (loc, seg)
termination_by loc.toNat
decreasing_by
  have h16 : (16 : W).toNat = 16 := rfl
  rw [BitVec.toNat_sub, h16]; have := loc.isLt; omega

def mzReloc (start : W) (group : Option W) (t : FixType) (locofs : W) : BitVec 16 × BitVec 16 :=
  let loc0 := locofs + (start &&& 0xf)
  let seg0 : BitVec 16 := (start >>> 4).setWidth 16
  let loc1 := match group with | none => loc0 | some g => loc0 + (g &&& 0xf)
  let seg1 := match group with | none => seg0 | some g => seg0 + (g >>> 4).setWidth 16
  let loc2 := match t with | .ptr16 => loc1 + 2 | .ptr32 => loc1 + 4 | _ => loc1
  let r := mzLoop loc2 seg1
  (r.1.setWidth 16, r.2)

/-- GetSegRelocs (bin.c:315-371) for one segment's fixups: the list of pairs written.  The flag of a
fixup says that its symbol lies in an absolute segment (no relocation, 334-336). -/
def mzRelocs (start : W) (group : Option W) : List (RFix × Bool) → List (BitVec 16 × BitVec 16)
  | [] => []
  | (f, absSym) :: r =>
    (match f.type with
     | .ptr32 | .ptr16 | .seg => if absSym then [] else [mzReloc start group f.type f.locofs]
     | _ => []) ++ mzRelocs start group r

end Verif.Bin
