/-! # Model: the BIN / MZ / PE "micro linker" of bin.c — segment layout (C23)

All fields are `uint_32` in the source, hence `BitVec 32` here (arithmetic wraps).  Segment and
group symbols are referenced by value / by index; `name` is the segment's name. -/
namespace Verif.Bin

abbrev W := BitVec 32

/-- `enum seg_type` (H/globals.h:598-610). -/
inductive SegType
  | undef | code | data | bss | stack | abs | hdr | cdata | reloc | rsrc | error
  deriving DecidableEq, Repr

/-- `enum sformat` (ModuleInfo.sub_format): plain binary, DOS MZ, PE, 64BIT. -/
inductive Fmt | none | mz | pe | b64
  deriving DecidableEq, Repr

/-- The fields of `struct seg_info`/`struct asym` used by bin.c.  `group` is the index of the group
symbol, `info` the "informational section" flag, `alignment` the log2 of the alignment. -/
structure Seg where
  name : List Char
  segtype : SegType
  info : Bool
  group : Option Nat
  alignment : Nat
  absFrame : W
  maxOffset : W
  startLoc : W
  fileOffset : W
  startOffset : W
  lname : Nat
  deriving DecidableEq, Repr

/-- A group symbol: `sym.offset`, `sym.total_size` (H/symbols.h). -/
structure Grp where
  offset : W
  totalSize : W
  deriving DecidableEq, Repr

/-- `struct calc_param` (bin.c:72-92).  `entryseg` is not modelled. -/
structure CP where
  first : Bool
  alignment : Nat
  fileoffset : W
  sizehdr : W
  entryoffset : W
  rva : W
  imagestart : W
  deriving DecidableEq, Repr

/-- State threaded through CalcOffset: the parameter block and the group symbols. -/
structure St where
  cp : CP
  grps : Nat → Grp

/-- `(x + (align - 1)) & (-align)` (bin.c:232). -/
def alignUp (x a : W) : W := (x + (a - 1)) &&& -a

/-- bin.c:228-231: `if (cp->alignment > seg->alignment) align = 1 << cp->alignment else ...`. -/
def alignOf (cp : CP) (s : Seg) : W :=
  if s.alignment < cp.alignment then (1 : W) <<< cp.alignment else (1 : W) <<< s.alignment

/-- `strchr( curr->sym.name, '$' )` (bin.c:264). -/
def hasDollar (s : Seg) : Bool := s.name.contains '$'

/-- bin.c:258-266: reset of `start_loc` for grouped, non-first segments. -/
def resetLoc (flat : Option Nat) (first : Bool) (s : Seg) : W :=
  if !first && s.group.isSome && (s.group != flat || hasDollar s) then 0 else s.startLoc

/-- PE or 64BIT (bin.c:242, 536). -/
def isPE (f : Fmt) : Bool := f == .pe || f == .b64

/-- CalcOffset (bin.c:209-309).  `flat` is `ModuleInfo.flat_grp`.  The 64K warning (302-304) only
prints a message and is not modelled. -/
def calcOffset (fmt : Fmt) (flat : Option Nat) (st : St) (s : Seg) : St × Seg :=
  if s.segtype = .abs then (st, { s with startOffset := s.absFrame <<< 4 })
  else if s.info then (st, s)
  else
    let cp := st.cp
    let align := alignOf cp s
    let alignbytes := alignUp cp.fileoffset align - cp.fileoffset
    let fo := cp.fileoffset + alignbytes
    -- bin.c:235-250
    let og : W × (Nat → Grp) :=
      match s.group with
      | Option.none => (fo - cp.sizehdr, st.grps)
      | some g =>
        if isPE fmt then (cp.rva, st.grps)
        else if (st.grps g).totalSize = 0 then
          (0, fun i => if i = g then { st.grps g with offset := fo - cp.sizehdr } else st.grps i)
        else ((st.grps g).totalSize + alignbytes, st.grps)
    let offset := og.1
    let loc := resetLoc flat cp.first s
    let size := s.maxOffset - loc
    -- bin.c:271-296
    let cp' : CP :=
      if fmt = .none then
        { cp with fileoffset := fo + size
                  imagestart := if cp.first then loc else cp.imagestart
                  entryoffset := if cp.entryoffset = -1 then offset else cp.entryoffset }
      else
        { cp with rva := cp.rva + size
                  fileoffset := if s.segtype = .bss then fo else fo + size }
    -- bin.c:299-308
    let grps' : Nat → Grp :=
      match s.group with
      | Option.none => og.2
      | some g => fun i => if i = g then { og.2 g with totalSize := offset + s.maxOffset } else og.2 i
    (⟨{ cp' with first := false }, grps'⟩,
     { s with startLoc := loc, fileOffset := fo, startOffset := offset })

/-- The `.SEQ` loop of bin_write_module (bin.c:1593-1599): CalcOffset for every segment in order. -/
def calcAll (fmt : Fmt) (flat : Option Nat) (st : St) : List Seg → St × List Seg
  | [] => (st, [])
  | s :: ss =>
    let r := calcOffset fmt flat st s
    let q := calcAll fmt flat r.1 ss
    (q.1, r.2 :: q.2)

/-- The header size and the initial state of bin_write_module (bin.c:1519, 1542-1563). -/
def initSt (sizehdr : W) : St :=
  ⟨⟨true, 0, sizehdr, sizehdr, -1, 0, 0⟩, fun _ => ⟨0, 0⟩⟩

/-- `cp.sizehdr` of the MZ format (bin.c:1545): relocation count, `ofs_fixups`, `alignment`. -/
def mzSizeHdr (reloccnt : BitVec 16) (ofsFixups alignment : BitVec 16) : W :=
  (reloccnt.setWidth 32 * 4 + ofsFixups.setWidth 32 + (alignment.setWidth 32 - 1)) &&&
    ~~~(alignment.setWidth 32 - 1)

/-- The alignment step of the loop "assign RVAs to sections" (bin.c:1303-1311): a new section is
aligned to FileAlignment / SectionAlignment, a further segment of the section to its own alignment.
`SEGTYPE_ERROR` is 10 (H/globals.h:609). -/
def peAlign (falign : Nat) (malign : W) (i : Option Nat) (st : St) (s : Seg) : St :=
  if s.lname = 10 ∨ i ≠ some s.lname then
    { st with cp := { st.cp with alignment := falign
                                 rva := (st.cp.rva + (malign - 1)) &&& ~~~(malign - 1) } }
  else
    { st with cp := { st.cp with
        alignment := 0
        rva := (st.cp.rva + ((1 : W) <<< s.alignment - 1)) &&& ~~~((1 : W) <<< s.alignment - 1) } }

/-- The loop "assign RVAs to sections" of pe_set_values (bin.c:1302-1315).  `i` is the current
section index (`none` = -1), `falign` the log2 of FileAlignment, `malign` SectionAlignment. -/
def peAssign (fmt : Fmt) (flat : Option Nat) (falign : Nat) (malign : W) :
    Option Nat → St → List Seg → St × List Seg
  | _, st, [] => (st, [])
  | i, st, s :: ss =>
    let r := calcOffset fmt flat (peAlign falign malign i st s) s
    let q := peAssign fmt flat falign malign (some s.lname) r.1 ss
    (q.1, r.2 :: q.2)

/-- `struct IMAGE_SECTION_HEADER`: the fields set by pe_set_values. -/
structure SecHdr where
  name : List Char
  virtualSize : W
  virtualAddress : W
  sizeOfRawData : W
  pointerToRawData : W
  deriving DecidableEq, Repr

def emptyHdr : SecHdr := ⟨[], 0, 0, 0, 0⟩

/-- The loop "fill object table values" of pe_set_values (bin.c:1337-1391), for one section table.
State: the finished headers (in reverse), the current one (`section`), the current index `i`.
`rps` is `cp->rawpagesize`.  `Characteristics`, code/data base and size are not modelled; the name is
the first segment's name. -/
def fillTable (rps : W) : List SecHdr → SecHdr → Option Nat → List Seg → List SecHdr
  | done, sec, _, [] => (sec :: done).reverse
  | done, sec, i, s :: ss =>
    if s.segtype = .hdr then fillTable rps done sec i ss
    else if s.maxOffset = 0 then fillTable rps done sec i ss
    else
      let sec1 : SecHdr :=
        if i ≠ some s.lname then
          { sec with name := s.name
                     pointerToRawData := if s.segtype ≠ .bss then s.fileOffset else sec.pointerToRawData
                     virtualAddress := s.startOffset }
        else sec
      let sec2 : SecHdr :=
        { sec1 with sizeOfRawData := if s.segtype ≠ .bss then sec1.sizeOfRawData + s.maxOffset
                                     else sec1.sizeOfRawData
                    virtualSize := s.maxOffset + (s.startOffset - sec1.virtualAddress) }
      let last : Bool := match ss with
        | [] => true
        | t :: _ => t.lname ≠ s.lname
      let sec3 : SecHdr :=
        if last then { sec2 with sizeOfRawData := (sec2.sizeOfRawData + (rps - 1)) &&& ~~~(rps - 1) }
        else sec2
      match ss with
      | [] => fillTable rps done sec3 (some s.lname) []
      | t :: ts =>
        if t.lname ≠ s.lname then fillTable rps (sec3 :: done) emptyHdr (some s.lname) (t :: ts)
        else fillTable rps done sec3 (some s.lname) (t :: ts)

/-- One pass of SortSegments (segment.c:1101-1133) over the segment list: adjacent elements out of
order are swapped; after a swap the pass continues behind the swapped pair. -/
def sortPass (gt : Seg → Seg → Bool) : List Seg → Bool × List Seg
  | [] => (false, [])
  | [x] => (false, [x])
  | x :: y :: r =>
    if gt x y then (true, y :: x :: (sortPass gt r).2)
    else ((sortPass gt (y :: r)).1, x :: (sortPass gt (y :: r)).2)

/-- SortSegments (segment.c:1094-1135): passes until nothing changes.  `none` would be an endless loop. -/
def sortSegments (gt : Seg → Seg → Bool) (l : List Seg) : Option (List Seg) :=
  if (sortPass gt l).1 then sortSegments gt (sortPass gt l).2 else some (sortPass gt l).2
partial_fixpoint

/-- Order of type 0 (segment.c:1107-1110): by file offset. -/
def gtFile (a b : Seg) : Bool := decide (b.fileOffset.toNat < a.fileOffset.toNat)

/-- `strcmp(a, b) > 0` on the character codes. -/
def strGt : List Char → List Char → Bool
  | [], _ => false
  | _ :: _, [] => true
  | x :: xs, y :: ys => if y.toNat < x.toNat then true else if x.toNat < y.toNat then false else strGt xs ys

/-- Order of type 1 (segment.c:1111-1114): by name. -/
def gtName (a b : Seg) : Bool := strGt a.name b.name

/-- Order of type 2 (segment.c:1115-1120): by section index, then by name without case. -/
def gtSect (a b : Seg) : Bool :=
  decide (b.lname < a.lname) ||
    (decide (a.lname = b.lname) && strGt (a.name.map Char.toLower) (b.name.map Char.toLower))

end Verif.Bin
