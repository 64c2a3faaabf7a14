import Verif.Bin.RelocModel
/-! # Model: DoFixup of bin.c (C24)

The code buffer is a byte map; `CodeBuffer[i]` is `mem i`.  Following a null pointer ends the run (`none`).
The variable `value64` lives outside the loop (bin.c:437), so its last value is kept: `FSt.v64`.  The update of
`fixup->locofs` for 64-bit relative fixups is only used for the stored value (nothing reads it afterwards
except the base relocations, which skip relative fixups). -/
namespace Verif.Bin

abbrev Mem := Nat → BitVec 8

/-- Little-endian store / load of `n` bytes. -/
def put : Nat → Mem → Nat → Nat → Mem
  | 0, mem, _, _ => mem
  | n + 1, mem, i, v => put n (fun j => if j = i then BitVec.ofNat 8 v else mem j) (i + 1) (v / 256)

def rd : Nat → Mem → Nat → Nat
  | 0, _, _ => 0
  | n + 1, mem, i => (mem i).toNat + 256 * rd n mem (i + 1)

/-- `fixup->frame_type` as far as bin.c distinguishes it. -/
inductive Frame | seg | grp | other
  deriving DecidableEq, Repr

/-- A target segment: name, `start_offset`, `start_loc`, `group->offset` if in a group, `segtype ==
SEGTYPE_ABS` and `abs_frame`. -/
structure FSeg where
  name : List Char
  startOffset : W
  startLoc : W
  group : Option W
  abs : Bool
  absFrame : BitVec 16
  deriving DecidableEq, Repr

/-- `sym->state` with what it points to. -/
inductive SymSt | grp (offset : W) | seg (s : FSeg) | other
  deriving DecidableEq, Repr

structure FSym where
  isVar : Bool
  segment : Option FSeg
  offset : W
  state : SymSt
  deriving DecidableEq, Repr

structure FFix where
  type : FixType
  frame : Frame
  locofs : W
  offset : W
  addbytes : W
  sym : Option FSym
  segmentVar : Option FSeg
  deriving DecidableEq, Repr

/-- The segment whose fixups are handled. -/
structure FCur where
  startOffset : W
  startLoc : W
  abs : Bool
  use64 : Bool
  deriving DecidableEq, Repr

/-- `struct calc_param` and the global values DoFixup uses. -/
structure FPar where
  fmt : Fmt
  imagestart : W
  imagebase : W
  imagebase64 : BitVec 64
  segs : List FSeg

/-- The part of a name before the first '$' (bin.c:479-482 strchr); `none` if there is none. -/
def beforeDollar : List Char → Option (List Char)
  | [] => none
  | c :: r => if c = '$' then some [] else (beforeDollar r).map (c :: ·)

/-- First switch of DoFixup (bin.c:448-533): value, value64, seg. -/
def fixValue (p : FPar) (use64 : Bool) (f : FFix) (v64 : BitVec 64) :
    Option (W × BitVec 64 × Option FSeg) :=
  match f.sym with
  | none => some (0, v64, none)
  | some y =>
    if y.segment.isSome || y.isVar then
      let seg? := if y.isVar then f.segmentVar else y.segment
      let offset : W := if y.isVar then 0 else y.offset
      match seg? with
      | none => none
      | some seg =>
        match f.type with
        | .imgRel => some ((f.offset + offset + seg.startOffset) - p.imagestart, v64, some seg)
        | .secRel =>
          let value := (f.offset + offset) - seg.startLoc
          match beforeDollar seg.name with
          | none => some (value, v64, some seg)
          | some n =>
            match p.segs.find? (fun s => s.name = n) with
            | none => some (value, v64, some seg)
            | some first => some ((f.offset + offset + seg.startOffset) - first.startOffset, v64, some seg)
        | .relOff8 | .relOff16 | .relOff32 => some (seg.startOffset + f.offset + offset, v64, some seg)
        | _ =>
          match seg.group with
          | some g =>
            if f.frame ≠ .seg then
              let value := (g &&& 0xF) + seg.startOffset + f.offset + offset
              if p.fmt = .pe ∨ p.fmt = .b64 then
                some (value + p.imagebase,
                  if use64 then value.setWidth 64 + p.imagebase64 else v64, some seg)
              else some (value, v64, some seg)
            else some ((seg.startOffset &&& 0xF) + f.offset + offset, v64, some seg)
          | none => some ((seg.startOffset &&& 0xF) + f.offset + offset, v64, some seg)
    else some (0, v64, none)

/-- case FIX_PTR32 and default (bin.c:663-692): the new buffer and whether an error was reported. -/
def storePtr32 (p : FPar) (f : FFix) (mem : Mem) (i : Nat) (value : W) (seg : Option FSeg) : Option (Mem × Bool) :=
  let absSeg := match seg with | some s => if s.abs then some s else none | none => none
  match absSeg with
  | some s => some (put 2 (put 4 mem i value.toNat) (i + 4) s.absFrame.toNat, false)
  | none =>
    if p.fmt = .mz then
      match seg with
      | none => none
      | some s =>
        if f.frame = .grp then
          match s.group with
          | none => none
          | some g => some (put 2 (put 4 mem i value.toNat) (i + 4) (g >>> 4).toNat, false)
        else some (put 2 (put 4 mem i value.toNat) (i + 4) ((s.startOffset + s.group.getD 0) >>> 4).toNat, false)
    else some (mem, true)

/-- case FIX_PTR16 (bin.c:632-662), falling through to FIX_PTR32. -/
def storePtr16 (p : FPar) (f : FFix) (mem : Mem) (i : Nat) (value : W) (seg : Option FSeg) : Option (Mem × Bool) :=
  let absSeg := match seg with | some s => if s.abs then some s else none | none => none
  match absSeg with
  | some s => some (put 2 (put 2 mem i value.toNat) (i + 2) s.absFrame.toNat, false)
  | none =>
    if p.fmt = .mz then
      match seg with
      | none => none
      | some s =>
        if f.frame = .grp then
          match s.group with
          | none => none
          | some g => some (put 2 (put 2 mem i value.toNat) (i + 2) (g >>> 4).toNat, false)
        else some (put 2 (put 2 mem i value.toNat) (i + 2) ((s.startOffset + s.group.getD 0) >>> 4).toNat, false)
    else storePtr32 p f mem i value seg

/-- case FIX_SEG (bin.c:597-631), falling through to FIX_PTR16. -/
def storeSeg (p : FPar) (f : FFix) (mem : Mem) (i : Nat) (value : W) (seg : Option FSeg) : Option (Mem × Bool) :=
  let absSym := match f.sym with
    | some y => match y.state with
      | .seg s => if s.abs then some s else none
      | _ => none
    | none => none
  match absSym with
  | some s => some (put 2 mem i s.absFrame.toNat, false)
  | none =>
    if p.fmt = .mz then
      match f.sym with
      | none => none
      | some y =>
        match y.state with
        | .grp g => some (put 2 mem i (g >>> 4).toNat, false)
        | .seg s => some (put 2 mem i ((s.startOffset + s.group.getD 0) >>> 4).toNat, false)
        | .other =>
          match seg with
          | none => none
          | some s =>
            if f.frame = .grp then
              match s.group with
              | none => none
              | some g => some (put 2 mem i (g >>> 4).toNat, false)
            else some (put 2 mem i (s.startOffset >>> 4).toNat, false)
    else storePtr16 p f mem i value seg

/-- Second switch of DoFixup (bin.c:535-693). -/
def fixStore (p : FPar) (cur : FCur) (f : FFix) (mem : Mem) (i : Nat) (value : W) (v64 : BitVec 64)
    (seg : Option FSeg) : Option (Mem × Bool) :=
  match f.type with
  | .relOff8 =>
    some (put 1 mem i (rd 1 mem i + ((value - (f.locofs + cur.startOffset) - 1) &&& 0xff).toNat), false)
  | .relOff16 =>
    some (put 2 mem i (rd 2 mem i + ((value - (f.locofs + cur.startOffset) - 2) &&& 0xffff).toNat), false)
  | .relOff32 =>
    let locofs := if cur.use64 then f.locofs + (f.addbytes - 4) else f.locofs
    some (put 4 mem i (rd 4 mem i + (value - (locofs + cur.startOffset) - 4).toNat), false)
  | .off8 => some (put 1 mem i (value &&& 0xff).toNat, false)
  | .off16 => some (put 2 mem i (value &&& 0xffff).toNat, false)
  | .off32 | .imgRel | .secRel => some (put 4 mem i value.toNat, false)
  | .off64 =>
    if p.fmt = .pe ∧ cur.use64 then some (put 8 mem i v64.toNat, false)
    else some (put 8 mem i value.toNat, false)
  | .hiByte => some (put 1 mem i ((value >>> 8) &&& 0xff).toNat, false)
  | .seg => storeSeg p f mem i value seg
  | .ptr16 => storePtr16 p f mem i value seg
  | .ptr32 => storePtr32 p f mem i value seg
  | .void | .other => some (mem, true)

/-- Loop state: buffer, value64, whether an error was reported. -/
structure FSt where
  mem : Mem
  v64 : BitVec 64
  err : Bool

/-- Position of a fixup in the code buffer (bin.c:444-445). -/
def fixIdx (cur : FCur) (f : FFix) : Nat := (f.locofs - cur.startLoc).toNat

/-- Loop body of DoFixup (bin.c:443-694). -/
def fixOne (p : FPar) (cur : FCur) (st : FSt) (f : FFix) : Option FSt :=
  match fixValue p cur.use64 f st.v64 with
  | none => none
  | some (value, v64, seg) =>
    match fixStore p cur f st.mem (fixIdx cur f) value v64 seg with
    | none => none
    | some (mem, e) => some ⟨mem, v64, st.err || e⟩

def fixLoop (p : FPar) (cur : FCur) : FSt → List FFix → Option FSt
  | st, [] => some st
  | st, f :: r =>
    match fixOne p cur st f with
    | none => none
    | some st' => fixLoop p cur st' r

/-- DoFixup (bin.c:430-696). -/
def doFixup (p : FPar) (cur : FCur) (st : FSt) (fs : List FFix) : Option FSt :=
  if cur.abs then some st else fixLoop p cur st fs

end Verif.Bin
