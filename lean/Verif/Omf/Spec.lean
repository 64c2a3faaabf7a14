import Verif.Omf.Model
/-!
# Specification: reading OMF as a linker does (Intel/Microsoft "Object Module Format" record layout)

All numbers are mathematical naturals.  Nothing here refers to the assembler's writer functions.
-/
namespace Verif.Omf

/-- Sum of the bytes. -/
def byteSum (l : List Byte) : Nat := (l.map BitVec.toNat).sum

/-- Split off one record: command byte, 16-bit length (little endian, counts the bytes that follow it), contents, and a
checksum byte that makes the byte sum 0 mod 256. Result: command, contents, rest of the file. -/
def readFrame : List Byte → Option (Nat × List Byte × List Byte)
  | c :: l :: h :: t =>
    let n := l.toNat + 256 * h.toNat
    if 1 ≤ n ∧ n ≤ t.length ∧ byteSum (c :: l :: h :: t.take n) % 256 = 0 then
      some (c.toNat, t.take (n - 1), t.drop n)
    else none
  | _ => none

/-- Split a file into records. -/
def readFile : Nat → List Byte → Option (List (Nat × List Byte))
  | _, [] => some []
  | 0, _ => none
  | fuel + 1, l => do
    let (c, b, r) ← readFrame l
    let rest ← readFile fuel r
    pure ((c, b) :: rest)

def rdByte : List Byte → Option (Nat × List Byte)
  | b :: t => some (b.toNat, t)
  | [] => none

/-- Index field: one byte 0..127, or two bytes, the first with bit 7 set (its low 7 bits are the high part). -/
def rdIndex : List Byte → Option (Nat × List Byte)
  | b :: t =>
    if b.toNat < 128 then some (b.toNat, t)
    else match t with
      | c :: t => some ((b.toNat - 128) * 256 + c.toNat, t)
      | [] => none
  | [] => none

def rdWord : List Byte → Option (Nat × List Byte)
  | a :: b :: t => some (a.toNat + 256 * b.toNat, t)
  | _ => none

def rdDword : List Byte → Option (Nat × List Byte)
  | a :: b :: c :: d :: t => some (a.toNat + 256 * b.toNat + 65536 * c.toNat + 16777216 * d.toNat, t)
  | _ => none

/-- 32-bit records (odd command byte) have 4-byte offset fields. -/
def rdOfs (is32 : Bool) (l : List Byte) : Option (Nat × List Byte) := if is32 then rdDword l else rdWord l

/-- Base group / base segment, and a base frame if both are 0. -/
def rdBase (l : List Byte) : Option ((Nat × Nat × Option Nat) × List Byte) := do
  let (g, l) ← rdIndex l
  let (s, l) ← rdIndex l
  if g = 0 ∧ s = 0 then
    let (f, l) ← rdWord l
    pure ((g, s, some f), l)
  else pure ((g, s, none), l)

/-- The meaning of a record. -/
inductive Content
  | misc (cmd : Nat) (data : List Byte)
  | coment (attr cls : Nat) (data : List Byte)
  | modend (main : Bool) (start : Option (List Byte))
  | segdef (use32 : Bool) (align combine : Nat) (abs : Option (Nat × Nat)) (length name cls ovl : Nat)
  | ledata (iterated : Bool) (seg offset : Nat) (data : List Byte)
  | pubdef (loc : Bool) (base : Nat × Nat × Option Nat) (data : List Byte)
  | linnum (base : Nat × Nat × Option Nat) (data : List Byte)
  | comdat (flags attr align offset type : Nat) (base : Option (Nat × Nat × Option Nat)) (name : Nat) (data : List Byte)
  | linsym (flags name : Nat) (data : List Byte)
  deriving DecidableEq, Repr

/-- Interpret the contents of a record; the low bit of the command says whether it is a 32-bit record. -/
def readContent (cmd : Nat) (l : List Byte) : Option (Bool × Content) :=
  let is32 := cmd % 2 == 1
  match cmd / 2 * 2 with
  | 0x88 => do
    let (a, l) ← rdByte l
    let (c, l) ← rdByte l
    pure (is32, .coment a c l)
  | 0x8a => do
    let (t, l) ← rdByte l
    pure (is32, .modend (t / 128 % 2 == 1) (if t / 64 % 2 = 1 then some l else none))
  | 0x98 => do
    -- ACBP: AAACCCBP
    let (a, l) ← rdByte l
    let (abs, l) ← if a / 32 = 0 then do
        let (f, l) ← rdWord l
        let (o, l) ← rdByte l
        pure (some (f, o), l)
      else pure (none, l)
    let (len, l) ← rdOfs is32 l
    let (name, l) ← rdIndex l
    let (cls, l) ← rdIndex l
    let (ovl, _) ← rdIndex l
    -- B(ig) bit: the length is 64 KB (16-bit records) and the length field 0
    let len := if a / 2 % 2 = 1 ∧ is32 = false then len + 65536 else len
    pure (is32, .segdef (a % 2 == 1) (a / 32) (a / 4 % 8) abs len name cls ovl)
  | 0xa0 => do
    let (i, l) ← rdIndex l
    let (o, l) ← rdOfs is32 l
    pure (is32, .ledata false i o l)
  | 0xa2 => do
    let (i, l) ← rdIndex l
    let (o, l) ← rdOfs is32 l
    pure (is32, .ledata true i o l)
  | 0x90 => do
    let (b, l) ← rdBase l
    pure (is32, .pubdef false b l)
  | 0xb6 => do
    let (b, l) ← rdBase l
    pure (is32, .pubdef true b l)
  | 0x94 => do
    let (b, l) ← rdBase l
    pure (is32, .linnum b l)
  | 0xc2 => do
    let (f, l) ← rdByte l
    let (a, l) ← rdByte l
    let (al, l) ← rdByte l
    let (o, l) ← rdOfs is32 l
    let (t, l) ← rdIndex l
    let (b, l) ← if a % 16 = 0 then do
        let (b, l) ← rdBase l
        pure (some b, l)
      else pure (none, l)
    let (n, l) ← rdIndex l
    pure (is32, .comdat f a al o t b n l)
  | 0xc4 => do
    let (f, l) ← rdByte l
    let (n, l) ← rdIndex l
    pure (is32, .linsym f n l)
  | c => pure (is32, .misc c l)

/-- What the caller asked to have written, as a linker should understand it. -/
def Base.meaning (b : Base) : Nat × Nat × Option Nat :=
  (b.grp.toNat, b.seg.toNat, if b.grp.toNat = 0 ∧ b.seg.toNat = 0 then some b.frame.toNat else none)

def Rec.meaning (r : Rec) : Option (Bool × Content) :=
  match r.info with
  | .plain =>
    if r.command.toNat ∈ [0x80, 0x8c, 0x96, 0x9a, 0xb0, 0xb4, 0xb8, 0xbc, 0xc6, 0xca] then some (false, .misc r.command.toNat r.data)
    else if r.command.toNat ∈ [0x9c, 0xb2, 0xc8] then some (r.is32, .misc r.command.toNat r.data)
    else none
  | .coment a c => if r.command.toNat = 0x88 then some (false, .coment a.toNat c.toNat r.data) else none
  | .modend m st => if r.command.toNat = 0x8a then some (r.is32 && st, .modend m (if st then some r.data else none)) else none
  | .segdef s => if r.command.toNat = 0x98 then
      some (r.is32, .segdef s.use32 s.align s.combine (if s.align = 0 then some (s.absFrame.toNat, s.absOffset.toNat) else none)
        s.length.toNat s.name.toNat s.cls.toNat s.ovl.toNat) else none
  | .ledata i o =>
    if r.command.toNat = 0xa0 then some (r.is32, .ledata false i.toNat o.toNat r.data)
    else if r.command.toNat = 0xa2 then some (r.is32, .ledata true i.toNat o.toNat r.data) else none
  | .pubdef b =>
    if r.command.toNat = 0x90 then some (r.is32, .pubdef false b.meaning r.data)
    else if r.command.toNat = 0xb6 then some (r.is32, .pubdef true b.meaning r.data) else none
  | .linnum b => if r.command.toNat = 0x94 then some (r.is32, .linnum b.meaning r.data) else none
  | .comdat f a al o t b n => if r.command.toNat = 0xc2 then
      some (r.is32, .comdat f.toNat a.toNat al.toNat o.toNat t.toNat (if a.toNat % 16 = 0 then some b.meaning else none)
        n.toNat r.data) else none
  | .linsym f n => if r.command.toNat = 0xc4 then some (r.is32, .linsym f.toNat n.toNat r.data) else none

def idxOk (i : BitVec 16) : Prop := i.toNat ≤ 0x7fff
def ofsOk (is32 : Bool) (o : BitVec 32) : Prop := is32 = true ∨ o.toNat < 65536

/-- The values fit the fields of the format (15-bit indices, 16-bit offsets unless the record is a 32-bit one; a 16-bit
SEGDEF may describe a segment of exactly 64 KB). -/
def Rec.Fits (r : Rec) : Prop :=
  match r.info with
  | .plain | .coment _ _ | .modend _ _ => True
  | .segdef s => s.align < 8 ∧ s.combine < 8 ∧ (s.align = 0 → s.absOffset.toNat < 256) ∧
      (r.is32 = true ∨ s.length.toNat ≤ 65536) ∧ idxOk s.name ∧ idxOk s.cls ∧ idxOk s.ovl
  | .ledata i o => idxOk i ∧ ofsOk r.is32 o
  | .pubdef b | .linnum b => idxOk b.grp ∧ idxOk b.seg
  | .comdat _ a _ o t b n => ofsOk r.is32 o ∧ idxOk t ∧ idxOk n ∧ (a.toNat % 16 = 0 → idxOk b.grp ∧ idxOk b.seg)
  | .linsym _ n => idxOk n

/-- A COMDEF length: up to 128 in one byte; 0x81, 0x84, 0x88 introduce a 2, 3 or 4 byte number. -/
def rdComdef : List Byte → Option (Nat × List Byte)
  | b :: t =>
    if b.toNat ≤ 128 then some (b.toNat, t)
    else match b.toNat, t with
      | 0x81, a :: b :: t => some (a.toNat + 256 * b.toNat, t)
      | 0x84, a :: b :: c :: t => some (a.toNat + 256 * b.toNat + 65536 * c.toNat, t)
      | 0x88, a :: b :: c :: d :: t => some (a.toNat + 256 * b.toNat + 65536 * c.toNat + 16777216 * d.toNat, t)
      | _, _ => none
  | [] => none

/-- The explicit frame / target reference of a FIXUPP subrecord. -/
structure Ref where
  frame : Nat
  frameDatum : Option Nat
  target : Nat
  targetDatum : Nat
  displ : Nat
  deriving DecidableEq, Repr

/-- Fix Data byte `F fff T P tt`, then frame datum (methods 0..2), target datum, displacement (if P = 0; 4 bytes in 32-bit
records). Thread references (F or T set) are not used. -/
def rdRef (is32 : Bool) (l : List Byte) : Option (Ref × List Byte) := do
  let (d, l) ← rdByte l
  if d ≥ 128 ∨ d / 8 % 2 = 1 then none
  else
    let fr := d / 16 % 8
    let (fd, l) ← if fr ≤ 2 then do
        let (x, l) ← rdIndex l
        pure (some x, l)
      else pure (none, l)
    let (td, l) ← rdIndex l
    if d / 4 % 2 = 1 then pure (⟨fr, fd, d % 4, td, 0⟩, l)
    else do
      let (x, l) ← rdOfs is32 l
      pure (⟨fr, fd, d % 4, td, x⟩, l)

/-- One FIXUP subrecord: `1 M LLLL DD DDDDDDDD`, then the reference. -/
structure FixRec where
  selfRelative : Bool
  loc : Nat
  offset : Nat
  ref : Ref
  deriving DecidableEq, Repr

def rdFix (is32 : Bool) : List Byte → Option (FixRec × List Byte)
  | a :: b :: l =>
    if a.toNat < 128 then none
    else do
      let (r, l) ← rdRef is32 l
      pure (⟨a.toNat / 64 % 2 == 0, a.toNat / 4 % 16, a.toNat % 4 * 256 + b.toNat, r⟩, l)
  | _ => none

/-- All subrecords of a FIXUPP record. -/
def rdFixes (is32 : Bool) : Nat → List Byte → Option (List FixRec)
  | _, [] => some []
  | 0, _ => none
  | fuel + 1, l => do
    let (f, l) ← rdFix is32 l
    let fs ← rdFixes is32 fuel l
    pure (f :: fs)

/-! ## What a fixup means -/

/-- What a linker patches at a location of the given OMF location code: which part of the far address
(offset / segment base / both), how many bytes, and whether the loader resolves it. -/
inductive Part | low8 | high8 | offset | base | pointer
  deriving DecidableEq, Repr

def locMeaning : Nat → Option (Part × Nat × Bool)
  | 0 => some (.low8, 1, false)
  | 1 => some (.offset, 2, false)
  | 2 => some (.base, 2, false)
  | 3 => some (.pointer, 4, false)
  | 4 => some (.high8, 1, false)
  | 5 => some (.offset, 2, true)
  | 9 => some (.offset, 4, false)
  | 11 => some (.pointer, 6, false)
  | 13 => some (.offset, 4, true)
  | _ => none

/-- The same for the assembler's relocation kinds, with "self relative". -/
def FixType.meaning (loader : Bool) : FixType → Option (Part × Nat × Bool × Bool)
  | .reloff8 => some (.low8, 1, false, true)
  | .off8 => some (.low8, 1, false, false)
  | .reloff16 => some (.offset, 2, loader, true)
  | .off16 => some (.offset, 2, loader, false)
  | .reloff32 => some (.offset, 4, loader, true)
  | .off32 => some (.offset, 4, loader, false)
  | .hibyte => some (.high8, 1, false, false)
  | .seg => some (.base, 2, false, false)
  | .ptr16 => some (.pointer, 4, false, false)
  | .ptr32 => some (.pointer, 6, false, false)
  | .other => none

/-- Methods: 0 segment, 1 group, 2 external, each with an index. -/
abbrev Item := Nat × Nat

/-- The target a fixup refers to. -/
def Fixup.wantTarget (f : Fixup) : Option Item :=
  match f.sym with
  | none => if f.frameType ≤ 2 then some (f.frameType, f.frameDatum.toNat) else none
  | some (.grp i) => some (1, i.toNat)
  | some (.seg i) => some (0, i.toNat)
  | some (.ext i _) => some (2, i.toNat)
  | some .variable => some (if f.frameType = 1 then 1 else 0, f.frameDatum.toNat)
  | some (.comdat i) => some (2, i.toNat)
  | some (.label i) => some (0, i.toNat)
  | some .undefined | some .noSegment => none

/-- The frame a fixup refers to: `none` = "frame of the target" (no explicit frame), else segment / group / external. -/
def Fixup.wantFrame (f : Fixup) : Option Item :=
  match f.sym with
  | none | some (.comdat _) => none
  | some (.ext _ g) => if f.frameType ≤ 2 then
      some (f.frameType, if f.frameType = 1 ∧ f.frameDatum = 0#16 then g.toNat else f.frameDatum.toNat) else none
  | _ => if f.frameType ≤ 2 then some (f.frameType, f.frameDatum.toNat) else none

/-- The frame a linker uses for a reference: methods 0..2 name it, method 5 means "the target's". -/
def Ref.frameItem (r : Ref) : Option Item :=
  if r.frame ≤ 2 then r.frameDatum.map (r.frame, ·) else if r.frame = 5 then some (r.target, r.targetDatum) else none

/-- The initialised part of a segment as a linker builds it: later LEDATA records overwrite earlier ones. -/
def image (recs : List (Nat × List Byte)) : Nat → Option Byte :=
  recs.foldl (fun m r a => if r.1 ≤ a ∧ a < r.1 + r.2.length then r.2[a - r.1]? else m a) fun _ => none

/-- What the program asked for: location counter, contents. -/
structure Emitted where
  pos : Nat
  mem : Nat → Option Byte

def Emitted.bytes (e : Emitted) (bs : List Byte) : Emitted :=
  ⟨e.pos + bs.length, fun a => if e.pos ≤ a ∧ a < e.pos + bs.length then bs[a - e.pos]? else e.mem a⟩

def Emitted.step (e : Emitted) : Op → Emitted
  | .byte b => e.bytes [b]
  | .bytes bs _ => e.bytes bs
  | .org v rel => ⟨if rel then e.pos + v else v, e.mem⟩
  | .flush => e

def emitted (ops : List Op) : Emitted := ops.foldl Emitted.step ⟨0, fun _ => none⟩

/-- The fixups of a list of operations in order. -/
def opFixups (ops : List Op) : List Fixup := ops.flatMap fun | .bytes _ f => f.toList | _ => []

/-- Unsplittable items are nonempty and at most 1014 bytes, and a fixup lies within the bytes it comes with. -/
def OpsOk : Nat → List Op → Prop
  | _, [] => True
  | pos, .byte _ :: t => OpsOk (pos + 1) t
  | pos, .bytes bs f :: t => 0 < bs.length ∧ bs.length ≤ 1014 ∧
      (∀ x ∈ f, pos ≤ x.locofs ∧ x.locofs < pos + bs.length) ∧ OpsOk (pos + bs.length) t
  | pos, .org v rel :: t => OpsOk (if rel then pos + v else v) t
  | pos, .flush :: t => OpsOk pos t

end Verif.Omf
