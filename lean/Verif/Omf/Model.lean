/-!
# Model of OMF output (`/repo/omfint.c`, `/repo/omffixup.c`, parts of `/repo/omf.c`, `/repo/assemble.c`)

`Fail.ub` is an access outside an array (undefined behaviour in C), `Fail.fatal` a call of `Fatal()` (assembly aborted).
-/
namespace Verif.Omf

abbrev Byte := BitVec 8

inductive Fail | fatal | ub
  deriving DecidableEq, Repr

/-- `OBJ_BUFFER_SIZE`, `H/omfint.h` 49. -/
def bufSize : Nat := 0xFF0

/-- `struct outbuff`, `omfint.c` 46-51: `in_buf` is the length of `buf`. -/
structure Out where
  cmd : Byte
  buf : List Byte
  deriving DecidableEq, Repr

/-- `WBegRec`, `omfint.c` 76-81. -/
def wBegRec (command : Byte) : Out := ⟨command, []⟩

/-- `PutByte`, `omfint.c` 119-125 (no bounds check in the code). -/
def putByte (o : Out) (v : Byte) : Except Fail Out :=
  if o.buf.length < bufSize then .ok { o with buf := o.buf ++ [v] } else .error .ub

/-- Low byte of a word (`WriteU16`, `omfint.c` 138-145). -/
def lo (w : BitVec 16) : Byte := w.truncate 8
/-- High byte of a word. -/
def hi (w : BitVec 16) : Byte := (w >>> 8).truncate 8

/-- `PutIndex`, `omfint.c` 127-136. -/
def putIndex (o : Out) (index : BitVec 16) : Except Fail Out := do
  let o ← if index.toNat > 0x7f then putByte o (0x80#8 ||| hi index) else pure o
  putByte o (lo index)

/-- `PutWord`, `omfint.c` 138-145 (`WriteU16`: little endian). -/
def putWord (o : Out) (v : BitVec 16) : Except Fail Out := do
  let o ← putByte o (lo v)
  putByte o (hi v)

/-- The four bytes stored by `WriteU32`. -/
def le32 (v : BitVec 32) : List Byte :=
  [v.truncate 8, (v >>> 8).truncate 8, (v >>> 16).truncate 8, (v >>> 24).truncate 8]

/-- `PutDword`, `omfint.c` 147-154. -/
def putDword (o : Out) (v : BitVec 32) : Except Fail Out :=
  (le32 v).foldlM putByte o

/-- `PutMem`, `omfint.c` 156-173. `OBJ_BUFFER_SIZE - 1 - in_buf` is unsigned: if `in_buf` were larger than
`OBJ_BUFFER_SIZE - 1` it would wrap around and the `memcpy` would leave the buffer. -/
def putMem (o : Out) (data : List Byte) : Except Fail Out :=
  if o.buf.length > bufSize - 1 then .error .ub
  else if data.length ≤ bufSize - 1 - o.buf.length then .ok { o with buf := o.buf ++ data }
  else .error .fatal

/-- `WEndRec`, `omfint.c` 89-117: length, checksum, and the bytes written to the file. -/
def wEndRec (o : Out) : Except Fail (List Byte) :=
  if o.buf.length ≥ bufSize then .error .ub
  else
    let reclen := BitVec.ofNat 16 (o.buf.length + 1)
    let checksum := o.buf.foldl (· + ·) (o.cmd + lo reclen + hi reclen)
    .ok (o.cmd :: lo reclen :: hi reclen :: (o.buf ++ [- checksum]))

/-- `struct base_info`, `H/omfint.h` 115-119. -/
structure Base where
  grp : BitVec 16
  seg : BitVec 16
  frame : BitVec 16
  deriving DecidableEq, Repr

/-- `d.segdef`, `H/omfint.h` 126-140. -/
structure SegDef where
  use32 : Bool
  align : Nat
  combine : Nat
  absFrame : BitVec 16
  absOffset : BitVec 32
  length : BitVec 32
  name : BitVec 16
  cls : BitVec 16
  ovl : BitVec 16
  deriving DecidableEq, Repr

/-- The union `d` of `struct omf_rec`, `H/omfint.h` 158-180. -/
inductive Info
  | plain
  | coment (attr cls : Byte)
  | modend (main start : Bool)
  | segdef (s : SegDef)
  | ledata (idx : BitVec 16) (offset : BitVec 32)
  | pubdef (b : Base)
  | linnum (b : Base)
  | comdat (flags attributes align : Byte) (offset : BitVec 32) (typeIdx : BitVec 16) (b : Base) (name : BitVec 16)
  | linsym (flags : Byte) (name : BitVec 16)
  deriving DecidableEq, Repr

/-- `struct omf_rec`. -/
structure Rec where
  command : Byte
  is32 : Bool
  data : List Byte
  info : Info
  deriving DecidableEq, Repr

/-- A C boolean as a byte (`r->command + objr->is_32`). -/
def b2n (b : Bool) : Byte := if b then 1#8 else 0#8

/-- `PutBase`, `omfint.c` 369-377. -/
def putBase (o : Out) (b : Base) : Except Fail Out := do
  let o ← putIndex o b.grp
  let o ← putIndex o b.seg
  if b.grp = 0#16 ∧ b.seg = 0#16 then putWord o b.frame else pure o

/-- Offset field: `PutDword` for 32-bit records, else `PutWord` of the low half. -/
def putOfs (is32 : Bool) (o : Out) (v : BitVec 32) : Except Fail Out :=
  if is32 then putDword o v else putWord o (v.truncate 16)

/-- ACBP byte of a SEGDEF, `omfint.c` 236-265. `SEGDEF_ALIGN_ABS` is 0. -/
def acbp (is32 : Bool) (s : SegDef) : Byte :=
  let a := BitVec.ofNat 8 (s.combine <<< 2) ||| b2n s.use32 ||| BitVec.ofNat 8 (s.align <<< 5)
  if !is32 ∧ s.length = 0x10000#32 then a ||| 2#8 else a

/-- The record writers, `omfint.c` 176-452, selected by `func_index`, 499-521.
A record whose union member does not belong to its command is not modelled (`ub`). -/
def writeRecord (r : Rec) : Except Fail (List Byte) :=
  match r.command.toNat, r.info with
  -- writeMisc (THEADR, EXTDEF, LNAMES, GRPDEF, COMDEF, LEXTDEF, LCOMDEF, CEXTDEF, ALIAS, LLNAMES)
  | 0x80, .plain | 0x8c, .plain | 0x96, .plain | 0x9a, .plain | 0xb0, .plain | 0xb4, .plain | 0xb8, .plain
  | 0xbc, .plain | 0xc6, .plain | 0xca, .plain => do
    let o ← putMem (wBegRec r.command) r.data
    wEndRec o
  -- writeMisc32 (FIXUPP, BAKPAT, NBKPAT)
  | 0x9c, .plain | 0xb2, .plain | 0xc8, .plain => do
    let o ← putMem (wBegRec (r.command ||| b2n r.is32)) r.data
    wEndRec o
  -- writeComent
  | 0x88, .coment attr cls => do
    let o ← putByte (wBegRec 0x88#8) attr
    let o ← putByte o cls
    let o ← putMem o r.data
    wEndRec o
  -- writeSegdef
  | 0x98, .segdef s => do
    let o := wBegRec (0x98#8 + b2n r.is32)
    let o ← putByte o (acbp r.is32 s)
    let o ← if s.align = 0 then do let o ← putWord o s.absFrame; putByte o (s.absOffset.truncate 8) else pure o
    let o ← putOfs r.is32 o s.length
    let o ← putIndex o s.name
    let o ← putIndex o s.cls
    let o ← putIndex o s.ovl
    wEndRec o
  -- writeLedata (LEDATA, LIDATA)
  | 0xa0, .ledata idx offset | 0xa2, .ledata idx offset => do
    let o := wBegRec (r.command + b2n r.is32)
    let o ← putIndex o idx
    let o ← putOfs r.is32 o offset
    let o ← putMem o r.data
    wEndRec o
  -- writeModend
  | 0x8a, .modend main start => do
    let o := wBegRec (0x8a#8 + b2n (r.is32 && start))
    let mtype := if main then 0x80#8 else 0#8
    if start then
      let o ← putByte o (mtype ||| 0x41#8)
      let o ← putMem o r.data
      wEndRec o
    else
      let o ← putByte o mtype
      wEndRec o
  -- writePubdef (PUBDEF, LPUBDEF)
  | 0x90, .pubdef b | 0xb6, .pubdef b => do
    let o ← putBase (wBegRec (r.command + b2n r.is32)) b
    let o ← putMem o r.data
    wEndRec o
  -- writeLinnum
  | 0x94, .linnum b => do
    let o ← putBase (wBegRec (0x94#8 + b2n r.is32)) b
    let o ← putMem o r.data
    wEndRec o
  -- writeComdat; COMDAT_ALLOC_MASK = 0x0f, COMDAT_EXPLICIT = 0
  | 0xc2, .comdat flags attributes align offset typeIdx b name => do
    let o ← putByte (wBegRec (r.command + b2n r.is32)) flags
    let o ← putByte o attributes
    let o ← putByte o align
    let o ← putOfs r.is32 o offset
    let o ← putIndex o typeIdx
    let o ← if attributes &&& 0x0f#8 = 0#8 then putBase o b else pure o
    let o ← putIndex o name
    let o ← putMem o r.data
    wEndRec o
  -- writeLinsym
  | 0xc4, .linsym flags name => do
    let o ← putByte (wBegRec (0xc4#8 + b2n r.is32)) flags
    let o ← putIndex o name
    let o ← putMem o r.data
    wEndRec o
  -- writeUnexp
  | _, _ => .error .fatal

/-! ## COMDEF numbers -/

/-- `get_size_of_comdef_number`, `omf.c` 1127-1143 (`THREE_BYTE_MAX` = 2^24 - 1). -/
def comdefSize (v : BitVec 32) : Nat :=
  if v.toNat < 128 then 1 else if v.toNat ≤ 0xFFFF then 3 else if v.toNat ≤ 0xFFFFFF then 4 else 5

/-- The loop `for( i = 1; i < symsize; i++ ) { *buffer++ = value % 256; value >>= 8; }`, `omf.c` 1161-1164. -/
def comdefBytes : Nat → BitVec 32 → List Byte
  | 0, _ => []
  | n + 1, v => BitVec.ofNat 8 (v.toNat % 256) :: comdefBytes n (v >>> 8)

/-- `put_comdef_number`, `omf.c` 1147-1166. -/
def putComdefNumber (v : BitVec 32) : List Byte :=
  match comdefSize v with
  | 1 => [v.truncate 8]
  | 3 => 0x81#8 :: comdefBytes 2 v
  | 4 => 0x84#8 :: comdefBytes 3 v
  | _ => 0x88#8 :: comdefBytes 4 v

/-! ## Fixup subrecords -/

/-- `putIndex` of `omffixup.c` 54-62 (also `PutIndex` of `omf.c`). -/
def idxBytes (index : BitVec 16) : List Byte :=
  if index.toNat > 0x7f then [0x80#8 ||| hi index, lo index] else [lo index]

/-- `struct logref`, `omffixup.c` 45-52. -/
structure LogRef where
  frame : Nat
  frameDatum : BitVec 16
  secondary : Bool
  target : Nat
  targetDatum : BitVec 16
  targetOffset : BitVec 32
  deriving DecidableEq, Repr

/-- `TranslateLogref`, `omffixup.c` 118-160; `ms386` = FIX_GEN_MS386. Frame methods: SEG 0, GRP 1, EXT 2, LOC 4, TARG 5. -/
def translateLogref (lr : LogRef) (ms386 : Bool) : List Byte :=
  let target := if lr.targetOffset = 0#32 ∧ lr.secondary then lr.target ||| 4 else lr.target
  [BitVec.ofNat 8 (lr.frame <<< 4 ||| target)]
    ++ (if lr.frame ≤ 2 then idxBytes lr.frameDatum else [])
    ++ idxBytes lr.targetDatum
    ++ (if target &&& 4 = 0 then
          (if ms386 then le32 lr.targetOffset else [lo (lr.targetOffset.truncate 16), hi (lr.targetOffset.truncate 16)])
        else [])

/-- `enum fixup_types` as far as OMF knows them, `H/fixup.h`. -/
inductive FixType | reloff8 | off8 | reloff16 | off16 | reloff32 | off32 | hibyte | seg | ptr16 | ptr32 | other
  deriving DecidableEq, Repr

/-- What `omf_fill_logref` looks at in the fixup's symbol. -/
inductive Sym
  | undefined
  | grp (idx : BitVec 16)
  | seg (idx : BitVec 16)
  | ext (idx : BitVec 16) (grpIdx : BitVec 16)
  | variable
  | noSegment
  | comdat (idx : BitVec 16)
  | label (segIdx : BitVec 16)
  deriving DecidableEq, Repr

/-- `struct fixup`, `H/fixup.h`, as far as OMF output looks at it. -/
structure Fixup where
  type : FixType
  loaderResolved : Bool
  frameType : Nat            -- 0 SEG, 1 GRP, 2 EXT, 4 LOC, 5 TARG, 6 NONE
  frameDatum : BitVec 16
  locofs : Nat
  sym : Option Sym
  deriving DecidableEq, Repr

/-- `omf_fill_logref`, `omffixup.c` 236-345. `none`: returns 0, nothing is written. -/
def fillLogref (f : Fixup) : Option LogRef :=
  let fin (frame target : Nat) (fd td : BitVec 16) : LogRef :=
    ⟨if frame + 4 = target then 5 else frame, fd, true, target, td, 0⟩
  match f.sym with
  | none => if f.frameType = 6 then none else some (fin 5 f.frameType 0 f.frameDatum)
  | some .undefined => none
  | some (.grp idx) =>
    if f.frameType ≠ 6 then some (fin f.frameType 5 f.frameDatum idx) else some (fin 1 5 idx idx)
  | some (.seg idx) =>
    if f.frameType ≠ 6 then some (fin f.frameType 4 f.frameDatum idx) else some (fin 0 4 idx idx)
  | some (.ext idx g) =>
    let fd := if f.frameType = 1 ∧ f.frameDatum = 0 then g else f.frameDatum
    some (fin (if f.frameType ≠ 6 then f.frameType else 5) 6 fd idx)
  | some .variable =>
    some (fin (if f.frameType ≠ 6 then f.frameType else 5) (if f.frameType = 1 then 5 else 4) f.frameDatum f.frameDatum)
  | some .noSegment => none
  | some (.comdat idx) => some ⟨5, f.frameDatum, true, 6, idx, 0⟩
  | some (.label idx) => some (fin (if f.frameType ≠ 6 then f.frameType else 5) 4 f.frameDatum idx)

/-- Location type (`LOC_...`, `H/omfspec.h`) and mode of a fixup, `omffixup.c` 385-432. -/
def locOf (f : Fixup) : Option (Nat × Bool) :=
  match f.type with
  | .reloff8 => some (0, true)
  | .off8 => some (0, false)
  | .reloff16 => some (if f.loaderResolved then 5 else 1, true)
  | .off16 => some (if f.loaderResolved then 5 else 1, false)
  | .reloff32 => some (if f.loaderResolved then 13 else 9, true)
  | .off32 => some (if f.loaderResolved then 13 else 9, false)
  | .hibyte => some (4, false)
  | .seg => some (2, false)
  | .ptr16 => some (3, false)
  | .ptr32 => some (11, false)
  | .other => none

/-- `OmfFixGenFix`, `omffixup.c` 368-445: the bytes of the subrecord (empty if nothing is generated). -/
def fixGenFix (f : Fixup) (startLoc : Nat) (ms386 : Bool) : List Byte :=
  match locOf f with
  | none => []
  | some (loc, selfRel) =>
    match fillLogref f with
    | none => []
    | some lr =>
      let ofs := BitVec.ofNat 32 f.locofs - BitVec.ofNat 32 startLoc
      let locat1 := BitVec.ofNat 8 (loc <<< 2) ||| (if selfRel then 0x80#8 else 0xc0#8)
      [locat1 ||| (ofs >>> 8).truncate 8, ofs.truncate 8] ++ translateLogref lr ms386

/-- `OmfFixGenFixModend`, `omffixup.c` 192-232: start address. `target` is the symbol (label or external) and its offset. -/
def fixGenModend (f : Fixup) (isExt : Bool) (idx grpIdx : BitVec 16) (offset : BitVec 32) (ms386 : Bool) : List Byte :=
  let fd := if isExt ∧ f.frameType = 1 ∧ f.frameDatum = 0 then grpIdx else f.frameDatum
  let frame := if f.frameType ≠ 6 ∧ f.frameType ≠ 0 then f.frameType else 5
  translateLogref ⟨frame, fd, false, if isExt then 2 else 0, idx, offset⟩ ms386

/-- Is the fixup written in the 32-bit FIXUPP record? `omf_write_fixupp`, `omf.c` 395-405. -/
def FixType.is32 : FixType → Bool
  | .reloff32 | .off32 | .ptr32 => true
  | _ => false

/-- Inner `for` of `omf_write_fixupp`, `omf.c` 394-409: `size > 1020 - FIX_GEN_MAX` (11) ends the record.
Returns the data collected and the fixups that remain. -/
def fixuppChunk (is32 : Bool) (startLoc : Nat) : List Fixup → List Byte → List Byte × List Fixup
  | [], acc => (acc, [])
  | f :: fs, acc =>
    if f.type.is32 ≠ is32 then fixuppChunk is32 startLoc fs acc
    else if acc.length > 1020 - 11 then (acc, f :: fs)
    else fixuppChunk is32 startLoc fs (acc ++ fixGenFix f startLoc is32)

/-- `omf_write_fixupp`, `omf.c` 379-413: data parts of the FIXUPP records. `fuel` bounds the `while( fix )` loop; the
number of fixups suffices (`C36_all_fixups_written`). -/
def writeFixupp (is32 : Bool) (startLoc : Nat) : Nat → List Fixup → List (List Byte)
  | 0, _ => []
  | fuel + 1, fs =>
    if fs = [] then []
    else
      let (acc, rest) := fixuppChunk is32 startLoc fs []
      (if acc = [] then [] else [acc]) ++ writeFixupp is32 startLoc fuel rest

/-! ## Segment data -/

/-- Output side of a segment in OMF mode, final pass(es) (`write_to_file` = TRUE).
`start`, `cur` are `start_loc`, `current_loc`; `buf` is the used part of the 1024-byte array `codebuf` (`segment.c` 96);
`recs` are the LEDATA records written so far (offset, data), `fixes` the pending `FixupList`, `fixRecs` the fixups written
together with the start location of the LEDATA record they refer to. -/
structure Seg where
  start : Nat
  cur : Nat
  buf : List Byte
  recs : List (Nat × List Byte)
  fixes : List Fixup
  fixRecs : List (Nat × List Fixup)
  deriving DecidableEq, Repr

def segInit : Seg := ⟨0, 0, [], [], [], []⟩

/-- `MAX_LEDATA_THRESHOLD`, `H/omf.h` 9. -/
def ledataMax : Nat := 1024 - 10

/-- `omf_write_ledata` via `omf_FlushCurrSeg`, `omf.c` 419-495 (without COMDAT). -/
def flush (s : Seg) : Seg :=
  if s.cur > s.start then
    { s with recs := s.recs ++ [(s.start, s.buf)],
             fixRecs := if s.fixes = [] then s.fixRecs else s.fixRecs ++ [(s.start, s.fixes)],
             fixes := [], buf := [], start := s.cur }
  else { s with buf := [], start := s.cur }

/-- Store bytes at `CodeBuffer[idx]` with `idx = current_loc - start_loc`; leaving the 1024 byte array is `ub`. -/
def store (s : Seg) (bs : List Byte) : Except Fail Seg :=
  if s.cur - s.start + bs.length > 1024 then .error .ub
  else .ok { s with buf := s.buf ++ bs, cur := s.cur + bs.length }

/-- `OutputByte`, `assemble.c` 240-272. -/
def outputByte (s : Seg) (b : Byte) : Except Fail Seg :=
  let s := if s.cur - s.start ≥ ledataMax then flush s else s
  store s [b]

/-- `OutputBytes`, `assemble.c` 371-404 (and `OutputSegmentBytes`): bytes that must not be separated, with their fixup. -/
def outputBytes (s : Seg) (bs : List Byte) (f : Option Fixup) : Except Fail Seg :=
  let s := if s.cur - s.start + bs.length > ledataMax then flush s else s
  let s := { s with fixes := s.fixes ++ f.toList }
  store s bs

/-- `OutputBinBytes`, `assemble.c` 275-314 (INCBIN): the whole file in one go. -/
def outputBinBytes (s : Seg) (bs : List Byte) : Except Fail Seg :=
  let s := if s.cur - s.start ≥ ledataMax then flush s else s
  store s bs

/-- `OutputInterleavedBytes`, `assemble.c` 408-449: every byte followed by a zero byte; the flush test uses `len`
although `2 * len` bytes are stored. -/
def outputInterleaved (s : Seg) (bs : List Byte) (f : Option Fixup) : Except Fail Seg :=
  let s := if s.cur - s.start + bs.length > ledataMax then flush s else s
  let s := { s with fixes := s.fixes ++ f.toList }
  store s (bs.flatMap fun b => [b, 0#8])

/-- `SetCurrOffset`, `assemble.c` 452-499 for the current segment in OMF mode. -/
def setCurrOffset (s : Seg) (value : Nat) (relative : Bool) : Seg :=
  let value := if relative then value + s.cur else value
  let s := flush s
  { s with start := value, cur := value, buf := [] }

/-- The output operations of a pass (`assemble.c`); `flush` is `omf_FlushCurrSeg` (segment change, end of pass). -/
inductive Op
  | byte (b : Byte)
  | bytes (bs : List Byte) (f : Option Fixup)
  | org (value : Nat) (relative : Bool)
  | flush
  deriving DecidableEq, Repr

def Seg.step (s : Seg) : Op → Except Fail Seg
  | .byte b => outputByte s b
  | .bytes bs f => outputBytes s bs f
  | .org v r => .ok (setCurrOffset s v r)
  | .flush => .ok (Omf.flush s)

def Seg.run (s : Seg) (ops : List Op) : Except Fail Seg := ops.foldlM Seg.step s

end Verif.Omf
