/-! # Model: the COFF writer `coff.c`

Modelled: Coff_AllocString, coff_write_section_table, SetSymbolIndices, coff_write_fixups, coff_write_data,
coff_write_symbol(s), CoffGetClass/Type, CRC32Comdat, coff_write_module.
Simplifications: no line numbers and no -Zi (`Options.line_numbers`, `debug_symbols` = 0); `uint_32` counters
(file offsets, indices, string table size) are natural numbers, encoded with 32 bits when written (theorems assume
the file is smaller than 4 GB); the names produced by Mangle / ConvertSectionName and the sections added by
coff_write_module (.drectve, .sxdata) are part of the input. -/
namespace Verif.Coff

abbrev Byte := BitVec 8

/-- Little-endian number of `n` bytes. -/
def le : Nat → Nat → List Byte
  | 0, _ => []
  | n + 1, v => BitVec.ofNat 8 v :: le n (v / 256)

/-- `enum fixup_types` (H/fixup.h). -/
inductive FixType
  | void | relOff8 | relOff16 | relOff32 | off8 | off16 | off32 | off64 | seg | imgRel | secRel | other
  deriving DecidableEq, Repr

/-- A fixup: `sym` (none = NULL) is an index into the symbols, `segVar` the section of an assembly-time variable. -/
structure Fix where
  type : FixType
  locofs : Nat
  addbytes : Nat
  sym : Option Nat
  segVar : Nat
  deriving DecidableEq, Repr

/-- A section (`SymTables[TAB_SEG]`): its COFF name, `max_offset`, `start_loc`, CodeBuffer (none = NULL) and the
attributes coff_write_section_table looks at. `convBss`: ConvertSectionName returned SEGTYPE_BSS; `stackEmpty`:
`combine == COMB_STACK && bytes_written == 0`; `alignment` none = MAX_SEGALIGNMENT. -/
structure Sec where
  name : List Byte
  size : Nat
  startLoc : Nat
  buf : Option (Nat → Byte)
  info : Bool
  directives : Bool
  alignment : Option Nat
  comdat : Nat
  comdatNumber : Nat
  code : Bool
  readonly : Bool
  constClass : Bool
  segBss : Bool
  convBss : Bool
  stackEmpty : Bool
  manual : BitVec 8
  use64 : Bool
  fixups : List Fix

/-- `sym->state`. -/
inductive SymState | internal | external | seg (i : Nat) | other
  deriving DecidableEq, Repr

/-- A symbol: `name` is the mangled name; `secNo` the section number of its segment (none = no segment). -/
structure Sym where
  name : List Byte
  state : SymState
  isPublic : Bool
  isVar : Bool
  isProc : Bool
  near : Bool
  offset : Nat
  totalSize : Nat
  secNo : Option Nat
  isComm : Bool
  weak : Bool
  altname : Option Nat
  deriving DecidableEq, Repr

/-- Command line options: .SAFESEH, -zlf, -zls, -zlp. -/
structure Opt where
  safeseh : Bool
  noFile : Bool
  noSecAux : Bool
  noStaticProcs : Bool

/-- What the writer is given. `exts`, `procs`, `pubs`, `aliases` are the symbol lists and queues (in order) as indices
into `env`; `junk` is the uninitialised contents of `ish.Name`. -/
structure Mod where
  opt : Opt
  file : List Byte
  secs : List Sec
  exts : List Nat
  procs : List Nat
  pubs : List Nat
  aliases : List (Nat × Option Nat)
  env : Nat → Sym
  included : Nat → Bool
  timestamp : Nat
  amd64 : Bool
  junk : List Byte

/-! ## String table -/

/-- `cm->LongNames`: the strings in order and `size`. -/
structure LN where
  strs : List (List Byte)
  size : Nat

/-- Coff_AllocString (coff.c:80-97). -/
def allocString (ln : LN) (s : List Byte) : Nat × LN := (ln.size, ⟨ln.strs ++ [s], ln.size + (s.length + 1)⟩)

/-- `strncpy( field, name, n )`: padded with zeros, not terminated. -/
def strncpy (n : Nat) (s : List Byte) : List Byte := (s ++ List.replicate n 0).take n

/-- `%u`. -/
def decimal (v : Nat) : List Byte := (Nat.toDigits 10 v).map (fun c => BitVec.ofNat 8 c.toNat)

/-- `ish.Name` (coff.c:139-142); `stale` is the field's previous contents, which sprintf does not clear. -/
def secNameField (ln : LN) (name stale : List Byte) : List Byte × LN :=
  if name.length ≤ 8 then (strncpy 8 name, ln)
  else
    let r := allocString ln name
    let s : List Byte := 0x2f :: decimal r.1 ++ [0]
    ((s ++ stale.drop s.length).take 8, r.2)

/-! ## Section table -/

/-- Outcome of the branches at coff.c:152-184: initialised data, BSS, or an unused stack. -/
inductive Kind | raw | bss | stack
  deriving DecidableEq, Repr

def kind (s : Sec) : Kind :=
  if s.info then .raw
  else if s.code then .raw
  else if s.readonly then .raw
  else if s.constClass then .raw
  else if s.segBss || s.convBss then .bss
  else if s.stackEmpty then .stack
  else .raw

/-- `ish.Characteristics` (coff.c:150-184). -/
def chars0 (s : Sec) : BitVec 32 :=
  if s.info then (if s.directives then 0xA00 else 0x240)
  else
    (match s.alignment with | some a => BitVec.ofNat 32 (a + 1) <<< 20 | none => 0) |||
    (if s.comdat ≠ 0 then 0x1000 else 0) |||
    (if s.code then 0x60000020
     else if s.readonly then 0x40000040
     else if s.constClass then 0x40000040
     else if s.segBss || s.convBss then 0xC0000080
     else if s.stackEmpty then 0xC0000080
     else 0xC0000040)

/-- Manual characteristics (coff.c:185-190), before IMAGE_SCN_LNK_NRELOC_OVFL. -/
def chars (s : Sec) : BitVec 32 :=
  if s.manual ≠ 0 then (chars0 s &&& 0x1FFFFFF) ||| ((s.manual &&& 0xFE).setWidth 32 <<< 24) else chars0 s

/-- `num_relocs` counted by coff_write_section_table (coff.c:200-210): fixups with a symbol. -/
def numRelocs (s : Sec) : Nat := (s.fixups.filter (fun f => f.sym.isSome)).length

/-- SizeOfRawData, PointerToRawData (coff.c:144-145, 178-184). -/
def rawSize (s : Sec) : Nat := if kind s = .stack then 0 else s.size
def rawPtr (off : Nat) (s : Sec) : Nat := if kind s = .raw ∧ s.size ≠ 0 then off else 0

/-- `fileoffset` behind the raw data (coff.c:192-193). -/
def offRaw (off : Nat) (s : Sec) : Nat := if rawPtr off s ≠ 0 then off + rawSize s else off

/-- PointerToRelocations and the new `fileoffset` (coff.c:199-224). -/
def relPtr (off : Nat) (s : Sec) : Nat := if s.fixups.isEmpty then 0 else (offRaw off s + 1) / 2 * 2

def offRel (off : Nat) (s : Sec) : Nat :=
  if s.fixups.isEmpty then offRaw off s
  else relPtr off s + numRelocs s * 10 + (if numRelocs s ≤ 0xffff then 0 else 10)

/-- One IMAGE_SECTION_HEADER (H/coffspec.h:30-46). -/
def secHeader (off : Nat) (name : List Byte) (s : Sec) : List Byte :=
  name ++ le 4 0 ++ le 4 0 ++ le 4 (rawSize s) ++ le 4 (rawPtr off s) ++ le 4 (relPtr off s) ++ le 4 0
    ++ le 2 (if s.fixups.isEmpty then 0 else if numRelocs s ≤ 0xffff then numRelocs s else 0xffff) ++ le 2 0
    ++ le 4 (chars s ||| (if !s.fixups.isEmpty ∧ ¬ numRelocs s ≤ 0xffff then 0x01000000 else 0)).toNat

/-- coff_write_section_table (coff.c:113-241): the headers and the strings allocated. -/
def secTable : Nat → List Byte → LN → List Sec → List Byte × LN
  | _, _, ln, [] => ([], ln)
  | off, stale, ln, s :: ss =>
    let r := secNameField ln s.name stale
    let q := secTable (offRel off s) r.1 r.2 ss
    (secHeader off r.1 s ++ q.1, q.2)

/-- `*cp -= fix->locofs + fix->addbytes` for relative fixups without symbol (coff.c:201-206), on bytes. -/
def get4 (b : Nat → Byte) (i : Nat) : Nat :=
  (b i).toNat + 256 * ((b (i + 1)).toNat + 256 * ((b (i + 2)).toNat + 256 * (b (i + 3)).toNat))

def put4 (b : Nat → Byte) (i v : Nat) : Nat → Byte := fun j =>
  if j = i then BitVec.ofNat 8 v else if j = i + 1 then BitVec.ofNat 8 (v / 256)
  else if j = i + 2 then BitVec.ofNat 8 (v / 65536) else if j = i + 3 then BitVec.ofNat 8 (v / 16777216) else b j

def voidFix (s : Sec) (b : Nat → Byte) (f : Fix) : Nat → Byte :=
  if f.sym.isNone ∧ f.type = .relOff32 then
    put4 b (f.locofs - s.startLoc)
      ((get4 b (f.locofs - s.startLoc) + (2 ^ 32 - (f.locofs + f.addbytes) % 2 ^ 32)) % 2 ^ 32)
  else b

def finalBuf (s : Sec) : Option (Nat → Byte) := s.buf.map (fun b => s.fixups.foldl (voidFix s) b)

/-! ## Symbol indices -/

/-- Number of auxiliary entries of a name (coff.c:288-291, 411-414). -/
def auxCount (name : List Byte) : Nat := name.length / 18 + (if name.length % 18 ≠ 0 then 1 else 0)

/-- `cm->sectionstart` (coff.c:696-713). -/
def sectionStart (m : Mod) : Nat :=
  (if m.opt.safeseh then 1 else 0) + (if m.opt.noFile then 0 else m.file.length / 18 + 1 + (if m.file.length % 18 ≠ 0 then 1 else 0))

/-- `ext_idx` of section `i` (coff.c:915-920). -/
def secIdx (m : Mod) (i : Nat) : Nat := sectionStart m + i + (if m.opt.noSecAux then 0 else i)

/-- Symbol table state during coff_write_data: `ext_idx`, the public queue, `included`, the next index and
whether an error was reported. -/
structure IdxSt where
  ext : Nat → Nat
  pubs : List Nat
  included : Nat → Bool
  index : Nat
  err : Bool

def upd {α : Type} (f : Nat → α) (i : Nat) (v : α) : Nat → α := fun j => if j = i then v else f j

/-- Externals (coff.c:718-725). -/
def idxExts (env : Nat → Sym) : (Nat → Nat) → Nat → List Nat → (Nat → Nat) × Nat
  | ext, index, [] => (ext, index)
  | ext, index, e :: r =>
    if (env e).isComm = false ∧ (env e).weak = true then idxExts env ext index r
    else idxExts env (upd ext e index)
      (index + 1 + (if (env e).isComm = false ∧ (env e).altname.isSome then 1 else 0)) r

/-- Private procedures are added to the public queue (coff.c:729-735). -/
def addProcs (env : Nat → Sym) : (Nat → Bool) → List Nat → List Nat → (Nat → Bool) × List Nat
  | inc, pubs, [] => (inc, pubs)
  | inc, pubs, p :: r =>
    if (env p).state = .internal ∧ (env p).isPublic = false ∧ inc p = false then
      addProcs env (upd inc p true) (pubs ++ [p]) r
    else addProcs env inc pubs r

/-- Items of the public queue (coff.c:738-756). -/
def idxPubs : (Nat → Nat) → Nat → List Nat → (Nat → Nat) × Nat
  | ext, index, [] => (ext, index)
  | ext, index, p :: r => idxPubs (upd ext p index) (index + 1) r

/-- SetSymbolIndices (coff.c:678-758). -/
def setSymbolIndices (m : Mod) : IdxSt :=
  let i0 := sectionStart m + m.secs.length + (if m.opt.noSecAux then 0 else m.secs.length)
  let e := idxExts m.env (fun _ => 0) i0 m.exts
  let p := if m.opt.noStaticProcs then (m.included, m.pubs) else addProcs m.env m.included m.pubs m.procs
  let q := idxPubs e.1 e.2 p.2
  ⟨q.1, p.2, p.1, q.2, false⟩

/-! ## Section data and relocations -/

/-- Outcome of the type switch of coff_write_fixups (coff.c:791-848). -/
inductive RT | skip | bad | ok (t : Nat)
  deriving DecidableEq, Repr

def relType (use64 : Bool) (f : Fix) : RT :=
  if use64 then
    match f.type with
    | .void => .skip
    | .relOff32 => .ok (4 + (f.addbytes - 4))
    | .off32 => .ok 2
    | .imgRel => .ok 3
    | .secRel => .ok 0xB
    | .off64 => .ok 1
    | .seg => .ok 0xA
    | _ => .bad
  else
    match f.type with
    | .void => .skip
    | .relOff16 => .ok 2
    | .off16 => .ok 1
    | .relOff32 => .ok 0x14
    | .off32 => .ok 6
    | .imgRel => .ok 7
    | .secRel => .ok 0xB
    | .seg => .ok 0xA
    | _ => .bad

/-- The index stored in a relocation (coff.c:850-883). -/
def fixIndex (m : Mod) (st : IdxSt) (f : Fix) (id : Nat) : Nat × IdxSt :=
  let y := m.env id
  if y.isVar then (secIdx m f.segVar, st)
  else if y.state = .internal ∧ st.included id = false ∧ y.isPublic = false then
    (st.index, { st with included := upd st.included id true, pubs := st.pubs ++ [id],
                         ext := upd st.ext id st.index, index := st.index + 1 })
  else
    match y.state with
    | .seg i => (secIdx m i, st)
    | _ => (st.ext id, st)

/-- The loop of coff_write_fixups (coff.c:786-887): the relocations (address, index, type). -/
def writeFixups (m : Mod) (use64 : Bool) : IdxSt → List Fix → List (Nat × Nat × Nat) × IdxSt
  | st, [] => ([], st)
  | st, f :: r =>
    match f.sym with
    | none => writeFixups m use64 st r
    | some id =>
      match relType use64 f with
      | .skip => writeFixups m use64 st r
      | .bad => writeFixups m use64 { st with err := true } r
      | .ok t =>
        let x := fixIndex m st f id
        let q := writeFixups m use64 x.2 r
        ((f.locofs, x.1, t) :: q.1, q.2)

/-- IMAGE_RELOCATION (H/coffspec.h:93-99, 10 bytes). -/
def relBytes (r : Nat × Nat × Nat) : List Byte := le 4 r.1 ++ le 4 r.2.1 ++ le 2 r.2.2

/-- Section contents at position `j` of the file area of a section (coff.c:944-960). -/
def secByte (s : Sec) (j : Nat) : Byte :=
  match finalBuf s with
  | none => 0
  | some b => if j < s.startLoc then 0 else b (j - s.startLoc)

/-- `segtype == SEGTYPE_BSS` in coff_write_data: as set, or changed at coff.c:176. -/
def skipData (s : Sec) : Bool := s.stackEmpty || (s.segBss || (kind s == .bss))

/-- coff_write_data for one section (coff.c:929-962): what is written at `offset`. -/
def secData (m : Mod) (offset : Nat) (st : IdxSt) (s : Sec) : List Byte × IdxSt :=
  if skipData s then ([], st)
  else if s.size = 0 then ([], st)
  else
    let pad := (offset + s.size) % 2 = 1 ∧ !s.fixups.isEmpty
    let n := if pad then s.size + 1 else s.size
    let q := writeFixups m s.use64 st s.fixups
    ((List.range n).map (secByte s)
      ++ (if numRelocs s > 0xffff then relBytes (numRelocs s + 1, 0, 0) else [])
      ++ q.1.flatMap relBytes, q.2)

/-- coff_write_data (coff.c:893-1016). -/
def writeData (m : Mod) : Nat → IdxSt → List Sec → List Byte × IdxSt
  | _, st, [] => ([], st)
  | offset, st, s :: ss =>
    let r := secData m offset st s
    let q := writeData m (offset + r.1.length) r.2 ss
    (r.1 ++ q.1, q.2)

/-! ## Symbol table -/

/-- coff_write_symbol (coff.c:329-348) with the name handling of its callers: 18 bytes. -/
def symRec (ln : LN) (name : List Byte) (value section_ type class_ aux : Nat) : List Byte × LN :=
  let r : List Byte × LN :=
    if name.length > 8 then
      let a := allocString ln name
      (le 4 0 ++ le 4 a.1, a.2)
    else (strncpy 8 name, ln)
  (r.1 ++ le 4 value ++ le 2 section_ ++ le 2 type ++ le 1 class_ ++ le 1 aux, r.2)

def ascii (s : String) : List Byte := s.toList.map (fun c => BitVec.ofNat 8 c.toNat)

/-- The auxiliary records of a file name (coff.c:416-417, coff_write_aux). -/
def fileAux : Nat → List Byte → List (List Byte)
  | 0, _ => []
  | n + 1, p => strncpy 18 p :: fileAux n (p.drop 18)

/-- CRC32 table entry and CRC32Comdat (coff.c:296-326). -/
def crcStep (crc : BitVec 32) : BitVec 32 := (crc >>> 1) ^^^ (0xEDB88320 * (crc &&& 1))
def crcTable (i : Byte) : BitVec 32 := Nat.repeat crcStep 8 (i.setWidth 32)
def crc32 (crc : BitVec 32) : List Byte → BitVec 32
  | [] => crc
  | b :: r => crc32 ((crc >>> 8) ^^^ crcTable (b ^^^ crc.setWidth 8)) r

/-- Auxiliary record of a section (coff.c:440-457). `n` = num_relocs. -/
def secAux (s : Sec) (n : Nat) : List Byte :=
  le 4 s.size ++ le 2 (if n > 0xffff then 0xffff else n) ++ le 2 0 ++
  (if s.comdat ≠ 0 then
     le 4 (match finalBuf s with | none => 0 | some b => crc32 0 ((List.range s.size).map b)).toNat
       ++ le 2 s.comdatNumber ++ le 1 s.comdat
   else le 4 0 ++ le 2 0 ++ le 1 0) ++ le 3 0

/-- Section symbols (coff.c:423-460), numbered from `i`. -/
def secSyms (o : Opt) : LN → Nat → List (Sec × Nat) → List (List Byte) × LN
  | ln, _, [] => ([], ln)
  | ln, i, (s, n) :: r =>
    let a := symRec ln s.name 0 i 0 3 (if o.noSecAux then 0 else 1)
    let q := secSyms o a.2 (i + 1) r
    (a.1 :: (if !o.noSecAux || s.comdat != 0 then [secAux s n] else []) ++ q.1, q.2)

/-- CoffGetType / CoffGetClass (coff.c:246-277). -/
def symType (y : Sym) : Nat := if y.isProc then 0x20 else 0
def symClass (y : Sym) : Nat :=
  if y.state = .external then (if y.isComm = false ∧ y.altname.isSome then 105 else 2)
  else if y.isPublic then 2
  else if y.near ∧ y.isProc = false then 6
  else 3

/-- Auxiliary record of a weak external. -/
def weakAux (tag chr : Nat) : List Byte := le 4 tag ++ le 4 chr ++ le 4 0 ++ le 4 0 ++ le 2 0

/-- Externals (coff.c:465-501). -/
def extSyms (m : Mod) (ext : Nat → Nat) : LN → List Nat → List (List Byte) × LN
  | ln, [] => ([], ln)
  | ln, e :: r =>
    let y := m.env e
    if y.isComm = false ∧ y.weak = true then extSyms m ext ln r
    else
      let wk := y.isComm = false ∧ y.altname.isSome
      let a := symRec ln y.name (if y.isComm then y.totalSize else y.offset) 0 (symType y) (symClass y)
        (if wk then 1 else 0)
      let q := extSyms m ext a.2 r
      (a.1 :: (if wk then [weakAux (ext (y.altname.getD 0)) 2] else []) ++ q.1, q.2)

/-- Publics and internal symbols (coff.c:506-546). -/
def pubSyms (m : Mod) : LN → List Nat → List (List Byte) × LN
  | ln, [] => ([], ln)
  | ln, p :: r =>
    let y := m.env p
    let a := symRec ln y.name y.offset
      (if y.state = .internal then (match y.secNo with | some n => n | none => 0xffff) else 0)
      (symType y) (symClass y) 0
    let q := pubSyms m a.2 r
    (a.1 :: q.1, q.2)

/-- Aliases (coff.c:587-609). -/
def aliasSyms (m : Mod) (ext : Nat → Nat) : LN → List (Nat × Option Nat) → List (List Byte) × LN
  | ln, [] => ([], ln)
  | ln, (a, sub) :: r =>
    let x := symRec ln (m.env a).name 0 0 0 105 1
    let q := aliasSyms m ext x.2 r
    (x.1 :: weakAux (match sub with | some s => ext s | none => 0) 3 :: q.1, q.2)

/-- coff_write_symbols (coff.c:370-611): the records (18 bytes each). `secs` with their final num_relocs. -/
def writeSymbols (m : Mod) (st : IdxSt) (secs : List (Sec × Nat)) (ln : LN) : List (List Byte) × LN :=
  let feat := if m.opt.safeseh then [(symRec ln (ascii "@feat.00") 1 0xffff 0 3 0).1] else []
  let file := if m.opt.noFile then [] else
    (symRec ln (ascii ".file") 0 0xfffe 0 103 (auxCount m.file)).1 :: fileAux (auxCount m.file) m.file
  let s := secSyms m.opt ln 1 secs
  let e := extSyms m st.ext s.2 m.exts
  let p := pubSyms m e.2 st.pubs
  let a := aliasSyms m st.ext p.2 m.aliases
  (feat ++ file ++ s.1 ++ e.1 ++ p.1 ++ a.1, a.2)

/-- The string table (coff.c:1237-1244). -/
def strTable (ln : LN) : List Byte := le 4 ln.size ++ ln.strs.flatMap (fun s => s ++ [0])

/-- Does coff_write_fixups write a relocation for this fixup? -/
def writes (use64 : Bool) (f : Fix) : Bool :=
  f.sym.isSome && (match relType use64 f with | .ok _ => true | _ => false)

/-- `num_relocs` as reset and counted again by coff_write_fixups (coff.c:784, 886). -/
def finalRelocs (s : Sec) : Nat :=
  if skipData s = true ∨ s.size = 0 then numRelocs s
  else (s.fixups.filter (writes s.use64)).length

/-! ## The module -/

/-- IMAGE_FILE_HEADER (H/coffspec.h:8-17, coff.c:1219-1241). -/
def fileHeader (m : Mod) (symPtr nSyms : Nat) : List Byte :=
  le 2 (if m.amd64 then 0x8664 else 0x14c) ++ le 2 m.secs.length ++ le 4 m.timestamp
    ++ le 4 (if nSyms ≠ 0 then symPtr else 0) ++ le 4 nSyms ++ le 2 0 ++ le 2 0

/-- `cm.start_data` (coff.c:125-126). -/
def startData (m : Mod) : Nat := 20 + m.secs.length * 40

/-- coff_write_module (coff.c:1155-1258), with the final symbol index state. -/
def writeModule (m : Mod) : List Byte × IdxSt :=
  let t := secTable (startData m) m.junk ⟨[], 4⟩ m.secs
  let d := writeData m 0 (setSymbolIndices m) m.secs
  let s := writeSymbols m d.2 (m.secs.map (fun s => (s, finalRelocs s))) t.2
  (fileHeader m (startData m + d.1.length) s.1.length ++ t.1 ++ d.1 ++ s.1.flatten ++ strTable s.2, d.2)

end Verif.Coff
