import Verif.Coff.Model
/-! # Model: the ELF writer `elf.c` (ELF32 and ELF64 relocatable objects) and the ELF part of store_fixup

Modelled: ElfConvertSectionName, set_symtab32/64, set_symtab_values, set_shstrtab_values, Get_Alignment,
elf_write_section_table32/64, write_relocs32/64, elf_write_data, elf_write_module; fixup.c store_fixup for ELF.
`b64` selects the 64-bit variant of a pair of functions; they differ in record sizes and field order only.
Simplifications: `uint_32` counters and file offsets are natural numbers, encoded with the field's width when written
(theorems assume a file smaller than 4 GB); the names produced by Mangle are part of the input; segment indices
(`seg_idx`) are the positions in the segment list, numbered from 1 (segment.c:649, 783-793, 1067). -/
namespace Verif.Elf
open Coff (Byte le ascii upd)

/-- `enum fixup_types` (H/fixup.h) as far as elf.c distinguishes them. -/
inductive FixType
  | relOff8 | relOff16 | relOff32 | off8 | off16 | off32 | off64 | imgRel | got64 | plt64 | gotPcRel64 | other
  deriving DecidableEq, Repr

/-- A fixup: `sym` (none = NULL) is an index into the symbols, `segVar` the section of an assembly-time variable. -/
structure Fix where
  type : FixType
  locofs : Nat
  addbytes : Nat
  sym : Option Nat
  segVar : Nat
  deriving DecidableEq, Repr

inductive SegType | code | bss | other
  deriving DecidableEq, Repr

/-- A section (`SymTables[TAB_SEG]`): name, ALIAS name, `max_offset`, `start_loc`, CodeBuffer and attributes.
`alignment` none = MAX_SEGALIGNMENT. -/
structure Sec where
  name : List Byte
  aliasName : Option (List Byte)
  size : Nat
  startLoc : Nat
  buf : Nat → Byte
  info : Bool
  segtype : SegType
  readonly : Bool
  constClass : Bool
  alignment : Option Nat
  fixups : List Fix

/-- `sym->state`; a segment symbol with its position. -/
inductive SymState | internal | external | seg (i : Nat) | other
  deriving DecidableEq, Repr

/-- A symbol: mangled name; `seg` the position of its segment. -/
structure Sym where
  name : List Byte
  state : SymState
  isPublic : Bool
  isVar : Bool
  offset : Nat
  totalSize : Nat
  seg : Option Nat
  isComm : Bool
  weak : Bool
  altname : Bool
  deriving DecidableEq, Repr

/-- What the writer is given; `exts` and `pubs` are SymTables[TAB_EXT] and PubQueue, indices into `env`. -/
structure Mod where
  b64 : Bool
  osabi : Nat
  src : List Byte
  secs : List Sec
  exts : List Nat
  pubs : List Nat
  env : Nat → Sym
  included : Nat → Bool

/-- `ELF32_ST_INFO(b,t)` (H/elfspec.h:268). -/
def stInfo (b t : Nat) : Nat := b * 16 + t % 16

/-! ## Section names -/

/-- The table `cst` (elf.c:133-138): source, destination, CSF_GRPCHK. -/
def cst : List (List Byte × List Byte × Bool) :=
  [(ascii "_TEXT", ascii ".text", true), (ascii "_DATA", ascii ".data", true), (ascii "CONST", ascii ".rodata", true),
   (ascii "_BSS", ascii ".bss", false)]

/-- ElfConvertSectionName (elf.c:144-164). -/
def convName (name : List Byte) : List (List Byte × List Byte × Bool) → List Byte
  | [] => name
  | (src, dst, grp) :: r =>
    if name.take src.length = src then
      match name.drop src.length with
      | [] => dst
      | c :: t => if grp ∧ c = 0x24 then dst ++ c :: t else convName name r
    else convName name r

/-- The name used for a section: ALIAS name if defined (elf.c:691, 716, 733). -/
def secName (s : Sec) : List Byte := match s.aliasName with | some a => a | none => convName s.name cst

/-- Names of the internal sections (elf.c:96-100). -/
def intNames : List (List Byte) := [ascii ".shstrtab", ascii ".symtab", ascii ".strtab"]

def relPrefix (b64 : Bool) : List Byte := if b64 then ascii ".rela" else ascii ".rel"

/-- Size of .shstrtab as computed beforehand (elf.c:688-707); sizeof(".rel") counts the NUL. -/
def shstrSize (m : Mod) : Nat :=
  1 + (m.secs.map (fun s => (secName s).length + 1 +
        (if s.fixups.isEmpty then 0 else (secName s).length + ((relPrefix m.b64).length + 1)))).sum
    + (intNames.map (fun n => n.length + 1)).sum

/-- Contents of .shstrtab (elf.c:711-742). -/
def shstrData (m : Mod) : List Byte :=
  [0] ++ m.secs.flatMap (fun s => secName s ++ [0]) ++ intNames.flatMap (fun n => n ++ [0])
    ++ (m.secs.filter (fun s => !s.fixups.isEmpty)).flatMap (fun s => relPrefix m.b64 ++ secName s ++ [0])

/-- A buffer of `size` bytes filled with `d`. -/
def buffer (size : Nat) (d : List Byte) : List Byte := (d ++ List.replicate size 0).take size

/-- `p += strlen( p ) + 1`. -/
def nextName (tab : List Byte) (p : Nat) : Nat := p + ((tab.drop p).takeWhile (· ≠ 0)).length + 1

/-! ## Symbol table -/

/-- One symbol table entry: Elf32_Sym / Elf64_Sym (H/elfspec.h); st_size and st_other are 0. -/
def symRec (b64 : Bool) (name info shndx value : Nat) : List Byte :=
  if b64 then le 4 name ++ le 1 info ++ le 1 0 ++ le 2 shndx ++ le 8 value ++ le 8 0
  else le 4 name ++ le 4 value ++ le 4 0 ++ le 1 info ++ le 1 0 ++ le 2 shndx

/-- `curr && curr->e.seginfo->segtype != SEGTYPE_CODE ? STT_OBJECT : STT_FUNC` (elf.c:234-238, 303-307). -/
def sttOf (m : Mod) (y : Sym) : Nat :=
  match y.seg with
  | none => 2
  | some i => match m.secs[i]? with
    | none => 2
    | some s => if s.segtype ≠ .code then 1 else 2

/-- Info, section index and value of a local (elf.c:229-252). -/
def locFields (m : Mod) (y : Sym) : Nat × Nat × Nat :=
  (stInfo 0 (sttOf m y), match y.seg with | some i => i + 1 | none => 0xfff1, y.offset)

/-- ... of an external or communal (elf.c:258-284). -/
def extFields (y : Sym) : Nat × Nat × Nat :=
  if y.isComm then (stInfo 1 5, 0xfff2, y.totalSize)
  else (if y.isComm = false ∧ y.altname then stInfo 2 0 else stInfo 1 0, 0, y.offset)

/-- ... of a public (elf.c:298-326). -/
def pubFields (m : Mod) (y : Sym) : Nat × Nat × Nat :=
  (stInfo 1 (sttOf m y), if y.state = .internal then (match y.seg with | some i => i + 1 | none => 0xfff1) else 0, y.offset)

/-- `curr->sym.iscomm == FALSE && curr->sym.weak == TRUE`: unused externdefs. -/
def skipExt (y : Sym) : Bool := y.isComm == false && y.weak == true

/-- The loops filling entries: `strsize` runs along the names (elf.c:229-255, 259-287, 298-330). -/
def recsOf (b64 : Bool) (env : Nat → Sym) (fields : Sym → Nat × Nat × Nat) : Nat → List Nat → List (List Byte) × Nat
  | strsize, [] => ([], strsize)
  | strsize, id :: r =>
    let f := fields (env id)
    let q := recsOf b64 env fields (strsize + ((env id).name.length + 1)) r
    (symRec b64 strsize f.1 f.2.1 f.2.2 :: q.1, q.2)

/-- set_symtab32/64 (elf.c:183-344, 362-519): the entries and the size of the string table. -/
def symtab (m : Mod) (locals : List Nat) : List (List Byte) × Nat :=
  let null := List.replicate (if m.b64 then 24 else 16) (0 : Byte)
  let file := symRec m.b64 1 (stInfo 0 4) 0xfff1 0
  let secs := (List.range m.secs.length).map (fun i => symRec m.b64 0 (stInfo 0 3) (i + 1) 0)
  let l := recsOf m.b64 m.env (locFields m) (1 + (m.src.length + 1)) locals
  let e := recsOf m.b64 m.env extFields l.2 (m.exts.filter (fun e => !skipExt (m.env e)))
  let p := recsOf m.b64 m.env (pubFields m) e.2 m.pubs
  (null :: file :: secs ++ l.1 ++ e.1 ++ p.1, p.2)

/-- The string table's contents (elf.c:638-664). -/
def strData (m : Mod) (locals : List Nat) : List Byte :=
  [0] ++ (m.src ++ [0]) ++ locals.flatMap (fun i => (m.env i).name ++ [0])
    ++ (m.exts.filter (fun e => !skipExt (m.env e))).flatMap (fun i => (m.env i).name ++ [0])
    ++ m.pubs.flatMap (fun i => (m.env i).name ++ [0])

/-- State of set_symtab_values: `ext_idx`, the local symbols, `included`, `symindex`. -/
structure IdxSt where
  ext : Nat → Nat
  locals : List Nat
  included : Nat → Bool
  index : Nat

/-- One fixup in the loop that collects local symbols (elf.c:573-595). -/
def addLocal (env : Nat → Sym) (st : IdxSt) (f : Fix) : IdxSt :=
  match f.sym with
  | none => st
  | some id =>
    if (env id).isVar then st
    else if (env id).state = .internal ∧ st.included id = false ∧ (env id).isPublic = false then
      ⟨upd st.ext id st.index, st.locals ++ [id], upd st.included id true, st.index + 1⟩
    else st

/-- Indices of a list of symbols (elf.c:602-606, 618-620). -/
def idxList : (Nat → Nat) → Nat → List Nat → (Nat → Nat) × Nat
  | ext, index, [] => (ext, index)
  | ext, index, p :: r => idxList (upd ext p index) (index + 1) r

/-- After the local symbols; `index` is then `start_globals` (elf.c:562-599). -/
def localSt (m : Mod) : IdxSt :=
  (m.secs.flatMap (fun s => s.fixups)).foldl (addLocal m.env) ⟨fun _ => 0, [], m.included, 2 + m.secs.length⟩

/-- set_symtab_values: final `ext_idx` and `symindex` (elf.c:540-623). -/
def extIdx (m : Mod) : (Nat → Nat) × Nat :=
  let l := localSt m
  let e := idxList l.ext l.index (m.exts.filter (fun e => !skipExt (m.env e)))
  idxList e.1 e.2 m.pubs

/-! ## Relocations -/

/-- `elftype` (elf.c:1084-1113, 1158-1201); none: an error is reported. -/
def relType (b64 : Bool) (t : FixType) : Option Nat :=
  if b64 then
    match t with
    | .relOff32 => some 2
    | .off64 => some 1
    | .got64 => some 6
    | .plt64 => some 7
    | .imgRel => some 8
    | .gotPcRel64 => some 9
    | .off32 => some 10
    | .off16 => some 12
    | .relOff16 => some 13
    | .off8 => some 14
    | .relOff8 => some 15
    | .other => none
  else
    match t with
    | .off32 => some 1
    | .relOff32 => some 2
    | .imgRel => some 8
    | .off16 => some 20
    | .relOff16 => some 21
    | .off8 => some 22
    | .relOff8 => some 23
    | _ => none

/-- `fixup->sym->ext_idx`, where set_symtab_values has replaced an assembly-time variable by its section
(elf.c:577-578); a section's index is 2 + its position (elf.c:565-566). -/
def fixIdx (m : Mod) (ext : Nat → Nat) (f : Fix) : Nat :=
  match f.sym with
  | none => 0
  | some id =>
    if (m.env id).isVar then 2 + f.segVar
    else match (m.env id).state with
      | .seg i => 2 + i
      | _ => ext id

/-- One relocation: Elf32_Rel / Elf64_Rela (elf.c:1082-1119, 1135-1206); `r_addend = - fixup->addbytes`. -/
def relRec (b64 : Bool) (ext : Nat) (f : Fix) : List Byte :=
  let t := (relType b64 f.type).getD 0
  if b64 then le 8 f.locofs ++ le 8 (ext * 2 ^ 32 + t) ++ le 8 (2 ^ 64 - f.addbytes)
  else le 4 f.locofs ++ le 4 (ext * 256 + t)

def relRecs (m : Mod) (s : Sec) : List Byte := s.fixups.flatMap (fun f => relRec m.b64 (fixIdx m (extIdx m).1 f) f)

/-! ## Section table -/

/-- Elf32_Shdr / Elf64_Shdr (H/elfspec.h); sh_addr is 0. -/
def shdr (b64 : Bool) (name type flags offset size link info align entsize : Nat) : List Byte :=
  if b64 then le 4 name ++ le 4 type ++ le 8 flags ++ le 8 0 ++ le 8 offset ++ le 8 size ++ le 4 link ++ le 4 info
    ++ le 8 align ++ le 8 entsize
  else le 4 name ++ le 4 type ++ le 4 flags ++ le 4 0 ++ le 4 offset ++ le 4 size ++ le 4 link ++ le 4 info
    ++ le 4 align ++ le 4 entsize

/-- `(x + 0xF) & ~0xF`. -/
def align16 (x : Nat) : Nat := (x + 15) / 16 * 16

/-- sh_type, sh_flags (elf.c:797-812): SHT_NOTE 7, SHT_PROGBITS 1, SHT_NOBITS 8; SHF_WRITE 1, ALLOC 2, EXECINSTR 4. -/
def shType (s : Sec) : Nat := if s.info then 7 else if s.segtype ≠ .bss then 1 else 8
def shFlags (s : Sec) : Nat :=
  if s.info then 0 else if s.segtype = .code then 6 else if s.readonly then 2 else if s.constClass then 2 else 3

/-- Get_Alignment (elf.c:759-765). -/
def alignOf (s : Sec) : Nat := match s.alignment with | none => 0 | some a => 2 ^ a

/-- `fileoffset` behind a section (elf.c:850-854). -/
def nextOff (off : Nat) (s : Sec) : Nat := if shType s ≠ 8 then align16 (off + s.size) else off

/-- Headers of the program's sections (elf.c:791-857): headers, file offsets, `fileoffset` and name position. -/
def secHdrs (b64 : Bool) (tab : List Byte) : Nat → Nat → List Sec → List (List Byte) × List Nat × Nat × Nat
  | off, p, [] => ([], [], off, p)
  | off, p, s :: r =>
    let q := secHdrs b64 tab (nextOff off s) (nextName tab p) r
    (shdr b64 p (shType s) (shFlags s) off s.size 0 0 (alignOf s) 0 :: q.1, off :: q.2.1, q.2.2)

/-- Headers of internal sections (elf.c:863-887): `l` are (type, size, link, info, align, entsize). -/
def intHdrs (b64 : Bool) (tab : List Byte) : Nat → Nat → List (Nat × Nat × Nat × Nat × Nat × Nat) →
    List (List Byte) × List Nat × Nat × Nat
  | off, p, [] => ([], [], off, p)
  | off, p, (ty, size, link, info, al, es) :: r =>
    let q := intHdrs b64 tab (align16 (off + size)) (nextName tab p) r
    (shdr b64 p ty 0 off size link info al es :: q.1, off :: q.2.1, q.2.2)

/-- Headers of relocation sections (elf.c:890-922), `i` is the position of the section. -/
def relHdrs (m : Mod) (tab : List Byte) : Nat → Nat → Nat → List Sec → List (List Byte) × List Nat × Nat × Nat
  | _, off, p, [] => ([], [], off, p)
  | i, off, p, s :: r =>
    if s.fixups.isEmpty then
      let q := relHdrs m tab (i + 1) off p r
      (q.1, off :: q.2.1, q.2.2)
    else
      let size := s.fixups.length * (if m.b64 then 24 else 8)
      let q := relHdrs m tab (i + 1) (align16 (off + size)) (nextName tab p) r
      (shdr m.b64 p (if m.b64 then 4 else 9) 0 off size (1 + m.secs.length + 1) (i + 1) 4 (if m.b64 then 24 else 8) :: q.1,
       off :: q.2.1, q.2.2)

/-! ## The module -/

def ehSize (b64 : Bool) : Nat := if b64 then 64 else 52
def shSize (b64 : Bool) : Nat := if b64 then 64 else 40
def symSize (b64 : Bool) : Nat := if b64 then 24 else 16

/-- `e_shnum` (elf.c:1323, 1358). -/
def shNum (m : Mod) : Nat := 1 + m.secs.length + 3 + (m.secs.filter (fun s => !s.fixups.isEmpty)).length

/-- The ELF header (elf.c:1290-1326, 1331-1361). -/
def ehdr (m : Mod) : List Byte :=
  [0x7f, 0x45, 0x4c, 0x46, if m.b64 then 2 else 1, 1, 1, BitVec.ofNat 8 m.osabi, 0, 0, 0, 0, 0, 0, 0, 0]
    ++ le 2 1 ++ le 2 (if m.b64 then 62 else 3) ++ le 4 1
    ++ (if m.b64 then le 8 0 ++ le 8 0 ++ le 8 64 else le 4 0 ++ le 4 0 ++ le 4 52)
    ++ le 4 0 ++ le 2 (ehSize m.b64) ++ le 2 0 ++ le 2 0 ++ le 2 (shSize m.b64) ++ le 2 (shNum m) ++ le 2 (1 + m.secs.length + 0)

/-- `fseek( pos )` and `fwrite( data )` (data not empty): a gap beyond the end of the file reads as zeros. -/
def writeAt (f : List Byte) (w : Nat × List Byte) : List Byte :=
  (f ++ List.replicate (w.1 - f.length) 0).take w.1 ++ w.2 ++ f.drop (w.1 + w.2.length)

/-- The data of a section (elf.c:1228-1236): `fseek( fileoffset + start_loc )`. -/
def secWrites : List Sec → List Nat → List (Nat × List Byte)
  | s :: r, off :: offs =>
    (if s.segtype ≠ .bss ∧ s.size - s.startLoc ≠ 0 then
       [(off + s.startLoc, (List.range (s.size - s.startLoc)).map s.buf)] else []) ++ secWrites r offs
  | _, _ => []

/-- The relocations (elf.c:1249-1260). -/
def relWrites (m : Mod) : List Sec → List Nat → List (Nat × List Byte)
  | s :: r, off :: offs => (if s.fixups.length ≠ 0 then [(off, relRecs m s)] else []) ++ relWrites m r offs
  | _, _ => []

/-- Everything written: the section table behind the ELF header (both contiguous from 0), then elf_write_data. -/
structure Out where
  hdrs : List (List Byte)
  writes : List (Nat × List Byte)

/-- elf_write_section_table32/64 and elf_write_data (elf.c:776-927, 1211-1269). -/
def output (m : Mod) : Out :=
  let off0 := align16 (ehSize m.b64 + shNum m * shSize m.b64)
  let tab := buffer (shstrSize m) (shstrData m)
  let s := secHdrs m.b64 tab off0 1 m.secs
  let locals := (localSt m).locals
  let sym := (symtab m locals)
  let symData := sym.1.flatten
  let str := buffer sym.2 (strData m locals)
  let ints := [(3, shstrSize m, 0, 0, 1, 0),
    (2, (extIdx m).2 * symSize m.b64, 1 + m.secs.length + 2, (localSt m).index, 4, symSize m.b64), (3, sym.2, 0, 0, 1, 0)]
  let i := intHdrs m.b64 tab s.2.2.1 s.2.2.2 ints
  let r := relHdrs m tab 0 i.2.2.1 i.2.2.2 m.secs
  ⟨List.replicate (shSize m.b64) 0 :: s.1 ++ i.1 ++ r.1,
   secWrites m.secs s.2.1
     ++ List.zip i.2.1 [tab, buffer ((extIdx m).2 * symSize m.b64) symData, str]
     ++ relWrites m m.secs r.2.1⟩

/-- elf_write_module (elf.c:1273-1366). none: a fixup without symbol makes set_symtab_values dereference NULL
(elf.c:577). -/
def writeModule (m : Mod) : Option (List Byte) :=
  if m.secs.any (fun s => s.fixups.any (fun f => f.sym.isNone)) then none
  else some ((output m).writes.foldl writeAt (ehdr m ++ (output m).hdrs.flatten))

/-! ## store_fixup -/

/-- store_fixup for ELF (fixup.c:194-260): the field's contents after the call, as an integer; `v` is the value
the instruction or data item was assembled with, `varOfs` the offset of an assembly-time variable. -/
def storeFixup (b64 : Bool) (t : FixType) (v : Int) (varOfs : Option Int) : Int :=
  let w := if b64 then v
    else match t with
      | .relOff32 => -4
      | .relOff16 => -2
      | .relOff8 => -1
      | _ => v
  match varOfs with
  | some o => w + o
  | none => w

end Verif.Elf
