import Verif.Elf.File
/-! # Model: the 64-bit Mach-O writer `macho64.c`

Modelled: macho_section_count, macho_build_seg_cmd, macho_build_symtbl_cmd, macho_build_dysymtbl_cmd, macho_add_string,
macho_build_string_tbl, GetSymbolIndex, macho_build_section, macho_add_section, GetSectionIdx, GetSegFixups,
GetRelocationCount, macho_build_structures, macho_write_module. Record layouts: H/macho64spec.h.
Simplifications: sizes, addresses and file offsets are natural numbers, encoded with the field's width when written
(theorems assume a file smaller than 2 GB); write errors of `fwrite` are not modelled; the section alignment
`mm.sectAlign` is 1, so that ROUND_UP is the identity and `dif` is 0 (macho64.c:410). -/
namespace Verif.Macho
open Coff (Byte le ascii strncpy)

/-- `enum fixup_types`, `enum fixup_options` (H/fixup.h:36-103) as far as macho64.c distinguishes them. -/
inductive FixType | relOff32 | other
  deriving DecidableEq, Repr
inductive FixOpt | none | explicit | call | jxx | other
  deriving DecidableEq, Repr

/-- A fixup (H/fixup.h:105-134); `sym` is the name of its symbol, none = NULL. `addbytes` is the distance from the field
to the end of the instruction for FIX_RELOFF32 (codegen.c:3283-3297), 0 for all other types (fixup.c:99). -/
structure Fix where
  type : FixType
  option : FixOpt
  addbytes : Nat
  locofs : Nat
  sym : Option (List Byte)
  deriving DecidableEq, Repr

/-- A segment in SymTables[TAB_SEG]: name, `max_offset`, `start_loc`, `bytes_written`, CodeBuffer and fixup list.
CodeBuffer[k] holds the byte at offset start_loc + k (assemble.c:238-272). -/
structure Sec where
  name : List Byte
  size : Nat
  startLoc : Nat
  written : Nat
  buf : Nat → Byte
  fixups : List Fix

/-- `sym->state`; `skipped` is SYM_MACRO, SYM_SEG, SYM_TMACRO or SYM_GRP. -/
inductive SymState | internal | external | skipped | other
  deriving DecidableEq, Repr

/-- A global symbol; `seg` is the name of its segment. -/
structure Sym where
  name : List Byte
  state : SymState
  isPublic : Bool
  used : Bool
  predefined : Bool
  isEquate : Bool
  offset : Nat
  totalSize : Nat
  seg : Option (List Byte)
  weak : Bool
  deriving DecidableEq, Repr

/-- What the writer is given; `syms` in the order of SymEnum (symbols.c:812-828). -/
structure Mod where
  use64 : Bool
  secs : List Sec
  syms : List Sym

/-! ## Sections -/

/-- sectname, segname and flags by segment name (macho64.c:429-499); S_ZEROFILL 1, S_ATTR_SOME_INSTRUCTIONS 0x400,
S_ATTR_PURE_INSTRUCTIONS 0x80000000. -/
def kind (n : List Byte) : Option (List Byte × List Byte × Nat) :=
  if n = ascii "_TEXT" then some (ascii "__text", ascii "__TEXT", 0x80000400)
  else if n = ascii "_DATA" then some (ascii "__data", ascii "__DATA", 0)
  else if n = ascii "CONST" then some (ascii "_rdata", ascii "__DATA", 0)
  else if n = ascii "_BSS" then some (ascii "__bss", ascii "__DATA", 1)
  else none

/-- `struct macho_section_entry` (macho64.c:43-55). -/
structure Ent where
  src : List Byte
  kind : List Byte × List Byte × Nat
  size : Nat
  data : List Byte
  idx : Nat
  addr : Nat

/-- The loop creating sections (macho64.c:429-499); `addr` is `currAddr`, `idx` is `secIdx`. -/
def entries : Nat → Nat → List Sec → List Ent
  | _, _, [] => []
  | addr, idx, s :: r =>
    match kind s.name with
    | none => entries addr idx r
    | some k => ⟨s.name, k, s.written, (List.range s.written).map s.buf, idx, addr⟩ :: entries (addr + s.written) (idx + 1) r

def ents (m : Mod) : List Ent := entries 0 1 m.secs

/-- macho_section_count (macho64.c:83-99). -/
def secCount (m : Mod) : Nat :=
  (m.secs.filter (fun s => decide (s.name = ascii "_BSS" ∨ s.name = ascii "CONST" ∨ s.name = ascii "_TEXT" ∨
    s.name = ascii "_DATA"))).length

/-- `fileofs` behind the load commands (macho64.c:393, 417, 426, 445, 462, 479, 495, 508, 515). -/
def dataOfs (m : Mod) : Nat := 32 + 72 + 16 + 80 * (ents m).length + 24 + 80

/-- `sectionDataSize` (macho64.c:518-524). -/
def dataSize (m : Mod) : Nat := ((ents m).map (·.size)).sum

/-- The fixups of an entry: the first segment of that name (macho64.c:362-380, 588-594). -/
def fixupsOf (m : Mod) (e : Ent) : List Fix :=
  match m.secs.find? (fun s => s.name = e.src) with
  | some s => s.fixups
  | none => []

/-- `mm.relocCount` (macho64.c:355-383). -/
def relocCount (m : Mod) : Nat := ((ents m).map (fun e => (fixupsOf m e).length)).sum

/-- `struct section_64` with file offset `ofs` and relocations at `rofs` (macho64.c:283-297, 366-376, 429-524). -/
def section64 (m : Mod) (e : Ent) (ofs rofs : Nat) : List Byte :=
  strncpy 16 e.kind.1 ++ strncpy 16 e.kind.2.1 ++ le 8 e.addr ++ le 8 e.size ++ le 4 ofs ++ le 4 0
    ++ le 4 (if (fixupsOf m e).length = 0 then 0 else rofs) ++ le 4 (fixupsOf m e).length ++ le 4 e.kind.2.2
    ++ le 4 0 ++ le 4 0 ++ le 4 0

/-- The section list (macho64.c:518-524, 362-380, 559-564). -/
def section64s (m : Mod) : Nat → Nat → List Ent → List (List Byte)
  | _, _, [] => []
  | ofs, rofs, e :: r =>
    section64 m e ofs rofs :: section64s m (ofs + e.size) (rofs + (fixupsOf m e).length * 8) r

/-! ## Strings and symbols -/

/-- `struct strentry` (macho64.c:34-41). -/
structure Str where
  sym : Sym
  idx : Nat
  offset : Nat

/-- macho_add_string (macho64.c:160-185): `lastIdx` starts at 1 and is set from the second entry on. -/
def addString (l : List Str) (y : Sym) : List Str :=
  match l with
  | [] => [⟨y, 1, 1⟩]
  | x :: r => x :: r ++ [⟨y, (r.foldl (fun _ s => s.idx) 1) + 1,
      1 + (x.sym.name.length + 1) + (r.map (fun s => s.sym.name.length + 1)).sum⟩]

/-- The common condition of the three loops (macho64.c:203, 223, 243). -/
def eligible (y : Sym) : Bool := y.state ≠ .skipped && !y.predefined && !y.isEquate

/-- Local, public and external symbols (macho64.c:199-257). -/
def isLocal (y : Sym) : Bool :=
  y.name ≠ ascii "$xdatasym" && eligible y && y.state ≠ .external && !y.isPublic && y.used
def isPub (y : Sym) : Bool := eligible y && y.isPublic
def isUndef (y : Sym) : Bool := eligible y && y.state == .external

/-- macho_build_string_tbl (macho64.c:191-259): the list `mm.strings`. -/
def strings (m : Mod) : List Str :=
  (m.syms.filter isUndef).foldl addString ((m.syms.filter isPub).foldl addString ((m.syms.filter isLocal).foldl addString []))

/-- `mm.symCount`, `mm.extSymCount`, `mm.undefSymCount` (macho64.c:213, 233, 253). -/
def nLocal (m : Mod) : Nat := (m.syms.filter isLocal).length
def nPub (m : Mod) : Nat := (m.syms.filter isPub).length
def nUndef (m : Mod) : Nat := (m.syms.filter isUndef).length

/-- `stringTableSize` (macho64.c:207, 227, 247, 528). -/
def strSize (m : Mod) : Nat :=
  ((m.syms.filter isLocal).map (fun y => y.name.length + 1)).sum + ((m.syms.filter isPub).map (fun y => y.name.length + 1)).sum
    + ((m.syms.filter isUndef).map (fun y => y.name.length + 1)).sum + 1

/-- GetSymbolIndex (macho64.c:265-278): 1-based, 0 if there is no such name. -/
def symbolIndex (m : Mod) (n : List Byte) : Nat :=
  match (strings m).find? (fun s => n = s.sym.name) with
  | some s => s.idx
  | none => 0

/-- GetSectionIdx (macho64.c:322-336). -/
def sectionIdx (m : Mod) (seg : Option (List Byte)) : Nat :=
  match seg with
  | none => 0
  | some n => match (ents m).find? (fun e => n = e.src) with
    | some e => e.idx
    | none => 0

/-- The sum of the sizes of the sections with a smaller index (macho64.c:673-676). -/
def ofsAdj (m : Mod) (sect : Nat) : Nat := (((ents m).takeWhile (fun e => decide (e.idx < sect))).map (·.size)).sum

/-- `struct nlist_64` (macho64.c:649-686); N_EXT 1, N_SECT 0xe, N_WEAK_DEF 0x80. -/
def nlist (m : Mod) (s : Str) : List Byte :=
  let desc := if s.sym.weak then 0x80 else 0
  if s.sym.state = .external then le 4 s.offset ++ le 1 1 ++ le 1 0 ++ le 2 desc ++ le 8 s.sym.totalSize
  else
    let sect := sectionIdx m s.sym.seg
    le 4 s.offset ++ le 1 (if s.sym.isPublic then 0xf else 0xe) ++ le 1 sect ++ le 2 desc ++ le 8 (s.sym.offset + ofsAdj m sect)

/-- The entries written (macho64.c:649-689): `if (!used && !ispublic) continue`. -/
def nlists (m : Mod) : List (List Byte) :=
  ((strings m).filter (fun s => !(!s.sym.used && !s.sym.isPublic))).map (nlist m)

/-! ## Relocations -/

/-- `machotype` (macho64.c:611-622): X86_64_RELOC_SIGNED 1, X86_64_RELOC_BRANCH 2. -/
def machoType (f : Fix) : Nat :=
  if f.type = .relOff32 ∧ f.addbytes = 4 ∧ f.option = .none then 1
  else if f.type = .relOff32 ∧ (f.option = .explicit ∨ f.option = .call ∨ f.option = .jxx) then 2
  else 1

/-- `r_length` (macho64.c:625-638). -/
def lengthOf (addbytes : Nat) : Nat := if addbytes = 8 then 3 else if addbytes = 4 then 2 else if addbytes = 2 then 1 else 0

/-- `struct relocation_info` (H/macho64spec.h:2264; macho64.c:596-641). `- 1` is computed in 32 bits and truncated to
the field's 24 bits. -/
def reloc (m : Mod) (e : Ent) (f : Fix) : List Byte :=
  let sym := match f.sym with
    | some n => (symbolIndex m n + (2 ^ 24 - 1)) % 2 ^ 24
    | none => e.idx
  let ext := match f.sym with | some _ => 1 | none => 0
  le 4 f.locofs ++ le 4 (sym + 2 ^ 24 * 1 + 2 ^ 25 * lengthOf f.addbytes + 2 ^ 27 * ext + 2 ^ 28 * machoType f)

def relocs (m : Mod) : List (List Byte) := (ents m).flatMap (fun e => (fixupsOf m e).map (reloc m e))

/-! ## The file -/

/-- `struct mach_header_64` (macho64.c:723-727 and the counts of macho_build_structures). -/
def header (m : Mod) : List Byte :=
  le 4 0xfeedfacf ++ le 4 0x01000007 ++ le 4 3 ++ le 4 1 ++ le 4 4 ++ le 4 (72 + 16 + 80 * (ents m).length + 24 + 80) ++ le 4 0 ++ le 4 0

/-- `struct segment_command_64` (macho64.c:104-124, 442, 446, 496, 525): _BSS does not count for `filesize`. -/
def segCmd (m : Mod) : List Byte :=
  le 4 0x19 ++ le 4 (72 + 80 * secCount m) ++ List.replicate 16 0 ++ le 8 0 ++ le 8 (dataSize m) ++ le 8 (dataOfs m)
    ++ le 8 (((ents m).filter (fun e => e.kind.2.2 ≠ 1)).map (·.size)).sum ++ le 4 7 ++ le 4 7 ++ le 4 (secCount m) ++ le 4 0

/-- `struct version_min_command` (macho64.c:420-423). -/
def verCmd : List Byte := le 4 0x24 ++ le 4 16 ++ le 4 0x000a0c00 ++ le 4 0

def nSyms (m : Mod) : Nat := nLocal m + nPub m + nUndef m

/-- `struct symtab_command` (macho64.c:546-549). -/
def symCmd (m : Mod) : List Byte :=
  le 4 2 ++ le 4 24 ++ le 4 (dataOfs m + dataSize m + relocCount m * 8) ++ le 4 (nSyms m)
    ++ le 4 (dataOfs m + dataSize m + 16 * nSyms m + relocCount m * 8) ++ le 4 (strSize m)

/-- `struct dysymtab_command` (macho64.c:538-543). -/
def dysymCmd (m : Mod) : List Byte :=
  le 4 0xb ++ le 4 80 ++ le 4 0 ++ le 4 (nLocal m) ++ le 4 (nLocal m) ++ le 4 (nPub m) ++ le 4 (nLocal m + nPub m)
    ++ le 4 (nUndef m) ++ List.replicate 48 0

/-- The string table as written (macho64.c:691-699). -/
def strData (m : Mod) : List Byte := [0] ++ (strings m).flatMap (fun s => s.sym.name ++ [0])

/-- macho_build_structures and macho_write_module (macho64.c:386-738). none: the module is not 64-bit (an error is
reported), or there is no section, so that `mm.sections->section.offset` dereferences NULL (macho64.c:525). -/
def writeModule (m : Mod) : Option (List Byte) :=
  if m.use64 = false then none
  else match ents m with
    | [] => none
    | _ => some (header m ++ (segCmd m ++ ((section64s m (dataOfs m) (dataOfs m + dataSize m) (ents m)).flatten ++ (verCmd
        ++ (symCmd m ++ (dysymCmd m ++ (((ents m).map (·.data)).flatten ++ ((relocs m).flatten ++ ((nlists m).flatten
        ++ strData m)))))))))

end Verif.Macho
