import Verif.Macho.Model
/-! # Specification: reading a 64-bit Mach-O object

An independent reader, from the Mach-O file format reference: header, load commands (walked by their `cmdsize`), sections,
symbol table, relocations. -/
namespace Verif.Macho
open Coff (Byte u8 u16 u32 slice cstr ascii)
open Elf (u64)

/-! ## Header and load commands -/
def isMacho64 (f : List Byte) : Prop := u32 f 0 = 0xfeedfacf
def cpuType (f : List Byte) : Nat := u32 f 4
def fileType (f : List Byte) : Nat := u32 f 12
def nCmds (f : List Byte) : Nat := u32 f 16
def sizeOfCmds (f : List Byte) : Nat := u32 f 20

/-- `n` load commands from position `p`: their numbers and positions, and the position behind the last. -/
def walk (f : List Byte) : Nat → Nat → List (Nat × Nat) × Nat
  | 0, p => ([], p)
  | n + 1, p => ((u32 f p, p) :: (walk f n (p + u32 f (p + 4))).1, (walk f n (p + u32 f (p + 4))).2)

/-- The load commands behind the 32-byte header. -/
def commands (f : List Byte) : List (Nat × Nat) := (walk f (nCmds f) 32).1
def commandsEnd (f : List Byte) : Nat := (walk f (nCmds f) 32).2

/-- Position of the first command of a kind. -/
def findCmd (f : List Byte) (c : Nat) : Nat := (((commands f).find? (fun x => x.1 = c)).map (·.2)).getD 0

def segPos (f : List Byte) : Nat := findCmd f 0x19
def symPos (f : List Byte) : Nat := findCmd f 2
def dysymPos (f : List Byte) : Nat := findCmd f 0xb

/-! ## Sections -/
def vmSize (f : List Byte) : Nat := u64 f (segPos f + 32)
def fileOff (f : List Byte) : Nat := u64 f (segPos f + 40)
def fileSize (f : List Byte) : Nat := u64 f (segPos f + 48)
def nSects (f : List Byte) : Nat := u32 f (segPos f + 64)

structure MSec where
  sectname : List Byte
  segname : List Byte
  addr : Nat
  size : Nat
  offset : Nat
  align : Nat
  reloff : Nat
  nreloc : Nat
  flags : Nat
  deriving DecidableEq, Repr

def decodeSec (r : List Byte) : MSec :=
  ⟨cstr (slice r 0 16) 0, cstr (slice r 16 16) 0, u64 r 32, u64 r 40, u32 r 48, u32 r 52, u32 r 56, u32 r 60, u32 r 64⟩

/-- Section `i` (from 0) of the segment. -/
def secAt (f : List Byte) (i : Nat) : MSec := decodeSec (slice f (segPos f + 72 + 80 * i) 80)

/-! ## Symbols -/
def symOff (f : List Byte) : Nat := u32 f (symPos f + 8)
def symCount (f : List Byte) : Nat := u32 f (symPos f + 12)
def strOff (f : List Byte) : Nat := u32 f (symPos f + 16)
def strLen (f : List Byte) : Nat := u32 f (symPos f + 20)

structure MSym where
  name : List Byte
  type : Nat
  sect : Nat
  desc : Nat
  value : Nat
  deriving DecidableEq, Repr

def decodeSym (tab r : List Byte) : MSym := ⟨cstr tab (u32 r 0), u8 r 4, u8 r 5, u16 r 6, u64 r 8⟩

/-- The symbol table. -/
def symbols (f : List Byte) : List MSym :=
  (List.range (symCount f)).map (fun k => decodeSym (slice f (strOff f) (strLen f)) (slice f (symOff f + 16 * k) 16))

/-- The partition by LC_DYSYMTAB: (first index, number) of local, defined external and undefined symbols. -/
def partition (f : List Byte) : (Nat × Nat) × (Nat × Nat) × (Nat × Nat) :=
  ((u32 f (dysymPos f + 8), u32 f (dysymPos f + 12)), (u32 f (dysymPos f + 16), u32 f (dysymPos f + 20)),
   (u32 f (dysymPos f + 24), u32 f (dysymPos f + 28)))

/-! ## Relocations -/
structure MRel where
  addr : Nat
  /-- symbol table index, or section number if `ext` is 0 -/
  num : Nat
  pcrel : Nat
  /-- log2 of the field's size -/
  length : Nat
  ext : Nat
  type : Nat
  deriving DecidableEq, Repr

def decodeRel (r : List Byte) : MRel :=
  ⟨u32 r 0, u32 r 4 % 2 ^ 24, u32 r 4 / 2 ^ 24 % 2, u32 r 4 / 2 ^ 25 % 4, u32 r 4 / 2 ^ 27 % 2, u32 r 4 / 2 ^ 28 % 16⟩

/-- The relocations of a section. -/
def relocsAt (f : List Byte) (i : Nat) : List MRel :=
  (List.range (secAt f i).nreloc).map (fun k => decodeRel (slice f ((secAt f i).reloff + 8 * k) 8))

/-! ## What is expected -/

/-- The four segments of the flat model and what becomes of them; flags: 0x80000000 + 0x400 "pure" and "some
instructions", 1 zero fill. -/
def placeOf (n : List Byte) : Option (List Byte × List Byte × Nat) :=
  [(ascii "_TEXT", ascii "__text", ascii "__TEXT", 0x80000400), (ascii "_DATA", ascii "__data", ascii "__DATA", 0),
   (ascii "CONST", ascii "_rdata", ascii "__DATA", 0), (ascii "_BSS", ascii "__bss", ascii "__DATA", 1)].lookup n

/-- The contents of a segment: the byte assembled at each offset, zero where nothing was assembled. -/
def contents (s : Sec) : List Byte := (List.range s.size).map (fun j => if j < s.startLoc then 0 else s.buf (j - s.startLoc))

/-- The address of the segment with name `n`: all sections are laid out one behind the other from 0. -/
def addrOf : List Sec → List Byte → Nat
  | [], _ => 0
  | s :: r, n => if s.name = n then 0 else s.size + addrOf r n

/-- The number (from 1) of the section of a segment. -/
def numberOf : List Sec → List Byte → Nat
  | [], _ => 0
  | s :: r, n => if s.name = n then 1 else numberOf r n + 1

/-- Symbols that stand for something in the object file: no equates, macros, segments, groups or predefined names. -/
def real (y : Sym) : Bool := (y.state = .internal ∨ y.state = .external ∨ y.state = .other) && !y.predefined && !y.isEquate

def entryOf (m : Mod) (y : Sym) : MSym :=
  ⟨y.name,
   if y.state = .external then 1 else if y.isPublic then 0xf else 0xe,
   if y.state = .external then 0 else numberOf m.secs (y.seg.getD []),
   if y.weak then 0x80 else 0,
   if y.state = .external then y.totalSize else addrOf m.secs (y.seg.getD []) + y.offset⟩

/-- Local symbols that are used, publics, externals. -/
def locals (m : Mod) : List Sym := m.syms.filter (fun y => real y && y.state ≠ .external && !y.isPublic && y.used && y.name ≠ ascii "$xdatasym")
def publics (m : Mod) : List Sym := m.syms.filter (fun y => real y && y.isPublic)
def externals (m : Mod) : List Sym := m.syms.filter (fun y => real y && y.state = .external)
def listed (m : Mod) : List Sym := locals m ++ publics m ++ externals m

/-! ## Conditions -/

/-- What the layout needs. -/
structure Laid (m : Mod) : Prop where
  secNames : (m.secs.filter (fun s => (placeOf s.name).isSome)).Pairwise (fun a b => a.name ≠ b.name)
  names : ∀ y ∈ m.syms, (0 : Byte) ∉ y.name
  fixLoc : ∀ s ∈ m.secs, ∀ f ∈ s.fixups, f.locofs < 2 ^ 31

/-- The file, with room for all symbols, is smaller than 2 GB, and symbol indices fit into 24 bits. -/
def Small (m : Mod) (F : List Byte) : Prop := F.length + 16 * (listed m).length < 2 ^ 31 ∧ (listed m).length < 2 ^ 24

/-- Every segment is one of the four, and every byte of it was assembled; _BSS is empty. -/
structure Dense (m : Mod) : Prop where
  known : ∀ s ∈ m.secs, (placeOf s.name).isSome
  full : ∀ s ∈ m.secs, s.written = s.size ∧ s.startLoc = 0
  bss : ∀ s ∈ m.secs, s.name = ascii "_BSS" → s.size = 0

/-- Symbols: externals are used and not public, the others have a segment of the module. -/
structure SymsOk (m : Mod) : Prop where
  nodup : ((listed m).map (·.name)).Nodup
  ext : ∀ y ∈ externals m, y.used = true ∧ y.isPublic = false ∧ y.totalSize < 2 ^ 32
  defd : ∀ y ∈ locals m ++ publics m, y.offset < 2 ^ 31 ∧ ∃ s ∈ m.secs, y.seg = some s.name

/-- Fixups: RIP-relative or branch fields of 4 bytes at the end of the instruction, to a listed symbol. -/
structure FixOk (m : Mod) (f : Fix) : Prop where
  rel : f.type = .relOff32
  last : f.addbytes = 4
  sym : ∃ y ∈ listed m, f.sym = some y.name

end Verif.Macho
