import Verif.Coff.Bytes
import Verif.Elf.Model
/-! # Specification: reading an ELF relocatable object

An independent reader, written from the System V gABI: ELF header, section headers, string tables, symbol table,
relocation sections; 32- or 64-bit according to e_ident[EI_CLASS]. -/
namespace Verif.Elf
open Coff (Byte u8 u16 u32 slice cstr ascii NameOk)

def u64 (f : List Byte) (i : Nat) : Nat := u32 f i + 2 ^ 32 * u32 f (i + 4)

/-! ## Header -/
def isElf (f : List Byte) : Prop := f.take 4 = [0x7f, 0x45, 0x4c, 0x46]
def is64 (f : List Byte) : Bool := u8 f 4 == 2
def eType (f : List Byte) : Nat := u16 f 16
def eMachine (f : List Byte) : Nat := u16 f 18
def eShoff (f : List Byte) : Nat := if is64 f then u64 f 40 else u32 f 32
def eShentsize (f : List Byte) : Nat := u16 f (if is64 f then 58 else 46)
def eShnum (f : List Byte) : Nat := u16 f (if is64 f then 60 else 48)
def eShstrndx (f : List Byte) : Nat := u16 f (if is64 f then 62 else 50)

/-! ## Section headers -/
structure Shdr where
  name : Nat
  type : Nat
  flags : Nat
  addr : Nat
  offset : Nat
  size : Nat
  link : Nat
  info : Nat
  addralign : Nat
  entsize : Nat
  deriving DecidableEq, Repr

def shdrAt (f : List Byte) (i : Nat) : Shdr :=
  let p := eShoff f + eShentsize f * i
  if is64 f then ⟨u32 f p, u32 f (p + 4), u64 f (p + 8), u64 f (p + 16), u64 f (p + 24), u64 f (p + 32), u32 f (p + 40),
    u32 f (p + 44), u64 f (p + 48), u64 f (p + 56)⟩
  else ⟨u32 f p, u32 f (p + 4), u32 f (p + 8), u32 f (p + 12), u32 f (p + 16), u32 f (p + 20), u32 f (p + 24),
    u32 f (p + 28), u32 f (p + 32), u32 f (p + 36)⟩

/-- The bytes of section `i`. -/
def contents (f : List Byte) (i : Nat) : List Byte := slice f (shdrAt f i).offset (shdrAt f i).size

/-- The name of section `i`, from the section name string table. -/
def nameOf (f : List Byte) (i : Nat) : List Byte := cstr (contents f (eShstrndx f)) (shdrAt f i).name

/-! ## Symbols -/
structure ESym where
  name : List Byte
  bind : Nat
  type : Nat
  shndx : Nat
  value : Nat
  size : Nat
  deriving DecidableEq, Repr

/-- A symbol table entry; names come from the string table `tab`. -/
def decodeSym (c64 : Bool) (tab r : List Byte) : ESym :=
  if c64 then ⟨cstr tab (u32 r 0), u8 r 4 / 16, u8 r 4 % 16, u16 r 6, u64 r 8, u64 r 16⟩
  else ⟨cstr tab (u32 r 0), u8 r 12 / 16, u8 r 12 % 16, u16 r 14, u32 r 4, u32 r 8⟩

/-- Records of `n` bytes. -/
def chunks (n : Nat) (d : List Byte) : List (List Byte) := (List.range (d.length / n)).map (fun k => slice d (n * k) n)

/-- The entries of symbol table section `i`; sh_link is the index of its string table. -/
def symbolsOf (f : List Byte) (i : Nat) : List ESym :=
  (chunks (shdrAt f i).entsize (contents f i)).map (decodeSym (is64 f) (contents f (shdrAt f i).link))

/-! ## Relocations -/
structure ERel where
  offset : Nat
  sym : Nat
  type : Nat
  /-- explicit addend (RELA) as a 64-bit number, 0 for REL -/
  addend : Nat
  deriving DecidableEq, Repr

/-- A REL (type 9, 32-bit) or RELA (type 4, 64-bit) entry. -/
def decodeRel (c64 : Bool) (r : List Byte) : ERel :=
  if c64 then ⟨u64 r 0, u32 r 12, u32 r 8, u64 r 16⟩ else ⟨u32 r 0, u32 r 4 / 256, u32 r 4 % 256, 0⟩

def relocsOf (f : List Byte) (i : Nat) : List ERel := (chunks (shdrAt f i).entsize (contents f i)).map (decodeRel (is64 f))

/-! ## What is expected -/

/-- The class name conversions: _TEXT, _DATA, CONST (also with a `$suffix`) and _BSS get the usual ELF names. -/
def elfName (n : List Byte) : List Byte :=
  let pre (a : String) (b : String) : Option (List Byte) :=
    if n = ascii a then some (ascii b)
    else if (ascii a ++ ascii "$").isPrefixOf n then some (ascii b ++ n.drop a.length) else none
  ((pre "_TEXT" ".text").or ((pre "_DATA" ".data").or (pre "CONST" ".rodata"))).getD
    (if n = ascii "_BSS" then ascii ".bss" else n)

def sectionName (s : Sec) : List Byte := s.aliasName.getD (elfName s.name)

/-- The contents of a section: zeros up to its first byte written; an uninitialised section that needs file contents
(it is an INFO section) is zero. -/
def sectionData (s : Sec) : List Byte :=
  (List.range s.size).map (fun j => if s.segtype = .bss ∨ j < s.startLoc then 0 else s.buf (j - s.startLoc))

/-- sh_type: SHT_NOTE for INFO sections, SHT_NOBITS for uninitialised data, else SHT_PROGBITS. -/
def sectionType (s : Sec) : Nat := if s.info then 7 else match s.segtype with | .bss => 8 | _ => 1

/-- sh_flags: nothing for INFO sections; else SHF_ALLOC (2), with SHF_EXECINSTR (4) for code and SHF_WRITE (1) for data
that is neither READONLY nor of class CONST. -/
def sectionFlags (s : Sec) : Nat :=
  if s.info then 0
  else 2 + (if s.segtype = .code then 4 else 0) + (if s.segtype ≠ .code ∧ ¬ s.readonly ∧ ¬ s.constClass then 1 else 0)

/-- sh_addralign: 2^a bytes, 0 (no constraint) for the page alignment that means "not specified". -/
def sectionAlign (s : Sec) : Nat := (s.alignment.map (fun a => 2 ^ a)).getD 0

/-- STT_FUNC (2) for symbols in code sections and constants, else STT_OBJECT (1). -/
def typeOf (m : Mod) (y : Sym) : Nat :=
  if (y.seg.bind (fun i => m.secs[i]?)).all (fun s => s.segtype = .code) then 2 else 1

/-- Section index of a symbol of the module: SHN_ABS without a section. -/
def shndxOf (y : Sym) : Nat := (y.seg.map (· + 1)).getD 0xfff1

def word (b64 : Bool) (v : Nat) : Nat := v % (if b64 then 2 ^ 64 else 2 ^ 32)

def fileEnt (m : Mod) : ESym := ⟨m.src, 0, 4, 0xfff1, 0, 0⟩
def secEnt (i : Nat) : ESym := ⟨[], 0, 3, i + 1, 0, 0⟩
def locEnt (m : Mod) (y : Sym) : ESym := ⟨y.name, 0, typeOf m y, shndxOf y, word m.b64 y.offset, 0⟩
/-- Communal: SHN_COMMON with its size as value; other externals are undefined, weak if they have a default. -/
def extEnt (m : Mod) (y : Sym) : ESym :=
  if y.isComm then ⟨y.name, 1, 5, 0xfff2, word m.b64 y.totalSize, 0⟩
  else ⟨y.name, if y.altname then 2 else 1, 0, 0, word m.b64 y.offset, 0⟩
def pubEnt (m : Mod) (y : Sym) : ESym :=
  ⟨y.name, 1, typeOf m y, if y.state = .internal then shndxOf y else 0, word m.b64 y.offset, 0⟩

/-- Unused externdefs get no entry. -/
def usedExt (y : Sym) : Bool := y.isComm || !y.weak

def expected (m : Mod) (locals : List Nat) : List ESym :=
  ⟨[], 0, 0, 0, 0, 0⟩ :: fileEnt m :: (List.range m.secs.length).map secEnt ++ locals.map (fun i => locEnt m (m.env i)) ++
  (m.exts.filter (fun e => usedExt (m.env e))).map (fun i => extEnt m (m.env i)) ++ m.pubs.map (fun i => pubEnt m (m.env i))

/-- The relocation type for a fixup (System V ABI, i386 and AMD64 supplements). -/
def relTypeOf (b64 : Bool) (t : FixType) : Option Nat :=
  match b64, t with
  | false, .off32 => some 1       -- R_386_32
  | false, .relOff32 => some 2    -- R_386_PC32
  | false, .imgRel => some 8      -- R_386_RELATIVE
  | false, .off16 => some 20      -- R_386_16
  | false, .relOff16 => some 21   -- R_386_PC16
  | false, .off8 => some 22       -- R_386_8
  | false, .relOff8 => some 23    -- R_386_PC8
  | true, .off64 => some 1        -- R_X86_64_64
  | true, .relOff32 => some 2     -- R_X86_64_PC32
  | true, .got64 => some 6        -- R_X86_64_GLOB_DAT
  | true, .plt64 => some 7        -- R_X86_64_JUMP_SLOT
  | true, .imgRel => some 8       -- R_X86_64_RELATIVE
  | true, .gotPcRel64 => some 9   -- R_X86_64_GOTPCREL
  | true, .off32 => some 10       -- R_X86_64_32
  | true, .off16 => some 12       -- R_X86_64_16
  | true, .relOff16 => some 13    -- R_X86_64_PC16
  | true, .off8 => some 14        -- R_X86_64_8
  | true, .relOff8 => some 15     -- R_X86_64_PC8
  | _, _ => none

/-- The entry a fixup must refer to: for an assembly-time variable or a segment, the section's symbol. -/
def target (m : Mod) (f : Fix) (id : Nat) : Option ESym :=
  if (m.env id).isVar then (if f.segVar < m.secs.length then some (secEnt f.segVar) else none)
  else match (m.env id).state with
    | .seg i => if i < m.secs.length then some (secEnt i) else none
    | .external => some (extEnt m (m.env id))
    | .internal => some (if (m.env id).isPublic then pubEnt m (m.env id) else locEnt m (m.env id))
    | .other => none

/-! ## Well-formed input -/

/-- The target of a fixup exists: a section, a used external, a public in the queue, or any other symbol of the module
that is not marked as included beforehand. -/
def TargetOk (m : Mod) (f : Fix) (id : Nat) : Prop :=
  if (m.env id).isVar then f.segVar < m.secs.length
  else match (m.env id).state with
    | .seg i => i < m.secs.length
    | .external => id ∈ m.exts ∧ usedExt (m.env id) = true
    | .internal => if (m.env id).isPublic then id ∈ m.pubs else m.included id = false
    | .other => False

structure ModOk (m : Mod) : Prop where
  src : (0 : Byte) ∉ m.src
  secNames : ∀ s ∈ m.secs, (0 : Byte) ∉ s.name ∧ ∀ a, s.aliasName = some a → (0 : Byte) ∉ a
  names : ∀ id, (0 : Byte) ∉ (m.env id).name
  start : ∀ s ∈ m.secs, s.startLoc ≤ s.size
  sizes : ∀ s ∈ m.secs, s.size < 2 ^ 32
  aligns : ∀ s ∈ m.secs, ∀ a, s.alignment = some a → a < 32
  seg : ∀ id i, (m.env id).seg = some i → i < m.secs.length
  nsecs : 4 + m.secs.length + (m.secs.filter (fun s => !s.fixups.isEmpty)).length < 0xff00
  fixSym : ∀ s ∈ m.secs, ∀ f ∈ s.fixups, ∃ id, f.sym = some id ∧ TargetOk m f id
  fixType : ∀ s ∈ m.secs, ∀ f ∈ s.fixups, (relTypeOf m.b64 f.type).isSome
  fixLoc : ∀ s ∈ m.secs, ∀ f ∈ s.fixups, f.locofs < 2 ^ 32 ∧ f.addbytes < 256
  pubNodup : m.pubs.Nodup
  extNodup : m.exts.Nodup
  pubMarked : ∀ id ∈ m.pubs, (m.env id).isPublic = true
  extState : ∀ id ∈ m.exts, (m.env id).state = .external ∧ id ∉ m.pubs
  small : ∀ F, writeModule m = some F → F.length < 2 ^ 32
  /-- ELF32 has 24 bits for the symbol index in a relocation -/
  nsyms : m.b64 = false → 2 + m.secs.length + (m.secs.flatMap (fun s => s.fixups)).length + m.exts.length + m.pubs.length < 2 ^ 24

end Verif.Elf
