import Verif.Coff.Model
/-! # Specification: reading a COFF object file

An independent reader of the bytes of an object file, written from the Microsoft COFF specification: file header,
section headers at 20 + 40 i, symbol table of 18-byte records with auxiliary records, string table behind it. -/
namespace Verif.Coff

def u8 (f : List Byte) (i : Nat) : Nat := (f.getD i 0).toNat
def u16 (f : List Byte) (i : Nat) : Nat := u8 f i + 256 * u8 f (i + 1)
def u32 (f : List Byte) (i : Nat) : Nat := u16 f i + 65536 * u16 f (i + 2)

/-- `n` bytes at `i`. -/
def slice (f : List Byte) (i n : Nat) : List Byte := (f.drop i).take n

/-- The NUL-terminated string at `i`. -/
def cstr (f : List Byte) (i : Nat) : List Byte := (f.drop i).takeWhile (· ≠ 0)

/-- A decimal number. -/
def undec (s : List Byte) : Nat := s.foldl (fun a c => 10 * a + (c.toNat - 48)) 0

/-! ## Header fields -/
def nSections (f : List Byte) : Nat := u16 f 2
def symPtr (f : List Byte) : Nat := u32 f 8
def nSyms (f : List Byte) : Nat := u32 f 12
/-- The string table follows the symbol table. -/
def strTab (f : List Byte) : List Byte := f.drop (symPtr f + 18 * nSyms f)

/-! ## Symbols -/

/-- A symbol table entry. -/
structure Ent where
  name : List Byte
  value : Nat
  secNo : Nat
  type : Nat
  cls : Nat
  aux : Nat
  deriving DecidableEq, Repr

/-- A symbol record: the name is inline, or the first four bytes are zero and it is in the string table. -/
def decode (tab rec : List Byte) : Ent :=
  ⟨if u32 rec 0 = 0 then cstr tab (u32 rec 4) else (rec.take 8).takeWhile (· ≠ 0),
   u32 rec 8, u16 rec 12, u16 rec 14, u8 rec 16, u8 rec 17⟩

/-- The 18-byte records of the symbol table. -/
def records (f : List Byte) : List (List Byte) :=
  (List.range (nSyms f)).map (fun k => slice f (symPtr f + 18 * k) 18)

/-- Symbols with their index: from record `k` on, `skip` records are auxiliary. -/
def walk (tab : List Byte) : Nat → Nat → List (List Byte) → List (Nat × Ent)
  | _, _, [] => []
  | k, skip + 1, _ :: r => walk tab (k + 1) skip r
  | k, 0, x :: r => (k, decode tab x) :: walk tab (k + 1) (decode tab x).aux r

/-- All symbols of the file with their symbol table indices. -/
def symbols (f : List Byte) : List (Nat × Ent) := walk (strTab f) 0 0 (records f)

/-! ## Sections -/

/-- Name of section `i` (from 0): inline, or "/" and the decimal offset in the string table. -/
def secName (f : List Byte) (i : Nat) : List Byte :=
  let n := (slice f (20 + 40 * i) 8).takeWhile (· ≠ 0)
  if n.head? = some 0x2f then cstr (strTab f) (undec (n.drop 1)) else n

def secSize (f : List Byte) (i : Nat) : Nat := u32 f (20 + 40 * i + 16)
def secRawPtr (f : List Byte) (i : Nat) : Nat := u32 f (20 + 40 * i + 20)
def secRelPtr (f : List Byte) (i : Nat) : Nat := u32 f (20 + 40 * i + 24)
def secNRel (f : List Byte) (i : Nat) : Nat := u16 f (20 + 40 * i + 32)
def secFlags (f : List Byte) (i : Nat) : Nat := u32 f (20 + 40 * i + 36)

/-- A relocation: address, symbol table index, type. -/
def relAt (f : List Byte) (p : Nat) : Nat × Nat × Nat := (u32 f p, u32 f (p + 4), u16 f (p + 8))

/-- Relocations of section `i`. With IMAGE_SCN_LNK_NRELOC_OVFL (bit 24) and a count field of 0xffff, the address field
of the first record is the number of records. -/
def relocs (f : List Byte) (i : Nat) : List (Nat × Nat × Nat) :=
  if secNRel f i = 0xffff ∧ (secFlags f i).testBit 24 then
    (List.range (u32 f (secRelPtr f i) - 1)).map (fun j => relAt f (secRelPtr f i + 10 + 10 * j))
  else (List.range (secNRel f i)).map (fun j => relAt f (secRelPtr f i + 10 * j))

/-! ## What is expected -/

/-- Entries take 1 + aux indices. -/
def number : Nat → List Ent → List (Nat × Ent)
  | _, [] => []
  | k, e :: r => (k, e) :: number (k + 1 + e.aux) r

/-- Entry of section `i` (from 0). -/
def secEnt (m : Mod) (i : Nat) (s : Sec) : Ent := ⟨s.name, 0, i + 1, 0, 3, if m.opt.noSecAux then 0 else 1⟩

/-- Is the external's entry a weak external with a default resolution (`altname`)? -/
def isAlt (y : Sym) : Bool := !y.isComm && y.altname.isSome

/-- Entry of an external: section 0 (undefined); a communal has its size as value. -/
def extEnt (y : Sym) : Ent :=
  ⟨y.name, (if y.isComm then y.totalSize else y.offset) % 2 ^ 32, 0, if y.isProc then 0x20 else 0,
   if y.state = .external then (if isAlt y then 105 else 2) else if y.isPublic then 2
   else if y.near && !y.isProc then 6 else 3, if isAlt y then 1 else 0⟩

/-- Entry of a symbol of the module: its section number (-1 = absolute) and offset; class external (2) for publics,
label (6) for private near labels, else static (3). -/
def pubEnt (y : Sym) : Ent :=
  ⟨y.name, y.offset % 2 ^ 32, if y.state = .internal then (match y.secNo with | some n => n % 65536 | none => 0xffff) else 0,
   if y.isProc then 0x20 else 0,
   if y.state = .external then (if isAlt y then 105 else 2)
   else if y.isPublic then 2 else if y.near && !y.isProc then 6 else 3, 0⟩

/-- Entry of an alias. -/
def aliasEnt (y : Sym) : Ent := ⟨y.name, 0, 0, 0, 105, 1⟩

/-- The externals that get an entry: unused externdefs (weak) do not. -/
def usedExt (y : Sym) : Bool := y.isComm || !y.weak

/-- The entries of the file: `pubs` are the publics and the other symbols of the module. -/
def expected (m : Mod) (pubs : List Nat) : List Ent :=
  (if m.opt.safeseh then [⟨ascii "@feat.00", 1, 0xffff, 0, 3, 0⟩] else []) ++
  (if m.opt.noFile then [] else [⟨ascii ".file", 0, 0xfffe, 0, 103, auxCount m.file⟩]) ++
  m.secs.mapIdx (secEnt m) ++
  ((m.exts.filter (fun e => usedExt (m.env e))).map (fun e => extEnt (m.env e))) ++
  (pubs.map (fun p => pubEnt (m.env p))) ++
  (m.aliases.map (fun a => aliasEnt (m.env a.1)))

/-! ## Well-formed input -/

/-- A name: not empty, no NUL. -/
def NameOk (n : List Byte) : Prop := n ≠ [] ∧ (0 : Byte) ∉ n

/-- The relocation type of a fixup (coffspec): offset of 16, 32, 64 bits, relative, image relative, section, section relative. -/
def relocTypeOf (use64 : Bool) (f : Fix) : Option Nat :=
  match use64, f.type with
  | true, .relOff32 => some (4 + (f.addbytes - 4))   -- REL32, REL32_1 .. REL32_5
  | true, .off32 => some 2                           -- ADDR32
  | true, .off64 => some 1                           -- ADDR64
  | true, .imgRel => some 3                          -- ADDR32NB
  | false, .relOff16 => some 2                       -- REL16
  | false, .off16 => some 1                          -- DIR16
  | false, .relOff32 => some 0x14                    -- REL32
  | false, .off32 => some 6                          -- DIR32
  | false, .imgRel => some 7                         -- DIR32NB
  | _, .secRel => some 0xB                           -- SECREL
  | _, .seg => some 0xA                              -- SECTION
  | _, _ => none

/-- A section as it occurs: fixups only in sections with data; a section whose data is not written is one the section
table treats as uninitialised; every fixup with a symbol has a supported type and lies in the section. -/
structure SecOk (s : Sec) : Prop where
  name : NameOk s.name
  slash : s.name.length ≤ 8 → s.name.head? ≠ some 0x2f
  fixData : s.fixups ≠ [] → s.size ≠ 0 ∧ skipData s = false
  skip : skipData s = true → s.size ≠ 0 → kind s ≠ .raw
  types : ∀ f ∈ s.fixups, f.sym.isSome → ∃ t, relocTypeOf s.use64 f = some t ∧ t < 65536
  locs : ∀ f ∈ s.fixups, f.locofs < 2 ^ 32
  align : ∀ a, s.alignment = some a → a < 15

/-- A target of a relocation: an assembly-time variable of an existing section, a section, a used external, or a symbol of
the module which, if public or marked as included, is in the public queue. -/
def TargetOk (m : Mod) (f : Fix) (id : Nat) : Prop :=
  if (m.env id).isVar then f.segVar < m.secs.length
  else match (m.env id).state with
    | .seg i => i < m.secs.length
    | .external => id ∈ m.exts ∧ usedExt (m.env id) = true
    | .internal => ((m.env id).isPublic = true ∨ m.included id = true) → id ∈ m.pubs
    | .other => False

structure ModOk (m : Mod) : Prop where
  secs : ∀ s ∈ m.secs, SecOk s
  nsecs : m.secs.length < 0xfffe
  noAuxComdat : m.opt.noSecAux = true → ∀ s ∈ m.secs, s.comdat = 0
  names : ∀ id, NameOk (m.env id).name
  targets : ∀ s ∈ m.secs, ∀ f ∈ s.fixups, ∀ id, f.sym = some id → TargetOk m f id
  pubNodup : m.pubs.Nodup
  extNodup : m.exts.Nodup
  pubMarked : ∀ id ∈ m.pubs, (m.env id).isPublic = true ∨ m.included id = true
  extState : ∀ id ∈ m.exts, (m.env id).state = .external ∧ id ∉ m.pubs
  file : m.file.length < 4000
  junk : m.junk.length = 8
  small : (writeModule m).1.length < 2 ^ 32

/-- The entry a relocation must refer to: with an assembly-time variable or a segment, the section's symbol. -/
def target (m : Mod) (f : Fix) (id : Nat) : Option Ent :=
  let sec (i : Nat) : Option Ent := m.secs[i]?.map (secEnt m i)
  if (m.env id).isVar then sec f.segVar
  else match (m.env id).state with
    | .seg i => sec i
    | .external => some (extEnt (m.env id))
    | .internal => some (pubEnt (m.env id))
    | .other => none

end Verif.Coff
