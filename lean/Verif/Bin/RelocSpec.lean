import Verif.Bin.RelocModel
/-! # Specification: the PE base relocation table (PE/COFF specification, ".reloc section") -/
namespace Verif.Bin.Spec
open Verif.Bin

/-- One relocation: image-relative address and type (never 0 = IMAGE_REL_BASED_ABSOLUTE). -/
abbrev Reloc := W × BitVec 16

/-- An entry word of a block for the page at `va`: type in the top 4 bits, page offset in the low 12;
type 0 is padding. -/
def entry (va : W) (w : BitVec 16) : Option Reloc :=
  if w >>> 12 = 0 then none else some (va + (w &&& 0xfff).setWidth 32, w >>> 12)

/-- `Table mem P e pos l`: the words `pos … e-1` of `mem` are a sequence of well formed blocks — each
starting on a 4-byte boundary, with its size in bytes (header included) in the second field — which
describe the relocations `l`; every block's address satisfies `P`. -/
inductive Table (mem : Nat → BitVec 16) (P : W → Prop) (e : Nat) : Nat → List Reloc → Prop
  | done : Table mem P e e []
  | block (pos n : Nat) (rest : List Reloc) :
      pos % 2 = 0 → get32 mem (pos + 2) = BitVec.ofNat 32 (8 + 2 * n) → 8 + 2 * n < 2 ^ 32 → 
      P (get32 mem pos) →
      Table mem P e (pos + (4 + n)) rest →
      Table mem P e pos (((List.range n).map (fun i => mem (pos + 4 + i))).filterMap
        (entry (get32 mem pos)) ++ rest)

/-- The relocation type for a fixup that stores an image address (PE specification, "Base relocation
types": LOW = 2, HIGHLOW = 3, DIR64 = 10); other fixups do not depend on the load address. -/
def kind : FixType → Option (BitVec 16)
  | .off16 => some 2
  | .off32 => some 3
  | .off64 => some 10
  | _ => none

/-- The places of a segment that hold image addresses (16-, 32- or 64-bit offsets) and must be relocated. -/
def needed (s : RSeg) : List Reloc :=
  if s.hdr then [] else s.fixups.filterMap (fun f => (kind f.type).map (fun t => (s.startOffset + f.locofs, t)))

/-- All places that must be relocated, in order. -/
def allNeeded (segs : List RSeg) : List Reloc := segs.flatMap needed

/-- All fixup locations lie below the address 0xFFFFFFFF. -/
def Fits (segs : List RSeg) : Prop :=
  ∀ s ∈ segs, ∀ f ∈ s.fixups, s.startOffset.toNat + f.locofs.toNat < 2 ^ 32 - 1

end Verif.Bin.Spec
