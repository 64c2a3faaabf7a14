import Verif.Record.Model
namespace Verif.Record.Spec
open Verif.Record

/-- Widths a programmer may write: positive (and far below the 2^31 limit of the
32-bit counter). -/
def Widths (ws : List W) : Prop := ∀ w ∈ ws, 1 ≤ w.toNat ∧ w.toNat ≤ 2 ^ 30

/-- Sum of the widths. -/
def total (ws : List W) : Nat := (ws.map BitVec.toNat).sum

/-- Expected bit position of each field: the widths to its right. -/
def positions : List W → List (Nat × Nat)
  | [] => []
  | w :: ws => (total ws, w.toNat) :: positions ws

/-- Bits of a field. -/
def Has (f : Fld) (i : Nat) : Prop := f.off.toNat ≤ i ∧ i < f.off.toNat + f.width.toNat

/-- Smallest of 1, 2, 4, 8, 16 bytes that holds `n` bits. -/
def IsSize (n s : Nat) : Prop :=
  s ∈ [1, 2, 4, 8, 16] ∧ n ≤ 8 * s ∧ ∀ t ∈ [1, 2, 4, 8, 16], n ≤ 8 * t → s ≤ t

/-- The number in bits `off .. off+w-1` of `x`. -/
def extract (x off w : Nat) : Nat := x / 2 ^ off % 2 ^ w

/-- Field `i` of the record has the value `v`. -/
def value (x : Nat) (f : Fld) : Nat := extract x f.off.toNat f.width.toNat

/-- Intended value of an initialiser: 0 if omitted. -/
def intended : Item → Nat
  | .value v => v.toNat
  | .none => 0

end Verif.Record.Spec

namespace Verif.Record.Spec
open Verif.Record

/-- Pair each field with its initialiser; missing ones count as omitted. -/
def pairs : List Fld → List Item → List (Fld × Item)
  | [], _ => []
  | f :: fs, items => (f, items.headD .none) :: pairs fs items.tail

/-- Every initialiser fits its field. -/
def Fits (ps : List (Fld × Item)) : Prop := ∀ p ∈ ps, intended p.2 < 2 ^ p.1.width.toNat

/-- An omitted initialiser without default is only used where the previously evaluated
one was below 2^32 (for the first field: where the indeterminate memory is). -/
def Clean : BitVec 64 → List (Fld × Item) → Prop
  | _, [] => True
  | _, (_, .value v) :: ps => Clean v ps
  | prev, (_, .none) :: ps => prev.toNat < 2 ^ 32 ∧ Clean 0#64 ps

end Verif.Record.Spec
