import Verif.Struct.Model
/-
What a programmer expects of a structure type, in plain natural numbers.
-/
namespace Verif.Struct.Spec
open Verif.Struct

/-- A direct member: natural (alignment) size, offset, number of bytes. -/
structure Entry where
  size : Nat
  off : Nat
  bytes : Nat
deriving DecidableEq, Repr

/-- The direct members of a structure, in order.  The natural size of a structured
member is the size of its largest element. -/
def entries : Flds → List Entry
  | .nil => []
  | .leaf _ s o t r => ⟨s.toNat, o.toNat, t.toNat⟩ :: entries r
  | .node _ o t h _ r => ⟨h.maxMbr.toNat, o.toNat, t.toNat⟩ :: entries r

/-- `n` is a power of two. -/
def Pow2 (n : Nat) : Prop := ∃ k, n = 2 ^ k

/-- The required layout of one structure type with alignment `a`, `total` bytes and
largest element `mx`. -/
structure Layout (isUnion : Bool) (a total mx : Nat) (es : List Entry) : Prop where
  /-- all members lie inside -/
  inside : ∀ e ∈ es, e.off + e.bytes ≤ total
  /-- STRUCT: members in order, no overlap -/
  ordered : isUnion = false → es.Pairwise fun x y => x.off + x.bytes ≤ y.off
  /-- UNION: every member at offset 0 -/
  overlay : isUnion = true → ∀ e ∈ es, e.off = 0
  /-- members aligned to the smaller of their natural size and the alignment -/
  aligned : ∀ e ∈ es, Pow2 e.size → min e.size a ∣ e.off
  /-- the largest element is the largest one -/
  largest : (∀ e ∈ es, e.size ≤ mx) ∧ (mx = 0 ∨ ∃ e ∈ es, e.size = mx)
  /-- the size is padded to the smaller of the largest element and the alignment -/
  padded : Pow2 mx → min mx a ∣ total
  /-- UNION: the size is the largest member, plus padding only -/
  unionSize : isUnion = true →
    total = 0 ∨ ∃ e ∈ es, total < e.bytes + max 1 (min mx a)

/-- Where the bytes allocated so far end. -/
def endOf (p : Nat) : List Entry → Nat
  | [] => p
  | e :: es => endOf (e.off + e.bytes) es

/-- Each member starts less than one alignment unit after the end of the previous one. -/
def Gaps (a p : Nat) : List Entry → Prop
  | [] => True
  | e :: es => e.off < p + max 1 (min e.size a) ∧ Gaps a (e.off + e.bytes) es

/-- No byte is wasted beyond what alignment requires.  Together with `Layout.aligned`
and `Layout.ordered` this fixes the offset of every member whose natural size is a
power of two: it is the least suitable multiple. -/
def Tight (isUnion : Bool) (a total mx : Nat) (es : List Entry) : Prop :=
  isUnion = false → Gaps a 0 es ∧ total < endOf 0 es + max 1 (min mx a)

/-- `P` holds for all structures nested in a member list. -/
def Nested (P : Hdr → List Entry → Prop) : Flds → Prop
  | .nil => True
  | .leaf _ _ _ _ r => Nested P r
  | .node _ _ _ h s r => (P h (entries s) ∧ Nested P s) ∧ Nested P r

/-- `Layout` of a type header and its members. -/
def LayoutOf (h : Hdr) (es : List Entry) : Prop :=
  Layout h.isUnion h.align.toNat h.total.toNat h.maxMbr.toNat es

/-- `Tight` of a type header and its members. -/
def TightOf (h : Hdr) (es : List Entry) : Prop :=
  Tight h.isUnion h.align.toNat h.total.toNat h.maxMbr.toNat es

/-- Names visible in a structure with the byte range each denotes: members of
anonymous members are visible too, at the sum of the offsets. -/
def visible : Flds → List (Name × Nat × Nat)
  | .nil => []
  | .leaf n _ o t r => (if n = [] then [] else [(n, o.toNat, t.toNat)]) ++ visible r
  | .node n o t _ s r =>
      (if n = [] then (visible s).map fun x => (x.1, x.2.1 + o.toNat, x.2.2)
       else [(n, o.toNat, t.toNat)]) ++ visible r

/-- Bytes a line declares in the current state. -/
def declared (st : St) : Op → Nat
  | .field _ _ t => t.toNat
  | .typed _ k c => c.toNat * (st.types[k]?.elim 0 fun d => d.hd.total.toNat)
  | .align k => 2 ^ k.val
  | .ends => st.opens.head?.elim 0 fun o => o.total.toNat
  | _ => 0

/-- Offset at which the line takes effect. -/
def position (st : St) : Op → Nat
  | .ends => (st.opens.drop 1).head?.elim 0 fun o => max o.offset.toNat o.total.toNat
  | _ => st.opens.head?.elim 0 fun o => max o.offset.toNat o.total.toNat

/-- The definition stays below 2 GB: at every line the current size plus what the line
declares (plus room for padding) is below 2^31. -/
def Small (st : St) : List Op → Prop
  | [] => True
  | op :: ops => position st op + declared st op + 64 < 2 ^ 31 ∧
      ∀ st', step st op = some st' → Small st' ops

/-- No `ORG` line. -/
def NoOrg (ops : List Op) : Prop := ∀ op ∈ ops, ∀ x, op ≠ .org x

/-- No `ALIGN` / `EVEN` line. -/
def NoAlign (ops : List Op) : Prop := ∀ op ∈ ops, ∀ k, op ≠ .align k

end Verif.Struct.Spec
