/-
Model of RECORD types: types.c `RecordDirective`; expreval.c `GetRecordMask`,
`wimask_op`; data.c `ShiftLeft` and the bit-field part of `InitStructuredVar`.
-/
namespace Verif.Record

/-- A 32-bit C integer. -/
abbrev W := BitVec 32

/-- A bit field: `sym.offset` (bit position) and `sym.total_size` (width). -/
structure Fld where
  off : W
  width : W
deriving DecidableEq, Repr

/-- A RECORD type: fields in order of declaration, size in bytes. -/
structure Rec where
  fields : List Fld
  size : Nat
deriving DecidableEq, Repr

/-- The width loop (types.c 1822-1921): `cntBits` after all fields, `none` if
TOO_FEW_BITS / TOO_MANY_BITS was reported.  `opndx.value` is a signed 32-bit integer and
so is the sum.  Simplified: field names (which must be new global names) and default
initialisers are left out. -/
def countBits (cnt : W) : List W → Option W
  | [] => some cnt
  | v :: vs =>
      if v = 0 then none
      else if (128 : W).slt (v + cnt) then none
      else countBits (cnt + v) vs

/-- Size selection (types.c 1925-1950); signed comparisons. -/
def recSize (cnt : W) : Nat :=
  if (16 : W).slt cnt then
    if (64 : W).slt cnt then 16
    else if (32 : W).slt cnt then 8
    else 4
  else if (8 : W).slt cnt then 2
  else 1

/-- Bit positions (types.c 1955-1958). -/
def setPos (cnt : W) : List W → List Fld
  | [] => []
  | v :: vs => ⟨cnt - v, v⟩ :: setPos (cnt - v) vs

/-- `RecordDirective`, pass 1, first definition (types.c 1777-1975).  The loop is a
`do ... while`, so at least one field is required. -/
def define (ws : List W) : Option Rec :=
  if ws = [] then none
  else (countBits 0 ws).map fun cnt => ⟨setPos cnt ws, recSize cnt⟩

/-- The bits set by `for( i = offset; i < offset + total_size; i++ ) mask |= 1ULL << i`
(expreval.c 2506-2509, 790-795).  The comparison is unsigned (`uint_32`).  A shift
count above 63 is undefined in C; the model takes the x86-64 behaviour (count mod 64). -/
def fieldMask (f : Fld) : BitVec 64 :=
  (List.range ((f.off + f.width).toNat - f.off.toNat)).foldl
    (fun m j => m ||| ((1#64) <<< ((f.off.toNat + j) % 64))) 0#64

/-- `GetRecordMask` (expreval.c 773-800). -/
def recMask (r : Rec) : BitVec 64 := r.fields.foldl (fun m f => m ||| fieldMask f) 0#64

/-- WIDTH of a field and of a record (expreval.c 2518-2526). -/
def fieldWidth (f : Fld) : W := f.width
/-- WIDTH of a record type (expreval.c 2520-2523). -/
def recWidth (r : Rec) : W := r.fields.foldl (fun a f => a + f.width) 0

/-- `ShiftLeft` (data.c 95-113): new (hi, lo).  `num >> ~pos` has a negative count; on
x86-64 the count is taken mod 64, i.e. `63 - pos`. -/
def shiftLeft128 (num : BitVec 64) (pos : Nat) : BitVec 64 × BitVec 64 :=
  if pos ≥ 64 then (num <<< ((pos - 64) % 64), 0#64)
  else (num >>> (63 - pos), num <<< pos)

/-- 128-bit MASK of a field, used when the first operand is an XMM register
(expreval.c 2494-2503). -/
def fieldMask128 (f : Fld) : BitVec 64 × BitVec 64 :=
  (List.range ((f.off + f.width).toNat - f.off.toNat)).foldl
    (fun m j => (m.1 ||| (shiftLeft128 1#64 (f.off.toNat + j)).1,
                 m.2 ||| (shiftLeft128 1#64 (f.off.toNat + j)).2)) (0#64, 0#64)

/-- An initialiser of a bit field: a value (written or the field's default), or
nothing at all. -/
inductive Item
  | value (v : BitVec 64)
  | none
deriving DecidableEq, Repr

/-- Evaluation of one initialiser (data.c 306-321).  `prev` is the content of `opndx`
left by the previous evaluation: when there is neither value nor default only the low
half is cleared (`opndx.value = 0`; `value` is the low half of `llvalue`). -/
def evalItem (prev : BitVec 64) : Item → BitVec 64
  | .value v => v
  | .none => prev &&& 0xFFFFFFFF00000000#64

/-- Range check (data.c 328-332): only for widths below 32, on the low half, with
`dwMax` unsigned. -/
def tooLarge (f : Fld) (v : BitVec 64) : Bool :=
  decide (f.width < 32) && decide ((1#32) <<< f.width.toNat ≤ v.setWidth 32)

/-- The bit-field loop of `InitStructuredVar` (data.c 287-343) for records of up to 64
bits: accumulated value, `none` on INITIALIZER_MAGNITUDE_TOO_LARGE.  Missing trailing
initialisers count as `Item.none`. -/
def initLoop (acc prev : BitVec 64) : List Fld → List Item → Option (BitVec 64)
  | [], _ => some acc
  | f :: fs, items =>
      let v := evalItem prev (items.headD .none)
      if tooLarge f v then none
      else initLoop (acc ||| (v <<< (f.off.toNat % 64))) v fs items.tail

/-- The same loop for OWORD records (data.c 333-339): (hi, lo). -/
def initLoop128 (acc : BitVec 64 × BitVec 64) (prev : BitVec 64) :
    List Fld → List Item → Option (BitVec 64 × BitVec 64)
  | [], _ => some acc
  | f :: fs, items =>
      let v := evalItem prev (items.headD .none)
      if tooLarge f v then none
      else
        let s := shiftLeft128 v f.off.toNat
        initLoop128 (acc.1 ||| s.1, acc.2 ||| s.2) v fs items.tail

/-- Value stored for a record initialiser (data.c 265-270, 443-470) as one 128-bit
number; `prev` is the indeterminate initial content of `opndx`.  `OutputDataBytes`
writes the low `size` bytes. -/
def initRecord (r : Rec) (prev : BitVec 64) (items : List Item) : Option (BitVec 128) :=
  if r.size = 16 then (initLoop128 (0#64, 0#64) prev r.fields items).map fun p => p.1 ++ p.2
  else (initLoop 0#64 prev r.fields items).map fun v => (v.setWidth (8 * r.size)).setWidth 128

end Verif.Record
