/-
Model of structure / union layout: types.c `StructDirective`, `CreateStructField`,
`AlignInStruct`, `UpdateStructSize`, `SetStructCurrentOffset`, `EndstructDirective`,
`SearchNameInStruct`, `CheckAnonymousStruct`.
`offset` is a C `int_32`, `total_size` and `max_mbr_size` are `uint_32`: all are
`BitVec 32` here, with the signedness of each comparison kept as in the source.
-/
namespace Verif.Struct

/-- A 32-bit C integer (`int_32` / `uint_32`). -/
abbrev W := BitVec 32

/-- Names after case folding (`SymCmpFunc`); `[]` is the anonymous name `""`. -/
abbrev Name := List Char

/-- What is kept of a struct type once it is closed (H/symbols.h `struct asym`
`total_size`, `max_mbr_size`, `typekind`; `struct struct_info` `alignment`). -/
structure Hdr where
  isUnion : Bool
  align : W
  total : W
  maxMbr : W
deriving DecidableEq, Repr

/-- `struct sfield` list (H/symbols.h `struct struct_info.head`).  A `leaf` is a field
with a simple type (`size` is the item size, `total` is `sym.total_size`); a `node`
is a field whose type is a STRUCT/UNION with header `hd` and fields `sub`. -/
inductive Flds
  | nil
  | leaf (name : Name) (size off total : W) (rest : Flds)
  | node (name : Name) (off total : W) (hd : Hdr) (sub rest : Flds)
deriving DecidableEq, Repr

/-- An open structure: one element of the `CurrStruct` chain (types.c 345-354). -/
structure Open where
  isUnion : Bool
  name : Name
  align : W
  offset : W
  total : W
  maxMbr : W
  org : Bool
  fields : Flds
deriving DecidableEq, Repr

/-- A closed top-level type. -/
structure Closed where
  hd : Hdr
  fields : Flds
deriving DecidableEq, Repr

/-- The assembler's struct state: the `CurrStruct` chain, innermost first, and the
types defined so far. -/
structure St where
  opens : List Open
  types : List Closed
deriving DecidableEq, Repr

/-- A source line inside (or opening/closing) a structure definition. -/
inductive Op
  /-- `name STRUCT/UNION [alignment]` or, inside another one, `STRUCT/UNION [name]`;
  `fa` is `ModuleInfo.fieldalign` (log2). -/
  | begin (isUnion : Bool) (name : Name) (arg : Option W) (fa : Fin 6)
  /-- data field: item size and total size as computed by `data_item` -/
  | field (name : Name) (size total : W)
  /-- field of structured type number `k` with `count` items -/
  | typed (name : Name) (k : Nat) (count : W)
  /-- `ALIGN n` / `EVEN` with `n = 2^k` (posndir.c 214-244 has checked that) -/
  | align (k : Fin 31)
  | org (o : W)
  | ends
deriving DecidableEq, Repr

/-- `(x + (s-1)) & (-s)` (types.c 1347-1350, 1405, 1092). -/
def alignUp (x s : W) : W := (x + (s - 1)) &&& (-s)

/-- `SearchNameInStruct` (types.c 83-120).  Outer `none`: NESTING_LEVEL_TOO_DEEP was
reported.  The level is checked when a sub-structure is entered. -/
def search (lvl : Nat) (n : Name) : Flds → Option (Option (W × W))
  | .nil => some none
  | .leaf nm _ off tot rest =>
      if nm ≠ [] ∧ n = nm then some (some (off, tot)) else search lvl n rest
  | .node nm off tot _ sub rest =>
      if nm = [] then
        if lvl + 1 ≥ 32 then none
        else match search (lvl + 1) n sub with
          | none => none
          | some (some (o, t)) => some (some (o + off, t))
          | some none => search lvl n rest
      else if n = nm then some (some (off, tot)) else search lvl n rest

/-- `CheckAnonymousStruct` (types.c 1169-1192): `true` when no member name of the
anonymous member collides with a name visible in `cur`. -/
def checkAnon (cur : Flds) : Flds → Bool
  | .nil => true
  | .leaf nm _ _ _ rest =>
      (nm == [] || search 0 nm cur == some none) && checkAnon cur rest
  | .node nm _ _ _ sub rest =>
      (if nm = [] then checkAnon cur sub else search 0 nm cur == some none) && checkAnon cur rest

/-- Append a field (types.c 1306-1312). -/
def Flds.append : Flds → Flds → Flds
  | .nil, x => x
  | .leaf n s o t r, x => .leaf n s o t (r.append x)
  | .node n o t h s r, x => .node n o t h s (r.append x)

/-- Offset of a new field: the alignment step (types.c 1329, 1346-1350). -/
def fieldOffset (o : Open) (size : W) : W :=
  if 1 < o.align then
    if o.align < size then alignUp o.offset o.align
    else if size ≠ 0 then alignUp o.offset size
    else o.offset
  else o.offset

/-- Update of the open structure by `CreateStructField` (types.c 1329-1368): note the
unsigned comparison of `offset` with `total_size` (`int_32 > uint_32`). -/
def place (o : Open) (size : W) (f : W → Flds) : Open :=
  let off := fieldOffset o size
  { o with
    offset := if 1 < o.align ∧ o.isUnion = false then off else o.offset
    total := if 1 < o.align ∧ o.isUnion = false ∧ o.total < off then off else o.total
    maxMbr := if o.maxMbr < size then size else o.maxMbr
    fields := o.fields.append (f off) }

/-- Name checks of `CreateStructField` (types.c 1221-1242). -/
def nameOk (o : Open) (name : Name) (sub : Flds) : Bool :=
  if name = [] then checkAnon o.fields sub else search 0 name o.fields == some none

/-- `UpdateStructSize` (types.c 1415-1427); the second comparison is signed. -/
def updateSize (o : Open) (t : W) : Open :=
  if o.isUnion then { o with total := if o.total < t then t else o.total }
  else { o with
    offset := o.offset + t
    total := if o.total.slt (o.offset + t) then o.offset + t else o.total }

/-- `AlignInStruct` (types.c 1399-1411); unsigned comparison. -/
def alignIn (o : Open) (v : W) : Open :=
  if o.isUnion then o
  else { o with
    offset := alignUp o.offset v
    total := if o.total < alignUp o.offset v then alignUp o.offset v else o.total }

/-- Smallest (negative) field offset, 0 if none (types.c 1077-1080). -/
def minOff : Flds → W → W
  | .nil, m => m
  | .leaf _ _ off _ rest, m => minOff rest (if off.slt m then off else m)
  | .node _ off _ _ _ rest, m => minOff rest (if off.slt m then off else m)

/-- Final size: ORG correction and padding (types.c 1075-1094). -/
def closeHdr (o : Open) : Hdr :=
  let t := if o.org then o.total - minOff o.fields 0 else o.total
  let s0 := if o.maxMbr = 0 then 1 else o.maxMbr
  let s := if o.align < s0 then o.align else s0
  { isUnion := o.isUnion, align := o.align, maxMbr := o.maxMbr,
    total := if 1 < o.align then alignUp t s else t }

/-- The `for( power = 1; power < value; power <<= 1 )` loop (types.c 236), unrolled to
the values that get past `value <= MAX_STRUCT_ALIGN` = 32. -/
def powerLoop (v : W) : Nat → W → W
  | 0, p => p
  | n + 1, p => if p.slt v then powerLoop v n (p <<< (1 : Nat)) else p

/-- Alignment of a top-level structure (types.c 188, 219-241); `none`: error. -/
def topAlign (arg : Option W) (fa : Fin 6) : Option W :=
  match arg with
  | none => some ((1 : W) <<< fa.val)
  | some v =>
      if (32 : W).slt v then none
      else if powerLoop v 6 1 = v then some v else none

/-- `StructDirective`, pass 1 (types.c 166-360).  Simplified: redefinition of an
existing top-level type (accepted only when equal) and the name of a top-level type
are not modelled; the embedded form takes no alignment argument (types.c 219). -/
def beginStruct (st : St) (isUnion : Bool) (name : Name) (arg : Option W) (fa : Fin 6) : Option St :=
  match st.opens with
  | [] => (topAlign arg fa).map fun a =>
      ⟨[⟨isUnion, name, a, 0, 0, 0, false, .nil⟩], st.types⟩
  | o :: os =>
      if arg.isSome then none
      else if name ≠ [] ∧ search 0 name o.fields ≠ some none then none
      else some ⟨⟨isUnion, name, o.align, 0, 0, 0, false, .nil⟩ :: o :: os, st.types⟩

/-- One line (data.c 1379-1390, 1562 for data fields; posndir.c 244 and types.c for the
others).  `none`: an error was reported. -/
def step (st : St) (op : Op) : Option St :=
  match op with
  | .begin u n arg fa => beginStruct st u n arg fa
  | .field n size tot =>
      match st.opens with
      | [] => none
      | o :: os =>
          if nameOk o n .nil then
            some ⟨updateSize (place o size fun off => .leaf n size off tot .nil) tot :: os, st.types⟩
          else none
  | .typed n k count =>
      match st.opens, st.types[k]? with
      | o :: os, some c =>
          if nameOk o n c.fields then
            some ⟨updateSize (place o c.hd.maxMbr fun off =>
                .node n off (count * c.hd.total) c.hd c.fields .nil) (count * c.hd.total) :: os,
              st.types⟩
          else none
      | _, _ => none
  | .align k =>
      match st.opens with
      | [] => none
      | o :: os => some ⟨alignIn o ((1 : W) <<< k.val) :: os, st.types⟩
  | .org x =>
      match st.opens with
      | [] => none
      | o :: os =>
          if o.isUnion then none
          else
            let o' : Open := { o with offset := x, org := true, total := if o.total.slt x then x else o.total }
            some ⟨o' :: os, st.types⟩
  | .ends =>
      match st.opens with
      | [] => none
      | [o] => some { opens := [], types := st.types ++ [⟨closeHdr o, o.fields⟩] }
      | o :: p :: os =>
          if nameOk p o.name o.fields then
            let h := closeHdr o
            let q := place p h.maxMbr fun off => .node o.name off h.total h o.fields .nil
            let q := { q with maxMbr := if q.maxMbr < h.maxMbr then h.maxMbr else q.maxMbr }
            some ⟨updateSize q h.total :: os, st.types⟩
          else none

/-- A whole source: all lines in order, stopping at the first error. -/
def run (st : St) : List Op → Option St
  | [] => some st
  | op :: ops => (step st op).bind fun st' => run st' ops

/-- Start of an assembly. -/
def init : St := ⟨[], []⟩

end Verif.Struct
