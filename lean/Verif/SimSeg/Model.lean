/-! # Model: simplified segment directives — simsegm.c (C82)

`.CODE`, `.DATA`, `.DATA?`, `.CONST`, `.FARDATA`, `.FARDATA?`, `.STACK` and the part of `.MODEL` that opens segments, as
generators of lines.  Pass 1 (later passes repeat the choice of pass 1, `simseg_defd`).  Not modelled: OPTION FLAT,
syntax errors, .DATA? with OPTION FLAT (a warning), the listing. -/
namespace Verif.SimSeg

abbrev Text := List Char

/-- `enum sim_seg` (H/segment.h:61-70). -/
inductive Sim | code | stack | data | dataUn | fardata | fardataUn | const
  deriving DecidableEq, Repr

inductive Model | tiny | small | compact | medium | large | huge | flat
  deriving DecidableEq, Repr

inductive OFmt | bin | omf | coff | elf | macho
  deriving DecidableEq, Repr

/-- What the directives depend on: the memory model, `defOfssize > USE16`, a CPU of at most 386,
`Options.seg_align` (4 by default), the format, `SegmNames`, `GetCodeClass()`, `distance == STACK_FAR`. -/
structure Cfg where
  model : Model
  use32 : Bool
  le386 : Bool
  segAlign : Nat
  fmt : OFmt
  names : Sim → Text
  codeClass : Text
  farStack : Bool

/-- Attributes of a SEGMENT directive: alignment, USE, combine type, class. -/
structure Attr where
  align : Text
  use : Text
  comb : Text
  cls : Text
  deriving DecidableEq, Repr

/-- Lines that are queued (AddLineQueueX). -/
inductive Line
  | segment (n : Text) (a : Option Attr)
  | ends (n : Text)
  | group (n : Text)
  | assumeCs (t : Text)
  | org (n : Nat)
  deriving DecidableEq, Repr

/-- `SegmClass`, `SegmCombine` (simsegm.c:37-42). -/
def segmClass : Sim → Text
  | .code => "CODE".toList | .stack => "STACK".toList | .data => "DATA".toList | .dataUn => "BSS".toList
  | .fardata => "FAR_DATA".toList | .fardataUn => "FAR_BSS".toList | .const => "CONST".toList

def segmCombine : Sim → Text
  | .stack => "STACK".toList
  | .fardata | .fardataUn => "PRIVATE".toList
  | _ => "PUBLIC".toList

/-- `ALIGN(n)` (simsegm.c:105). -/
def alignText (k : Nat) : Text := "ALIGN(".toList ++ (toString (2 ^ k)).toList ++ ")".toList

/-- The attributes SetSimSeg writes (simsegm.c:95-133). -/
def attrs (c : Cfg) (s : Sim) : Attr :=
  let st0 := if c.segAlign ≠ 4 then alignText c.segAlign else "PARA".toList
  let a32 := if c.segAlign ≠ 4 then alignText c.segAlign
    else if c.le386 then "DWORD".toList else "PARA".toList
  let al := if c.use32 then a32 else "WORD".toList
  let st := if c.use32 then a32 else st0
  { align := if s = .stack ∨ s = .fardata ∨ s = .fardataUn then st else al
    use := if c.use32 then (if c.model = .flat then "FLAT".toList else "USE32".toList) else []
    comb := segmCombine s
    cls := if s = .code then c.codeClass else segmClass s }

/-- SetSimSeg (simsegm.c:88-202): `isDef n` is SymSearch with `state == SYM_SEG && isdefined`.  Returns the line and
the bits `simseg_init`. -/
def setSimSeg (c : Cfg) (isDef : Text → Bool) (init : Sim → Bool) (s : Sim) (name : Option Text) :
    Line × (Sim → Bool) :=
  match name with
  | none =>
    if init s then (.segment (c.names s) none, init)
    else (.segment (c.names s) (if isDef (c.names s) then none else some (attrs c s)),
      fun t => if t = s then true else init t)
  | some n => (.segment n (if isDef n then none else some (attrs c s)), init)

/-- AddToDgroup (simsegm.c:61-75). -/
def addToDgroup (c : Cfg) (s : Sim) (name : Option Text) : List Line :=
  if c.model = .flat ∨ c.fmt = .coff ∨ c.fmt = .elf then [] else [.group (name.getD (c.names s))]

/-- close_currseg (simsegm.c:78-85); `cur` is the name of CurrSeg. -/
def closeCurr : Option Text → List Line
  | none => []
  | some n => [.ends n]

/-- A simplified segment directive: with a name, and for `.STACK` with a size. -/
inductive Dir
  | seg (s : Sim) (name : Option Text)
  | stack (size : Option Nat)
  deriving DecidableEq, Repr

/-- SimplifiedSegDir (simsegm.c:274-345).  `.seg .stack _` does not occur. -/
def directive (c : Cfg) (isDef : Text → Bool) (cur : Option Text) (init : Sim → Bool) :
    Dir → List Line × (Sim → Bool)
  | .stack size =>
    let r := setSimSeg c isDef init .stack none
    ([r.1, .org (size.getD 1024), .ends (c.names .stack)] ++
      (if !init .stack && !c.farStack then addToDgroup c .stack none else []), r.2)
  | .seg s name =>
    let r := setSimSeg c isDef init s name
    (closeCurr cur ++ r.1 ::
      (match s with
      | .code =>
        (if c.model = .tiny ∧ name.isSome then addToDgroup c .code name else []) ++
        [.assumeCs (if c.model = .tiny then "DGROUP".toList else if c.model = .flat then "FLAT".toList
          else name.getD (c.names .code))]
      | .data | .dataUn | .const =>
        .assumeCs "ERROR".toList :: (if name.isSome || !init s then addToDgroup c s name else [])
      | _ => [.assumeCs "ERROR".toList]), r.2)

/-- ModelSimSegmInit (simsegm.c:385-415): the lines, with the symbols as they are before. -/
def modelInit (c : Cfg) (isDef : Text → Bool) : List Line × (Sim → Bool) :=
  let r1 := setSimSeg c isDef (fun _ => false) .code none
  let r2 := setSimSeg c isDef r1.2 .data none
  ([r1.1, .ends (c.names .code), r2.1, .ends (c.names .data)] ++
    (if c.model ≠ .flat ∧ (c.fmt = .omf ∨ c.fmt = .bin) then
      (if c.model = .tiny then [.group (c.names .code)] else []) ++ [.group (c.names .data)] else []), r2.2)

end Verif.SimSeg
