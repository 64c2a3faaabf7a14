import Verif.Equate.Spec
/-! # Model of equate.c and fastpass.c

What is modelled: the symbol fields that hold the value of a numeric equate or label, the directives `=`
(`CreateAssemblyTimeVariable`), `EQU` with a numeric value (`CreateConstant`), `SIZESTR`/`INSTR` (`CreateVariable`),
labels (`CreateLabel`), the line store with `SaveState`, `SaveVariableState` and `RestoreState`, and the passes
(`OnePass`).  Not modelled: text macros (an `EQU` without numeric value is an error of the model), predefined symbols,
externals, local labels, types, the flags `isdefined`, `fwdref` and `mem_type`, backpatching, and phase errors. -/
namespace Verif.Equate

/-- `struct asym` of an internal symbol (H/symbols.h 146-260): `value`/`offset` is a union, so is `value3264`/`total_size`
(a code label has size 0). -/
structure Sym where
  value : BitVec 32 := 0
  hi : BitVec 32 := 0
  segment : Option Nat := none
  isequate : Bool := false
  isvar : Bool := false
  issaved : Bool := false
  asmpass : Nat := 0
  deriving DecidableEq, Repr

/-- State of the assembler.  `syms x = none`: there is no symbol, or it is `SYM_UNDEFINED`. -/
structure St (E : Type) where
  syms : Name → Option Sym := fun _ => none
  storeState : Bool := false
  useSaved : Bool := false
  store : List (Nat × Line E) := []
  equs : List (Name × BitVec 32 × BitVec 32) := []
  err : Bool := false
  outs : List (Option Val) := []

variable {E : Type}

/-- `get_operand` (expreval.c 1241-1257): an internal symbol without segment is a number, else an address. -/
def Sym.view (s : Sym) : Val :=
  match s.segment with
  | none => .const (s.hi ++ s.value)
  | some g => .addr g s.value

/-- The values the evaluator sees. -/
def St.view (st : St E) : Env := fun x => (st.syms x).map Sym.view

def St.setSym (st : St E) (x : Name) (s : Sym) : St E :=
  { st with syms := fun y => if y = x then some s else st.syms y }

/-- `EmitErr` -/
def St.fail (st : St E) : St E := { st with err := true }

/-- `FStoreLine` (H/fastpass.h 83), `StoreLine` and `SaveState` (fastpass.c 49-118): in the first pass only.  The saved
segment, assume, context and module state is not modelled. -/
def storeLine (p i : Nat) (l : Line E) (st : St E) : St E :=
  if p = 0 then
    if st.storeState then { st with store := st.store ++ [(i, l)] }
    else { st with storeState := true, useSaved := true, equs := [], store := st.store ++ [(i, l)] }
  else st

/-- `SaveVariableState` (fastpass.c 139-161) -/
def saveVar (x : Name) (s : Sym) (st : St E) : St E :=
  { st.setSym x { s with issaved := true } with equs := st.equs ++ [(x, s.value, s.hi)] }

/-- `SetValue` (equate.c 55-117) -/
def setValue (s : Sym) : Res → Sym
  | .const v => { s with isequate := true, value := v.setWidth 32, hi := (v >>> 32).setWidth 32, segment := none }
  | .addr g b a => { s with isequate := true, value := b + a.setWidth 32, hi := 0, segment := some g }
  | _ => s

/-- The low and high words of `struct expr` (expreval.h): for an address these are the words of the added number. -/
def Res.lo : Res → BitVec 32
  | .const v => v.setWidth 32
  | .addr _ _ a => a.setWidth 32
  | _ => 0
def Res.hiw : Res → BitVec 32
  | .const v => (v >>> 32).setWidth 32
  | .addr _ _ a => (a >>> 32).setWidth 32
  | _ => 0

/-- End of `CreateAssemblyTimeVariable` (equate.c 199-257): the symbol is created, or changed if it may be changed; the
value of a symbol that existed when the line store was started is saved before its first change. -/
def assignVar (x : Name) (r : Res) (st : St E) : St E :=
  match st.syms x with
  | none => st.setSym x (setValue { issaved := st.storeState, isvar := true } r)
  | some s =>
    if s.isvar = false ∧ (r.lo ≠ s.value ∨ r.hiw ≠ s.hi) then st.fail
    else if st.storeState ∧ s.issaved = false then
      (saveVar x s st).setSym x (setValue { s with issaved := true, isvar := true } r)
    else st.setSym x (setValue { s with isvar := true } r)

/-- `CreateVariable` (equate.c 287-335) -/
def createVariable (x : Name) (n : BitVec 32) (st : St E) : St E :=
  match st.syms x with
  | none => st.setSym x { value := n, issaved := st.storeState, isvar := true, isequate := true }
  | some s =>
    if s.isequate = false then st.fail
    else if st.storeState ∧ s.issaved = false then
      (saveVar x { s with hi := 0 } st).setSym x
        { s with hi := 0, value := n, issaved := true, isvar := true, isequate := true }
    else st.setSym x { s with hi := 0, value := n, isvar := true, isequate := true }

/-- Comparison of the value of a constant with its value in the same pass (equate.c 505-523). -/
def sameValue (s : Sym) : Res → Bool
  | .const v => s.value = v.setWidth 32 ∧ s.hi = (v >>> 32).setWidth 32
  | .addr g b a => s.value = b + a.setWidth 32 ∧ s.segment = some g
  | _ => true

/-- `CreateConstant` with a numeric value (equate.c 350-541); the storing is in `PreprocessLine` (preproc.c 1207-1222). -/
def createConstant (p i : Nat) (l : Line E) (x : Name) (r : Res) (st : St E) : St E :=
  let store (st : St E) : St E := if st.storeState then storeLine p i l st else st
  match st.syms x with
  | none => store (st.setSym x (setValue { asmpass := p % 256 } r))
  | some s =>
    if s.isequate = false then st.fail
    else if s.asmpass = p % 256 ∧ sameValue s r = false then st.fail
    else store (st.setSym x (setValue { s with asmpass := p % 256, isvar := false } r))

/-- `CreateLabel` (label.c 75-190): in the first pass the name must be new. -/
def createLabel (p : Nat) (x : Name) (g : Nat) (ofs : BitVec 32) (st : St E) : St E :=
  match st.syms x with
  | none => st.setSym x { value := ofs, segment := some g, asmpass := p % 256 }
  | some s =>
    if p = 0 then st.fail
    else st.setSym x { s with value := ofs, segment := some g, asmpass := p % 256 }

/-- What is done with the result of an expression: `bad` if it is an error, `undef` if it has a forward reference. -/
def Res.handle {α : Type} (r : Res) (bad undef : α) (f : Res → α) : α :=
  if r = .bad then bad else if r = .undef then undef else f r

/-- One line: `PreprocessLine` for `EQU`, `ParseLine` (parser.c 3200-3437) for the others.  A forward reference
(`get_operand`, expreval.c 1131-1176) is an error after the first pass.  Data items and instructions store their line
(data.c 1400, parser.c 3437), directives do if the line store has been started (parser.c 3277); `=` with a forward reference
starts it (equate.c 170-184). -/
def step (W : World E) (p i : Nat) (l : Line E) (st : St E) : St E :=
  match l with
  | .assign x e =>
    let st := if st.storeState then storeLine p i l st else st
    (W.ev p i e st.view).handle st.fail
      (if p = 0 then (if st.storeState then st else storeLine p i l st) else st.fail)
      (fun r => assignVar x r st)
  | .equ x e =>
    (W.ev p i e st.view).handle st.fail st.fail (fun r => createConstant p i l x r st)
  | .strvar x n =>
    createVariable x n (if st.storeState then storeLine p i l st else st)
  | .label x => storeLine p i l (createLabel p x (W.loc p i).1 (W.loc p i).2 st)
  | .use e =>
    let st := storeLine p i l st
    (W.ev p i e st.view).handle st.fail (if p = 0 then { st with outs := st.outs ++ [none] } else st.fail)
      (fun r => { st with outs := st.outs ++ [r.value] })

def runLines (W : World E) (p : Nat) : List (Nat × Line E) → St E → St E
  | [], st => st
  | (i, l) :: r, st => runLines W p r (step W p i l st)

/-- `RestoreState` (fastpass.c 163-187): value and high word are restored; neither the segment nor `isvar` (the C field `variable`) are. -/
def restore : List (Name × BitVec 32 × BitVec 32) → St E → St E
  | [], st => st
  | (x, v, h) :: r, st =>
    restore r (match st.syms x with
      | none => st
      | some s => st.setSym x { s with value := v, hi := h })

/-- `OnePass` (assemble.c 1190-1224).  `full`: something made the assembler read the source again in later passes
(`SkipSavedState`, fastpass.c 121). -/
def onePass (W : World E) (full : Bool) (src : List (Line E)) (p : Nat) (st : St E) : St E :=
  let st := { st with storeState := false, outs := [] }
  if 0 < p ∧ st.useSaved ∧ full = false then runLines W p st.store (restore st.equs st)
  else runLines W p (numbered 0 src) st

/-- The state after pass `p` (the first pass is pass 0). -/
def assembling (W : World E) (full : Bool) (src : List (Line E)) : Nat → St E
  | 0 => onePass W full src 0 {}
  | p + 1 => onePass W full src (p + 1) (assembling W full src p)

end Verif.Equate
