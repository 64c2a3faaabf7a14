import Verif.SimSeg.Model
/-! # Specification: what SEGMENT, ENDS, GROUP, ASSUME and ORG do (C82) -/
namespace Verif.SimSeg.Spec
open Verif.SimSeg

/-- The segments that are open (the current one first), the attributes of the segments that are defined, their
sizes, the members of DGROUP, the segment assumed for CS. -/
structure World where
  opens : List Text
  defined : Text → Option Attr
  size : Text → Nat
  dgroup : List Text
  cs : Text

/-- Attributes of a segment that is opened for the first time without any. -/
def noAttr : Attr := ⟨[], [], [], []⟩

def upd {α : Type} (f : Text → α) (n : Text) (v : α) : Text → α := fun m => if m = n then v else f m

/-- One line.  It is an error to change the attributes of a segment, to close a segment that is not the current one,
and to ORG outside of a segment. -/
def step (w : World) : Line → Option World
  | .segment n a =>
    match w.defined n, a with
    | none, a => some { w with opens := n :: w.opens, defined := upd w.defined n (some (a.getD noAttr)) }
    | some _, none => some { w with opens := n :: w.opens }
    | some b, some a => if a = b then some { w with opens := n :: w.opens } else none
  | .ends n =>
    match w.opens with
    | [] => none
    | m :: r => if m = n then some { w with opens := r } else none
  | .group n => some { w with dgroup := n :: w.dgroup }
  | .assumeCs t => some { w with cs := t }
  | .org n =>
    match w.opens with
    | [] => none
    | m :: _ => some { w with size := upd w.size m (max (w.size m) n) }

def run : World → List Line → Option World
  | w, [] => some w
  | w, l :: r => match step w l with | none => none | some w' => run w' r

/-- The class and the combine type the manual gives for each kind of segment. -/
def kind : Sim → Text × Text
  | .code => ("CODE".toList, "PUBLIC".toList)
  | .stack => ("STACK".toList, "STACK".toList)
  | .data => ("DATA".toList, "PUBLIC".toList)
  | .dataUn => ("BSS".toList, "PUBLIC".toList)
  | .fardata => ("FAR_DATA".toList, "PRIVATE".toList)
  | .fardataUn => ("FAR_BSS".toList, "PRIVATE".toList)
  | .const => ("CONST".toList, "PUBLIC".toList)

/-- Steps of a program behind `.MODEL`: simplified directives, and lines of the program itself. -/
inductive Op
  | dir (d : Dir)
  | line (l : Line)

/-- The lines of a step are run in the state they were generated in. -/
def opStep (c : Cfg) (w : World) (init : Sim → Bool) : Op → Option (World × (Sim → Bool))
  | .line l => (step w l).map (fun w' => (w', init))
  | .dir d =>
    let r := directive c (fun n => (w.defined n).isSome) w.opens.head? init d
    (run w r.1).map (fun w' => (w', r.2))

def ops (c : Cfg) : World → (Sim → Bool) → List Op → Option (World × (Sim → Bool))
  | w, init, [] => some (w, init)
  | w, init, o :: r => match opStep c w init o with | none => none | some (w', i') => ops c w' i' r

/-- The program from `.MODEL` on. -/
def program (c : Cfg) (w : World) (l : List Op) : Option (World × (Sim → Bool)) :=
  let r := modelInit c (fun n => (w.defined n).isSome)
  (run w r.1).bind (fun w' => ops c w' r.2 l)

end Verif.SimSeg.Spec
