import Verif.Symbols.Model
/-!
# What a symbol table is

No hashing, no chains, no cursors: an ordered list of global symbols and, for each procedure, an
ordered list of the symbols local to it. A lookup takes the first symbol with a matching name
among those local to the current procedure, and failing that among the global ones.
-/

namespace Verif.Symbols

/-- A symbol: an identity, the name it was entered with, and whether it is still undefined. -/
structure Sym where
  id : Nat
  name : Name
  undef : Bool
  deriving Repr, DecidableEq

/-- The abstract symbol table. -/
structure Tab where
  globals : List Sym
  locals : Proc → List Sym
  fresh : Nat
  cur : Option Proc
  /-- enclosing procedures, innermost first -/
  outer : List Proc
  known : Proc → Bool
  cs : Bool
  pass1 : Bool

/-- Two names are the same name: exactly, or up to the case of the letters A-Z. -/
def SameName (cs : Bool) (a b : Name) : Prop :=
  if cs then a = b else a.map lower = b.map lower

instance (cs : Bool) (a b : Name) : Decidable (SameName cs a b) := by
  unfold SameName; infer_instance

/-- The symbols local to the current procedure. -/
def Tab.curLocals (t : Tab) : List Sym :=
  match t.cur with
  | none => []
  | some p => t.locals p

/-- Lookup: innermost scope first, oldest entry first. -/
def Tab.find (t : Tab) (n : Name) : Option Sym :=
  (t.curLocals ++ t.globals).find? (fun s => decide (SameName t.cs n s.name))

/-- Lookup among the locals. -/
def Tab.findLocal (t : Tab) (n : Name) : Option Sym :=
  t.curLocals.find? (fun s => decide (SameName t.cs n s.name))

/-- Enter a global symbol. -/
def Tab.addGlobal (t : Tab) (n : Name) (undef : Bool) : Tab :=
  { t with globals := t.globals ++ [⟨t.fresh, n, undef⟩], fresh := t.fresh + 1 }

/-- Enter a symbol local to `p`. -/
def Tab.addLocal (t : Tab) (p : Proc) (s : Sym) : Tab :=
  { t with locals := fun q => if q = p then t.locals p ++ [s] else t.locals q }

/-- The symbol with identity `id` is no longer undefined. -/
def defineIn (id : Nat) (l : List Sym) : List Sym :=
  l.map (fun s => if s.id = id then { s with undef := false } else s)

/-- A code label visible everywhere. -/
def Tab.glabel (t : Tab) (n : Name) : Tab × Res :=
  match t.find n with
  | none =>
    if t.pass1 then (t.addGlobal n false, .sym (some t.fresh))
    else (t.addGlobal n true, .sym (some t.fresh))
  | some s =>
    if t.pass1 then
      if s.undef then ({ t with globals := defineIn s.id t.globals }, .sym (some s.id))
      else (t, .error)
    else (t, .sym (some s.id))

/-- A code label inside procedure `p`: it is local to `p`; if the name was referenced before it was
defined, the symbol made for the reference becomes this label. -/
def Tab.llabel (t : Tab) (p : Proc) (n : Name) : Tab × Res :=
  match t.find n with
  | none =>
    (({ t with fresh := t.fresh + 1 }).addLocal p ⟨t.fresh, n, !t.pass1⟩, .sym (some t.fresh))
  | some s =>
    if s.undef then
      (({ t with globals := t.globals.filter (fun x => decide (x.id ≠ s.id)) }).addLocal p
        { s with undef := !t.pass1 }, .sym (some s.id))
    else if t.pass1 then (t, .error)
    else (t, .sym (some s.id))

/-- The abstract meaning of an operation. -/
def Tab.step (t : Tab) : Op → Tab × Res
  | .find n => (t, .sym ((t.find n).map Sym.id))
  | .findLocal n => (t, .sym ((t.findLocal n).map Sym.id))
  | .ref n =>
    match t.find n with
    | some s => (t, .sym (some s.id))
    | none => (t.addGlobal n true, .sym (some t.fresh))
  | .label n =>
    match t.cur with
    | none => t.glabel n
    | some p => t.llabel p n
  | .glabel n => t.glabel n
  | .create n =>
    match t.find n with
    | some _ => (t, .error)
    | none => (t.addGlobal n false, .sym (some t.fresh))
  | .localVar n =>
    if t.pass1 then
      match t.cur with
      | none => (t, .error)
      | some p =>
        match t.find n with
        | some ⟨_, _, false⟩ => (t, .error)
        | _ => (({ t with fresh := t.fresh + 1 }).addLocal p ⟨t.fresh, n, false⟩,
                 .sym (some t.fresh))
    else (t, .unit)
  | .proc p =>
    if t.known p = t.pass1 then (t, .error)
    else ({ t with
              cur := some p
              outer := t.cur.toList ++ t.outer
              known := fun q => if q = p then true else t.known q }, .unit)
  | .endp =>
    match t.cur with
    | none => (t, .error)
    | some _ => ({ t with cur := t.outer.head?, outer := t.outer.tail }, .unit)
  | .casemap cs => ({ t with cs := cs }, .unit)
  | .nextPass =>
    match t.cur with
    | some _ => (t, .error)
    | none => ({ t with pass1 := false, outer := [] }, .unit)

/-- The empty table. -/
def Tab.init : Tab := ⟨[], fun _ => [], 0, none, [], fun _ => false, false, true⟩

/-- The results of a history. -/
def Tab.run (t : Tab) : List Op → Tab × List Res
  | [] => (t, [])
  | o :: os =>
    let (t, r) := t.step o
    let (t, rs) := t.run os
    (t, r :: rs)

/-- What is asked of a history: after pass 1 the labels inside procedures are those of pass 1
(lines assembled in later passes are those of pass 1). -/
def Tab.Repeats (t : Tab) : List Op → Prop
  | [] => True
  | o :: os =>
    (match o, t.pass1, t.cur with
     | .label n, false, some _ => ∃ s, t.find n = some s ∧ s.undef = false
     | _, _, _ => True) ∧ Tab.Repeats (t.step o).1 os

end Verif.Symbols
