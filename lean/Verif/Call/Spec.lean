import Verif.Call.Model
/-!
# Macro calls as a user writes them

A call is a tree: arguments separated by commas, each a row of pieces; a piece may be a text in parentheses or a call of a
macro function. Only the vocabulary (macros, tokens, world, result) is shared with the model.
-/
namespace Verif.Call
open Verif.Loop (Text isSpace)

mutual
/-- A piece of an argument; `bl` are the blanks behind it. -/
inductive Piece
  | item (text bl : Text)
  | ident (text bl : Text)
  /-- characters with the mark "written with the literal-character operator `!`" -/
  | bare (chars : List (Bool × Char)) (bl : Text)
  | lit (inner bl : Text)
  | paren (bl0 : Text) (ps : Pieces) (bl : Text)
  | call (f bl0 bl1 : Text) (args : Args) (bl : Text)
inductive Pieces
  | nil
  | cons (p : Piece) (ps : Pieces)
/-- The arguments, with the blanks behind each comma. -/
inductive Args
  | one (ps : Pieces)
  | more (ps : Pieces) (bl : Text) (rest : Args)
end

/-- the source text of marked characters -/
def written (cs : List (Bool × Char)) : Text := cs.flatMap fun (b, c) => if b then ['!', c] else [c]

mutual
/-- The tokens of a piece, in front of the tokens `k`. -/
def Piece.toks : Piece → List Tok → List Tok
  | .item t bl, k => .item t bl :: k
  | .ident t bl, k => .ident t bl :: k
  | .bare cs bl, k => .bare (written cs) bl :: k
  | .lit t bl, k => .lit t bl :: k
  | .paren bl0 ps bl, k => .lpar bl0 :: ps.toks (.rpar bl :: k)
  | .call f bl0 bl1 as bl, k => .ident f bl0 :: .lpar bl1 :: as.toks (.rpar bl :: k)
def Pieces.toks : Pieces → List Tok → List Tok
  | .nil, k => k
  | .cons p ps, k => p.toks (ps.toks k)
def Args.toks : Args → List Tok → List Tok
  | .one ps, k => ps.toks k
  | .more ps bl as, k => ps.toks (.comma bl :: as.toks k)
end

/-- a text that ends in a character that is no blank -/
def Solid (t : Text) : Prop := ∃ c, t.getLast? = some c ∧ isSpace c = false
def Blanks (t : Text) : Prop := ∀ c ∈ t, isSpace c = true

mutual
/-- Tokens are texts that don't end in a blank, blanks are blanks, a `!` stands for itself only behind a `!`. -/
def Piece.WF : Piece → Prop
  | .item t bl => Solid t ∧ Blanks bl
  | .ident t bl => Solid t ∧ Blanks bl
  | .bare cs bl => Solid (written cs) ∧ (∀ x ∈ cs, x.1 = false → x.2 ≠ '!') ∧ Blanks bl
  | .lit _ bl => Blanks bl
  | .paren bl0 ps bl => Blanks bl0 ∧ ps.WF ∧ Blanks bl
  | .call f bl0 bl1 as bl => Solid f ∧ Blanks bl0 ∧ Blanks bl1 ∧ as.WF ∧ Blanks bl
def Pieces.WF : Pieces → Prop
  | .nil => True
  | .cons p ps => p.WF ∧ ps.WF
def Args.WF : Args → Prop
  | .one ps => ps.WF
  | .more ps bl as => ps.WF ∧ Blanks bl ∧ as.WF
end

/-- What stands behind a piece. -/
inductive Next | piece | comma | close | final
  deriving DecidableEq, Repr

/-- What stands behind the first piece of `ps` if `e` is what stands behind `ps`. -/
def Pieces.nextOr (e : Next) : Pieces → Next
  | .nil => e
  | .cons _ _ => .piece

/-- The blanks behind a piece are part of the argument if something of the argument follows: inside of an argument they are,
in front of a comma, or of the end of the call, they are not. (In a macro function call they are not in front of any `)`.) -/
def blanksAt (fn : Bool) (bl : Text) : Next → Text
  | .piece => bl
  | .comma => []
  | .close => if fn then [] else bl
  | .final => if fn then bl else []

/-- Blanks behind the call of a macro function: they are kept in front of a `)`. -/
def blanksAtCall (bl : Text) : Next → Text
  | .piece => bl
  | .comma => []
  | .close => bl
  | .final => []

/-- The values of parameters without argument. -/
def absent (m : Macro) : List Parm → R (List Text)
  | [] => .ok []
  | p :: ps => if p.required then .err (.missingArg m.name) else (absent m ps).bind fun r => .ok (p.deflt.getD [] :: r)

def Pieces.isNil : Pieces → Bool
  | .nil => true
  | .cons _ _ => false

def Pieces.startsParen : Pieces → Bool
  | .cons (.paren _ _ _) _ => true
  | _ => false

def Args.count : Args → Nat
  | .one _ => 1
  | .more _ _ as => as.count + 1

/-- More arguments than parameters. -/
def surplus (m : Macro) (as : Args) : Bool :=
  match m.parms, as with
  | [], .one .nil => false
  | [], _ => true
  | _ :: _, as => !m.vararg && decide (m.parms.length < as.count)

def Piece.noParen : Piece → Bool
  | .paren _ _ _ => false
  | .call _ _ _ _ _ => false
  | _ => true
def Pieces.noParen : Pieces → Bool
  | .nil => true
  | .cons p ps => p.noParen && ps.noParen
/-- No parentheses in the arguments behind the first `k`. -/
def Args.noParenFrom : Nat → Args → Bool
  | 0, .one ps => ps.noParen
  | _ + 1, .one _ => true
  | 0, .more ps _ as => ps.noParen && as.noParenFrom 0
  | k + 1, .more _ _ as => as.noParenFrom k

def Args.isBlank : Args → Bool
  | .one .nil => true
  | _ => false

/-- `x`, and a comma and `rest` behind it; `blank`: the rest is a single blank argument, so that the comma is the last token. -/
def joinTo {σ : Type} (fn : Bool) (st : σ) (x : Text) (blank : Bool) (rest : R (σ × Text × Bool)) : R (σ × Text × Bool) :=
  if blank then .ok (st, if fn then x else x ++ [','], !fn)
  else rest.bind fun (st2, y, o) => .ok (st2, x ++ [','] ++ y, o)

/-- The piece is a name, and there is a macro function of this name. -/
def Piece.isFuncName {σ : Type} (W : World σ) (st : σ) : Piece → Bool
  | .ident t _ => ((W.lookup st t).map (·.isFunc)).getD false
  | _ => false

mutual
/-- The text that a piece contributes. `none`: not covered (a name in front of a parenthesis must be a macro function for `call`,
and none for `ident`; surplus arguments of a macro function must not have parentheses). -/
def Piece.text {σ : Type} (W : World σ) (fn : Bool) (nx : Next) (st : σ) : Piece → R (σ × Text)
  | .item t bl => .ok (st, t ++ blanksAt fn bl nx)
  | .ident t bl => .ok (st, t ++ blanksAt fn bl nx)
  | .bare cs bl => .ok (st, cs.map Prod.snd ++ blanksAt fn bl nx)
  | .lit t _ => .ok (st, t)
  | .paren bl0 ps bl =>
    (ps.text W fn .close st).bind fun (st1, x) =>
    .ok (st1, ['('] ++ blanksAt fn bl0 (ps.nextOr .close) ++ x ++ [')'] ++ blanksAt fn bl nx)
  | .call f _ _ as bl =>
    match W.lookup st f with
    | none => .none
    | some m =>
      if m.isFunc = false then .none
      else if W.level st = 128 then .err .nesting
      else if m.purged then .ok (st, blanksAtCall bl nx)
      else if (surplus m as && !as.noParenFrom m.parms.length) then .none
      else
        (as.values W true .close m m.parms st).bind fun (st1, args) =>
        let st2 := if surplus m as then W.warn st1 m else st1
        let r := W.body st2 m (if m.label then [] :: args else args)
        .ok (r.1, r.2 ++ blanksAtCall bl nx)

/-- The text of an argument: that of its pieces, from left to right. -/
def Pieces.text {σ : Type} (W : World σ) (fn : Bool) (e : Next) (st : σ) : Pieces → R (σ × Text)
  | .nil => .ok (st, [])
  | .cons p ps =>
    if ps.startsParen && p.isFuncName W st then .none
    else
      (p.text W fn (ps.nextOr e) st).bind fun (st1, x) =>
      (ps.text W fn e st1).bind fun (st2, y) => .ok (st2, x ++ y)

/-- The values of the parameters `ps`. A blank argument is replaced by the default value; it is an error if the parameter is
REQ. A VARARG parameter gets all remaining arguments. `e` is what stands behind the arguments. -/
def Args.values {σ : Type} (W : World σ) (fn : Bool) (e : Next) (m : Macro) (ps : List Parm) (st : σ) :
    Args → R (σ × List Text)
  | .one g =>
    match ps with
    | [] => .ok (st, [])
    | p :: ps' =>
      if g.isNil then (absent m (p :: ps')).bind fun r => .ok (st, r)
      else (g.text W fn e st).bind fun (st1, x) => (absent m ps').bind fun r => .ok (st1, x :: r)
  | .more g _ as =>
    match ps with
    | [] => .ok (st, [])
    | p :: ps' =>
      if m.vararg && ps'.isEmpty then
        (g.text W fn .comma st).bind fun (st1, x) =>
        (joinTo fn st1 x as.isBlank (as.joined W fn e st1)).bind fun (st2, y, o) =>
        if p.required && o then .err (.missingArg m.name) else .ok (st2, [y])
      else if g.isNil then
        if p.required then .err (.missingArg m.name)
        else (as.values W fn e m ps' st).bind fun (st1, r) => .ok (st1, p.deflt.getD [] :: r)
      else
        (g.text W fn .comma st).bind fun (st1, x) =>
        (as.values W fn e m ps' st1).bind fun (st2, r) => .ok (st2, x :: r)

/-- The value of a VARARG parameter: the arguments with commas between them. A comma at the end is dropped in the call of a macro
function. The last result tells if the list ended with a comma that was not dropped. -/
def Args.joined {σ : Type} (W : World σ) (fn : Bool) (e : Next) (st : σ) : Args → R (σ × Text × Bool)
  | .one g => (g.text W fn e st).bind fun (st1, x) => .ok (st1, x, false)
  | .more g _ as =>
    (g.text W fn .comma st).bind fun (st1, x) => joinTo fn st1 x as.isBlank (as.joined W fn e st1)
end

/-- A macro statement: the macro is run once, with the values of its parameters. -/
def callStmt {σ : Type} (W : World σ) (m : Macro) (lbl : Text) (as : Args) (st : σ) : R σ :=
  if W.level st = 128 then .err .nesting
  else if m.purged then .ok st
  else
    (as.values W false .final m m.parms st).bind fun (st1, args) =>
    let st2 := if surplus m as then W.warn st1 m else st1
    .ok (W.body st2 m (if m.label then lbl :: args else args)).1

/-- A call of a macro function: its value. -/
def callFunc {σ : Type} (W : World σ) (m : Macro) (lbl : Text) (as : Args) (st : σ) : R (σ × Text) :=
  if W.level st = 128 then .err .nesting
  else if m.purged then .ok (st, [])
  else if (surplus m as && !as.noParenFrom m.parms.length) then .none
  else
    (as.values W true .close m m.parms st).bind fun (st1, args) =>
    let st2 := if surplus m as then W.warn st1 m else st1
    .ok (W.body st2 m (if m.label then lbl :: args else args))

/-- Arguments that are single tokens, with blanks behind them. -/
def simpleArgs : Text × Text → List (Text × Text) → Args
  | a, [] => .one (.cons (.item a.1 a.2) .nil)
  | a, b :: l => .more (.cons (.item a.1 a.2) .nil) [' '] (simpleArgs b l)

end Verif.Call
