import Verif.Loop.Model
/-!
# Model of macro calls: the argument part of `RunMacro` (`/repo/expans.c` 175-615)

The tokens of a line are given with the source text of the token and the blanks behind it. Running the lines of a macro is a
parameter (`World.body`); it may change everything, also the macros that are defined.
Not modelled: `%`, `{}` literals and `<>` literals with a `%` in arguments, predefined macro functions, and the size of the
buffer for the arguments.
-/
namespace Verif.Call
open Verif.Loop (Text isSpace nul trimLen copyStr)

/-- A parameter, `struct mparm_list`, `H/macro.h`: REQ, and the default value (NULL without one: an empty text, macro.c 107). -/
structure Parm where
  required : Bool
  deflt : Option Text
  deriving DecidableEq, Repr

/-- A macro: `struct macro_info` and the flags `isfunc`, `purged`, `label`, `mac_vararg` of the symbol. With `label` the first
parameter is the LABEL parameter, it is not in `parms`. -/
structure Macro where
  name : Text
  isFunc : Bool
  purged : Bool := false
  label : Bool := false
  vararg : Bool := false
  parms : List Parm
  deriving DecidableEq, Repr

/-- Tokens; `bl` is the text between the token and the next one. T_FINAL is the end of the list. `ident`: T_ID, `bare`: a
T_STRING without delimiter, `lit`: a literal in `<>` without `%` (`inner`: `string_ptr`), `item`: any other token. -/
inductive Tok
  | comma (bl : Text)
  | lpar (bl : Text)
  | rpar (bl : Text)
  | item (text bl : Text)
  | ident (text bl : Text)
  | bare (text bl : Text)
  | lit (inner bl : Text)
  deriving DecidableEq, Repr

inductive Err
  | nesting                          -- NESTING_LEVEL_TOO_DEEP
  | missingArg (macroName : Text)    -- MISSING_MACRO_ARGUMENT
  | missingParen                     -- MISSING_RIGHT_PARENTHESIS
  deriving DecidableEq, Repr

/-- Result: `none` is "no result" (the fuel was not sufficient). -/
inductive R (α : Type)
  | none
  | err (e : Err)
  | ok (a : α)
  deriving DecidableEq, Repr

def R.bind {α β : Type} : R α → (α → R β) → R β
  | .none, _ => .none
  | .err e, _ => .err e
  | .ok a, f => f a

/-- The rest of the assembler. -/
structure World (σ : Type) where
  /-- SymSearch and the test for a defined macro, expans.c 486-488 -/
  lookup : σ → Text → Option Macro
  /-- running the lines of the macro with these arguments, expans.c 639-835; the text is the value that EXITM returns -/
  body : σ → Macro → List Text → σ × Text
  /-- EmitWarn( 1, TOO_MANY_ARGUMENTS_IN_MACRO_CALL ) -/
  warn : σ → Macro → σ
  /-- MacroLevel -/
  level : σ → Nat

/-- `MAX_MACRO_NESTING`, H/globals.h 76 -/
def maxNesting : Nat := 128

def isComma : List Tok → Bool
  | .comma _ :: _ => true
  | _ => false

def isClose : List Tok → Bool
  | .rpar _ :: _ => true
  | _ => false

/-- `token == T_FINAL || token == parm_end_delim`, expans.c 277-278 -/
def atEnd (fn : Bool) (t : List Tok) : Bool := t.isEmpty || (fn && isClose t)

/-- `tokenarray[idx+1].token == T_COMMA || == parm_end_delim`, expans.c 526-527 -/
def trimsAt (fn : Bool) (t : List Tok) : Bool := isComma t || (if fn then isClose t else t.isEmpty)

/-- the source character at the start of the next token -/
def firstChar : List Tok → Text
  | [] => []
  | .comma _ :: _ => [',']
  | .lpar _ :: _ => ['(']
  | .rpar _ :: _ => [')']
  | .item t _ :: _ => t.take 1
  | .ident t _ :: _ => t.take 1
  | .bare t _ :: _ => t.take 1
  | .lit _ _ :: _ => ['<']

/-- the length `i` of the item, expans.c 525-529 -/
def itemLen (fn : Bool) (text bl : Text) (t : List Tok) : Nat :=
  let full := text ++ bl
  if trimsAt fn t then trimLen full full.length else full.length

/-- expans.c 545-547 -/
def copyItem (fn : Bool) (text bl : Text) (t : List Tok) : Text := (text ++ bl).take (itemLen fn text bl t)

/-- expans.c 531-543: the literal character operator -/
def copyBare (fn : Bool) (text bl : Text) (t : List Tok) : Text :=
  copyStr (text ++ bl ++ firstChar t) 0 (itemLen fn text bl t)

/-- expans.c 222-226: the arguments of a purged macro function are skipped. Returns the blanks behind the last token skipped and
the tokens left. -/
def skipParens : Nat → Text → List Tok → Text × List Tok
  | 0, bl, t => (bl, t)
  | _ + 1, bl, [] => (bl, [])
  | k + 1, _, .lpar bl :: t => skipParens (k + 2) bl t
  | k + 1, _, .rpar bl :: t => skipParens k bl t
  | k + 1, _, .comma bl :: t => skipParens (k + 1) bl t
  | k + 1, _, .item _ bl :: t => skipParens (k + 1) bl t
  | k + 1, _, .ident _ bl :: t => skipParens (k + 1) bl t
  | k + 1, _, .bare _ bl :: t => skipParens (k + 1) bl t
  | k + 1, _, .lit _ bl :: t => skipParens (k + 1) bl t

/-- expans.c 591: to the next `)`; the blanks behind it and the tokens left -/
def findClose : List Tok → Option (Text × List Tok)
  | [] => none
  | .rpar bl :: t => some (bl, t)
  | _ :: t => findClose t

/-- expans.c 588-611 for a macro function. -/
def closeCall {σ : Type} (W : World σ) (m : Macro) (st : σ) (t : List Tok) : R (σ × Text × List Tok) :=
  match t with
  | .rpar bl :: r => .ok (st, bl, r)
  | _ =>
    match findClose t with
    | none => .err .missingParen
    | some (bl, r) => .ok (W.warn st m, bl, r)

/-- the value of a blank argument, expans.c 290-294 -/
def blankValue (p : Parm) : Option Text → Text
  | none => p.deflt.getD []
  | some v => v

def consArg {σ : Type} (a : Text) : σ × List Text × List Tok → σ × List Text × List Tok
  | (st, as, t) => (st, a :: as, t)

def addText {σ : Type} (a : Text) : σ × Text × Nat × List Tok → σ × Text × Nat × List Tok
  | (st, x, l, t) => (st, a ++ x, l, t)

/-- expans.c 497-502: the blanks behind a macro function call -/
def callBlanks (bl : Text) (t : List Tok) : Text := if t.isEmpty || isComma t then [] else bl

mutual
/-- The loop over the tokens of an argument, expans.c 305-549. `fn`: the macro is a macro function, `level`: `bracket_level`.
Returns the text, `bracket_level`, and the tokens left. -/
def scan {σ : Type} (W : World σ) : Nat → Bool → Nat → σ → List Tok → R (σ × Text × Nat × List Tok)
  | 0, _, _, _, _ => .none
  | n + 1, fn, level, st, toks =>
    match toks with
    | [] => .ok (st, [], level, [])
    | .comma bl :: t => .ok (st, [], level, .comma bl :: t)
    | .lpar bl :: t =>
      (scan W n fn (if fn then level + 1 else level) st t).bind fun r => .ok (addText (copyItem fn ['('] bl t) r)
    | .rpar bl :: t =>
      if fn && level - 1 = 0 then .ok (st, [], 0, .rpar bl :: t)
      else (scan W n fn (if fn then level - 1 else level) st t).bind fun r => .ok (addText (copyItem fn [')'] bl t) r)
    | .item x bl :: t => (scan W n fn level st t).bind fun r => .ok (addText (copyItem fn x bl t) r)
    | .bare x bl :: t => (scan W n fn level st t).bind fun r => .ok (addText (copyBare fn x bl t) r)
    | .lit x _ :: t => (scan W n fn level st t).bind fun r => .ok (addText x r)
    | .ident x bl :: t =>
      match t with
      | .lpar bl' :: t' =>
        match W.lookup st x with
        | some m =>
          if m.isFunc then
            (run W n m [] st (.lpar bl' :: t')).bind fun (st1, out, bl1, rest) =>
            (scan W n fn level st1 rest).bind fun r => .ok (addText (out ++ callBlanks bl1 rest) r)
          else (scan W n fn level st t).bind fun r => .ok (addText (copyItem fn x bl t) r)
        | none => (scan W n fn level st t).bind fun r => .ok (addText (copyItem fn x bl t) r)
      | _ => (scan W n fn level st t).bind fun r => .ok (addText (copyItem fn x bl t) r)

/-- The loop over the parameters, expans.c 267-586. `skip`: `skipcomma`; `acc`: the text of the VARARG parameter so far, none
with `varargcnt` = 0. Returns the values of the parameters and the tokens left. -/
def bindParms {σ : Type} (W : World σ) : Nat → Macro → List Parm → Bool → Nat → Option Text → σ → List Tok →
    R (σ × List Text × List Tok)
  | 0, _, _, _, _, _, _, _ => .none
  | n + 1, m, ps, skip, level, acc, st, toks0 =>
    match ps with
    | [] => .ok (st, [], toks0)
    | p :: ps' =>
      let toks := if isComma toks0 && skip then toks0.tail else toks0
      let isVar := m.vararg && ps'.isEmpty
      if atEnd m.isFunc toks || (isComma toks && !isVar) then
        if p.required then .err (.missingArg m.name)
        else (bindParms W n m ps' true level none st toks).bind fun r => .ok (consArg (blankValue p acc) r)
      else
        (scan W n m.isFunc level st toks).bind fun (st1, text, level1, toks1) =>
        if isVar then
          let acc1 := acc.getD [] ++ text
          if isComma toks1 then
            let toks2 := toks1.tail
            if !m.isFunc || !isClose toks2 then
              bindParms W n m (p :: ps') false level1 (some (acc1 ++ [','])) st1 toks2
            else .ok (st1, [acc1], toks2)
          else .ok (st1, [acc1], toks1)
        else (bindParms W n m ps' true level1 none st1 toks1).bind fun r => .ok (consArg text r)

/-- RunMacro for a macro function, expans.c 198-245 and 588-615, with the tokens from the `(` on; `lbl`: the label in front of
it. Returns the value, the blanks behind the `)`, and the tokens left. -/
def run {σ : Type} (W : World σ) : Nat → Macro → Text → σ → List Tok → R (σ × Text × Text × List Tok)
  | 0, _, _, _, _ => .none
  | n + 1, m, lbl, st, toks =>
    if W.level st = maxNesting then .err .nesting
    else if m.purged then
      let (bl, rest) := skipParens 1 [] toks.tail
      .ok (st, [], bl, rest)
    else
      (bindParms W n m m.parms false 1 none st toks.tail).bind fun (st1, args, rest) =>
      (closeCall W m st1 rest).bind fun (st2, bl, rest2) =>
      let (st3, out) := W.body st2 m (if m.label then lbl :: args else args)
      .ok (st3, out, bl, rest2)
end

/-- RunMacro for a macro that is no macro function, with the tokens behind its name. -/
def runStmt {σ : Type} (W : World σ) (n : Nat) (m : Macro) (lbl : Text) (st : σ) (toks : List Tok) : R σ :=
  if W.level st = maxNesting then .err .nesting
  else if m.purged then .ok st
  else
    (bindParms W n m m.parms false 1 none st toks).bind fun (st1, args, rest) =>
    let st2 := if rest.isEmpty then st1 else W.warn st1 m
    .ok (W.body st2 m (if m.label then lbl :: args else args)).1

end Verif.Call
