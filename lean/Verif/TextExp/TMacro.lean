import Verif.TextExp.Model
import Verif.Lex.Model
/-!
# Model of ExpandTMacro and of RebuildLine with brackets (`/repo/expans.c` 1016-1082, 1095-1139)

ExpandTMacro tokenizes the text anew in each round; here a text is the row of its tokens, and replacing a token does not join it with
its neighbours. Not modelled: macro functions (`equmode == TRUE` or none in the text), the size of the buffer.
-/
namespace Verif.TextExp

inductive Tok
  | id (n : Text)
  | other (t : Text)
  deriving DecidableEq, Repr

/-- the first token that is a text macro: what is in front of it, its value, what is behind it; expans.c 1036-1076 -/
def firstMacro (W : Text → Option (List Tok)) : List Tok → Option (List Tok × List Tok × List Tok)
  | [] => none
  | .other t :: r => (firstMacro W r).map fun x => (.other t :: x.1, x.2)
  | .id n :: r =>
    match W n with
    | some v => some ([], v, r)
    | none => (firstMacro W r).map fun x => (.id n :: x.1, x.2)

inductive Res
  | fuelOut
  | tooDeep
  | ok (t : List Tok)
  deriving DecidableEq, Repr

/-- ExpandTMacro; `f` bounds the rounds of the loops. -/
def expandT (W : Text → Option (List Tok)) : Nat → Nat → List Tok → Res
  | 0, _, _ => .fuelOut
  | f + 1, level, toks =>
    if level ≥ maxNesting then .tooDeep
    else
      match firstMacro W toks with
      | none => .ok toks
      | some (pre, v, post) =>
        match expandT W f (level + 1) v with
        | .ok o => expandT W f level (pre ++ o ++ post)
        | e => e

open Verif.Lex (Str)

/-- RebuildLine with `addbrackets`, expans.c 1122-1129: the value between `<` and `>`. The codes: `<` 60, `>` 62, `!` 33. -/
def escape : Str → Str
  | [] => []
  | c :: s => if c = 60 ∨ c = 62 ∨ c = 33 then 33 :: c :: escape s else c :: escape s

def bracket (v : Str) : Str := 60 :: (escape v ++ [62])

end Verif.TextExp
