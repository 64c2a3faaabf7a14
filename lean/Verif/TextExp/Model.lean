/-!
# Model of ExpandText (`/repo/expans.c` 865-1008) for a line that begins with `%`

Not modelled: macro functions in the line, the size of the buffers, `substitute == FALSE` (the `%` of a macro argument), and
ExpandLine, which is run on the result.
-/
namespace Verif.TextExp

abbrev Text := List Char

/-- `_LABEL`, H/globals.h 257 -/
def isLabel (c : Char) : Bool := c.isAlpha || c == '_' || c == '@' || c == '$' || c == '?'

/-- `is_valid_id_char`, H/globals.h 254 -/
def isIdChar (c : Char) : Bool := isLabel c || c.isDigit

/-- `value n`: the value of `n` when SymSearch finds a defined text macro. -/
structure Env where
  dotname : Bool
  value : Text → Option Text

/-- `is_valid_id_first_char`, H/globals.h 255-256 -/
def isFirst (E : Env) (c : Char) : Bool := isLabel c || (c == '.' && E.dotname)

/-- `MAX_TEXTMACRO_NESTING`, expans.c 38 -/
def maxNesting : Nat := 20

/-- What has been written (last character first), `quoted_string`, the number of errors MACRO_NESTING_LEVEL_TOO_DEEP, and
`rc == STRING_EXPANDED`. -/
structure St where
  out : Text
  quote : Option Char
  errs : Nat
  expanded : Bool
  deriving DecidableEq, Repr

/-- expans.c 983-989 -/
def toggle (q : Option Char) (c : Char) : Option Char :=
  if c = '"' ∨ c = '\'' then
    match q with
    | none => some c
    | some x => if c = x then none else some x
  else q

theorem drop_len (p : Char → Bool) (s : Text) : (s.dropWhile p).length ≤ s.length := by
  induction s with
  | nil => simp
  | cons c s ih => simp only [List.dropWhile]; split <;> simp; omega

/-- The loops, expans.c 887-992: `d` is the number of levels that may still be opened (`MAX_TEXTMACRO_NESTING - 1 - lvl`), the
list is the rest of the text of the current level. The character before the first one of the buffer is taken as different from
`&`. -/
def scan (E : Env) (d : Nat) (src : Text) (st : St) : St :=
  match src with
  | [] => st
  | c :: s =>
    if isFirst E c then
      let id := c :: s.takeWhile isIdChar
      let rest := s.dropWhile isIdChar
      match E.value id with
      | none => scan E d rest { st with out := id.reverse ++ st.out }
      | some v =>
        if st.quote.isSome && st.out.head? != some '&' && rest.head? != some '&' then
          scan E d rest { st with out := id.reverse ++ st.out }
        else
          let st1 := { st with out := if st.out.head? = some '&' then st.out.tail else st.out, expanded := true }
          let rest1 := if rest.head? = some '&' then rest.tail else rest
          match d with
          | 0 => scan E 0 rest1 { st1 with errs := st1.errs + 1 }
          | d' + 1 => scan E (d' + 1) rest1 (scan E d' v st1)
    else scan E d s { st with out := c :: st.out, quote := toggle st.quote c }
termination_by (d, src.length)
decreasing_by
  all_goals (have h0 := drop_len isIdChar s)
  all_goals simp_wf
  all_goals (try (apply Prod.Lex.right))
  all_goals (try (apply Prod.Lex.left))
  all_goals (try split)
  all_goals (try simp only [List.length_tail, rest])
  all_goals omega

def start : St := ⟨[], none, 0, false⟩

/-- ExpandText without the final ExpandLine: the line, expans.c 993-999 -/
def expandText (E : Env) (line : Text) : Text :=
  let st := scan E (maxNesting - 1) line start
  if st.expanded then st.out.reverse else line

/-- the number of errors -/
def errors (E : Env) (line : Text) : Nat := (scan E (maxNesting - 1) line start).errs

end Verif.TextExp
