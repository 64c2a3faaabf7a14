import Verif.Macro.Model
/-!
# Specification for C16: what substitution in a macro body line means

The line is read once from left to right; nothing here knows of placeholders, positions or edits.
-/
namespace Verif.Macro

/-- A piece of an expanded line: a character of the source, or the value of the parameter or local number `k` (from 0). -/
inductive Piece | chr (c : Char) | arg (k : Nat)
  deriving DecidableEq, Repr

/-- The first parameter or local with this name. -/
def Names.lookup (env : Names) (w : Text) : Option Nat :=
  env.names.findIdx? (fun n => n.length == w.length && env.same w n)

/-- A dot directly behind this character may begin a name. -/
def dotAfter : Option Char → Bool
  | none => true
  | some d => d != ']' && !isId d

/-- Begins a name here? A dot begins a name with OPTION DOTNAME, but not directly behind `]` or a name. -/
def Names.begins (env : Names) (prev : Option Char) (c : Char) : Bool :=
  !isDigit c && (isId c || (c == '.' && env.dotname && dotAfter prev))

/-- The name at the beginning of the text, and what follows it. -/
def word (c : Char) (cs : Text) : Text × Text := (c :: cs.takeWhile isId, cs.dropWhile isId)

/-- The text begins with the name of a parameter. -/
def Names.paramAt (env : Names) (prev : Option Char) : Text → Option Nat
  | [] => none
  | c :: cs => if env.begins prev c then env.lookup (word c cs).1 else none

/-- Quotes and brackets: in a quoted string, names are replaced only if `&` is attached to them. A string ends with its quote
or with the `<...>` literal it began in. -/
structure Lex where
  quote : Option Char := none
  level : Nat := 0
  qlevel : Nat := 0

def Lex.step (s : Lex) (c : Char) : Lex :=
  match c with
  | '<' => { s with level := s.level + 1 }
  | '>' => if s.level = 0 then s else
      { s with level := s.level - 1, quote := if s.qlevel = s.level then none else s.quote }
  | '"' | '\'' =>
    if s.quote = none then { s with quote := some c, qlevel := s.level }
    else if s.quote = some c then { s with quote := none } else s
  | _ => s

def dropAmp : Text → Text
  | '&' :: t => t
  | t => t

theorem word_length (c : Char) (cs : Text) : (word c cs).2.length < (c :: cs).length := by
  simp only [word, List.length_cons]
  have := (List.dropWhile_sublist isId : (cs.dropWhile isId).Sublist cs).length_le
  omega

theorem dropAmp_length (t : Text) : (dropAmp t).length ≤ t.length := by
  unfold dropAmp; split <;> simp

/-- The expansion of a line. `prev` is the character before the current one (`none` at the beginning and behind a replaced
name). -/
def scan (env : Names) (s : Lex) (prev : Option Char) (t : Text) : List Piece :=
  match t with
  | [] => []
  | c :: cs =>
    if isDigit c then
      -- numbers, with the letters in them, are no names
      (word c cs).1.map .chr ++ scan env s (word c cs).1.getLast? (word c cs).2
    else if env.begins prev c then
      let w := word c cs
      let amp : Prop := prev = some '&' ∨ w.2.head? = some '&'
      match (if s.quote = none ∨ amp then env.lookup w.1 else none) with
      | some k => .arg k :: scan env s none (dropAmp w.2)
      | none => w.1.map .chr ++ scan env s w.1.getLast? w.2
    else if c = '&' ∧ (env.paramAt (some '&') cs).isSome then
      -- `&` in front of a parameter disappears
      scan env s (some '&') cs
    else if c = '!' ∧ s.quote = none then
      match cs with
      | d :: cs' =>
        if d = '<' ∨ d = '>' ∨ d = '"' ∨ d = '\'' then .chr c :: .chr d :: scan env s (some d) cs'
        else .chr c :: scan env s (some c) (d :: cs')
      | [] => [.chr c]
    else .chr c :: scan env (s.step c) (some c) cs
termination_by t.length
decreasing_by
  all_goals first
    | exact word_length _ _
    | exact Nat.lt_of_le_of_lt (dropAmp_length _) (word_length _ _)
    | (simp only [List.length_cons]; omega)
    | (simp_all; omega)
    | (simp only [List.length_cons]; omega)

/-- Hexadecimal number of at least `n` digits. -/
def hexText (n i : Nat) : Text :=
  let d := Nat.toDigits 16 i |>.map Char.toUpper
  List.replicate (n - d.length) '0' ++ d

/-- The text of a piece: arguments first, then locals with consecutive numbers from `localstart`. -/
def Piece.text (args : List Text) (localstart : Nat) : Piece → Text
  | .chr c => [c]
  | .arg k => if h : k < args.length then args[k] else '?' :: '?' :: hexText 4 (localstart + (k - args.length))

/-- The expanded line. -/
def expand (env : Names) (args : List Text) (localstart : Nat) (line : Text) : Text :=
  ((scan env {} none line).map (Piece.text args localstart)).flatten

end Verif.Macro
