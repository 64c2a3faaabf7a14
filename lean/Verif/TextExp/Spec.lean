import Verif.TextExp.Model
/-!
# What the expansion of a `%` line is

A line is a row of parts: names, with a `&` in front or behind or not, and runs of other characters.
-/
namespace Verif.TextExp

inductive Part
  | chars (t : Text)
  | name (pre post : Bool) (n : Text)
  deriving DecidableEq, Repr

def Part.text : Part → Text
  | .chars t => t
  | .name pre post n => (if pre then ['&'] else []) ++ n ++ (if post then ['&'] else [])

/-- how a row is written -/
def textOf (ps : List Part) : Text := ps.flatMap Part.text

def IsName (E : Env) (n : Text) : Prop := ∃ c s, n = c :: s ∧ isFirst E c = true ∧ ∀ x ∈ s, isIdChar x = true
def IsChars (E : Env) (t : Text) : Prop := t ≠ [] ∧ ∀ c ∈ t, isFirst E c = false ∧ c ≠ '&'

/-- Rows that are read as they are written: names and other characters alternate, and no digit touches a name. -/
inductive Line (E : Env) : List Part → Prop
  | nil : Line E []
  | name {a b n} : IsName E n → Line E [.name a b n]
  | chars {t} : IsChars E t → Line E [.chars t]
  | nameChars {a b n t ps} : IsName E n → (b = false → ∀ c, t.head? = some c → isIdChar c = false) → Line E (.chars t :: ps) →
      Line E (.name a b n :: .chars t :: ps)
  | charsName {t a b n ps} : IsChars E t → (a = false → ∀ c, t.getLast? = some c → isIdChar c = false) →
      Line E (.name a b n :: ps) → Line E (.chars t :: .name a b n :: ps)

/-- Strings are opened by a `"` or a `'` and closed by the same. -/
def quoteStep (c : Char) : Option Char → Option Char
  | none => if c = '"' ∨ c = '\'' then some c else none
  | some x => if c = x then none else some x

/-- The string that is open behind a text: its delimiter. -/
def quoteAfter (q : Option Char) (t : Text) : Option Char := t.foldl (fun q c => quoteStep c q) q

/-- `Means E d q ps q' r`: with the string `q` open in front of it, the row expands to `r` and leaves the string `q'` open; at most
`d` text macros are inside of each other. A text macro is replaced by the expansion of its value, and its `&`s disappear; in a string
only with a `&`. Everything else stays. -/
inductive Means (E : Env) : Nat → Option Char → List Part → Option Char → Text → Prop
  | nil {d q} : Means E d q [] q []
  | chars {d q t ps q' r} : Means E d (quoteAfter q t) ps q' r → Means E d q (.chars t :: ps) q' (t ++ r)
  | plain {d q a b n ps q' r} : E.value n = none → Means E d q ps q' r →
      Means E d q (.name a b n :: ps) q' ((Part.name a b n).text ++ r)
  | quoted {d q n v ps q' r} : E.value n = some v → q ≠ none → Means E d q ps q' r →
      Means E d q (.name false false n :: ps) q' (n ++ r)
  | replaced {d q a b n v vs ps q1 r1 q' r} : E.value n = some v → (q = none ∨ a = true ∨ b = true) → v = textOf vs → Line E vs →
      Means E d q vs q1 r1 → Means E (d + 1) q1 ps q' r → Means E (d + 1) q (.name a b n :: ps) q' (r1 ++ r)

/-- Every text macro has a readable value. -/
def ValuesRead (E : Env) : Prop := ∀ n v, E.value n = some v → ∃ vs, v = textOf vs ∧ Line E vs

end Verif.TextExp
