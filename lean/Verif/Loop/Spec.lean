import Verif.Loop.Model
/-! # Specification of loops and anonymous labels -/
namespace Verif.Loop

/-- Doing something `n` times, unless it says "stop". -/
def times {σ : Type} (body : σ → σ × Bool) : Nat → σ → σ
  | 0, s => s
  | n + 1, s => if (body s).2 then (body s).1 else times body n (body s).1

/-- Doing something for each item of a list in order, unless it says "stop". -/
def forEach {σ α : Type} (body : α → σ → σ × Bool) : List α → σ → σ
  | [], s => s
  | a :: l, s => if (body a s).2 then (body a s).1 else forEach body l (body a s).1

/-- `while cond do body`, started in the first and ended in the second state. -/
inductive WhileRel {σ : Type} (cond : σ → Prop) (body : σ → σ × Bool) : σ → σ → Prop
  | done {s} : ¬ cond s → WhileRel cond body s s
  | exit {s} : cond s → (body s).2 = true → WhileRel cond body s (body s).1
  | step {s t} : cond s → (body s).2 = false → WhileRel cond body (body s).1 t → WhileRel cond body s t

/-- The characters of a FORC list: `!c` stands for `c`; a `!` with nothing behind it gives an empty argument. -/
def chars : Text → List Text
  | [] => []
  | ['!'] => [[]]
  | '!' :: c :: t => [c] :: chars t
  | c :: t => [c] :: chars t

/-- The list cut at its commas; nothing comes behind a comma at the end. -/
def groups : List Tok → List (List Tok)
  | [] => []
  | .comma :: t => [] :: groups t
  | x :: t =>
    match groups t with
    | [] => [[x]]
    | g :: gs => (x :: g) :: gs

/-- Source text of a token. -/
def srcText : Tok → Text
  | .comma => [',']
  | .item text blanks => text ++ blanks
  | .lit inner blanks => ['<'] ++ inner ++ ['>'] ++ blanks

/-- A text without the blanks at its end. -/
def rtrim (t : Text) : Text := (t.reverse.dropWhile isSpace).reverse

/-- Tokens as the tokenizer makes them: no token ends with a blank, and only blanks are between tokens. -/
def Tok.wf : Tok → Prop
  | .comma => True
  | .item text blanks => (∃ c, text.getLast? = some c ∧ isSpace c = false) ∧ ∀ c ∈ blanks, isSpace c = true
  | .lit _ blanks => ∀ c ∈ blanks, isSpace c = true

/-- The line of the nearest anonymous label at or before line `i`. -/
def IsPrev (src : List (Line × Option Nat)) (i k : Nat) : Prop :=
  k ≤ i ∧ (∃ d s, src[k]? = some (.anon d, s)) ∧ ∀ j, k < j → j ≤ i → ∀ d s, src[j]? ≠ some (.anon d, s)

/-- The line of the nearest anonymous label behind line `i`. -/
def IsNext (src : List (Line × Option Nat)) (i k : Nat) : Prop :=
  i < k ∧ (∃ d s, src[k]? = some (.anon d, s)) ∧ ∀ j, i < j → j < k → ∀ d s, src[j]? ≠ some (.anon d, s)

/-- The label in line `k` can be used in line `i`: it is global, or both are in the same procedure. -/
def Visible (src : List (Line × Option Nat)) (i k : Nat) : Prop :=
  (∃ s, src[k]? = some (.anon true, s)) ∨ (∃ s, src[k]? = some (.anon false, s) ∧
    (s = none ∨ (src[i]?.bind (·.2)) = s))

end Verif.Loop

namespace Verif.Loop

/-- The argument of FOR that a group of tokens stands for: its text without blanks around it, and without the brackets if it
is a literal. -/
def groupText : List Tok → Text
  | [.lit inner _] => inner
  | g => rtrim (g.flatMap srcText)

/-- An empty group stands for the default value; `none` if it is an error because an argument is required. -/
def groupArg (pm : Parm) (g : List Tok) : Option Text :=
  if g = [] then (if pm.required then none else some (pm.deflt.getD [])) else some (groupText g)

/-- Doing something for each argument in order until it says "stop", or until there is an erroneous argument (`true`). -/
def forEachArg {σ : Type} (body : Text → σ → σ × Bool) : List (Option Text) → σ → σ × Bool
  | [], s => (s, false)
  | none :: _, s => (s, true)
  | some a :: l, s => if (body a s).2 then ((body a s).1, false) else forEachArg body l (body a s).1

/-- A group that is not a literal combined with something else. -/
def Plain (g : List Tok) : Prop := (∀ x ∈ g, ∃ t b, x = .item t b) ∨ ∃ inner b, g = [.lit inner b]

end Verif.Loop
