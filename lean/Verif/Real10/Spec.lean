import Mathlib.Algebra.Order.Field.Rat
import Mathlib.Algebra.Order.Field.Power
import Mathlib.Tactic.NormNum
import Mathlib.Tactic.Ring
import Mathlib.Tactic.Linarith
import Mathlib.Tactic.Positivity
/-! # Specification: decimal literals and REAL10 numbers -/
namespace Verif.Real10

/-- A decimal literal as the source has it: `[+|-] digits [. digits] [e [+|-] digits]`. -/
structure Lit where
  sign : Option Bool := none      -- `some true`: a minus sign, `some false`: a plus sign
  int : List (Fin 10)
  frac : Option (List (Fin 10)) := none
  exp : Option (Option Bool × List (Fin 10)) := none
  capital : Bool := false         -- `E` instead of `e`

def digitChar (d : Fin 10) : Char := Char.ofNat (48 + d.val)

def signChars : Option Bool → List Char
  | none => []
  | some true => ['-']
  | some false => ['+']

/-- The characters of the literal. -/
def Lit.text (l : Lit) : List Char :=
  signChars l.sign ++ l.int.map digitChar ++
  (match l.frac with | none => [] | some f => '.' :: f.map digitChar) ++
  (match l.exp with | none => [] | some (s, d) => (if l.capital then 'E' else 'e') :: (signChars s ++ d.map digitChar))

/-- There is a digit in front of the point, and behind `e`. -/
def Lit.Wf (l : Lit) : Prop := l.int ≠ [] ∧ ∀ s d, l.exp = some (s, d) → d ≠ []

/-- The number written by decimal digits. -/
def number (ds : List (Fin 10)) : Nat := ds.foldl (fun n d => 10 * n + d.val) 0

/-- The number behind `e`. -/
def Lit.power (l : Lit) : Int :=
  match l.exp with
  | none => 0
  | some (s, d) => if s = some true then - (number d : Int) else number d

/-- The magnitude of the literal. -/
def Lit.value (l : Lit) : ℚ :=
  ((number l.int : ℚ) + (number (l.frac.getD []) : ℚ) / 10 ^ (l.frac.getD []).length) * (10 : ℚ) ^ l.power

def Lit.minus (l : Lit) : Bool := l.sign = some true

/-- The ten bytes of a REAL10: mantissa of 64 bits, and sign and exponent (16 bits). -/
structure TB where
  m : Nat
  e : Nat
  deriving DecidableEq, Repr

/-- The exponent is that of an ordinary number (not zero, denormal, infinity or NaN), and the leading bit is set. -/
def TB.Normal (t : TB) : Prop := 1 ≤ t.e % 2 ^ 15 ∧ t.e % 2 ^ 15 ≤ 0x7FFE ∧ t.e < 2 ^ 16 ∧ 2 ^ 63 ≤ t.m ∧ t.m < 2 ^ 64

/-- The unit in the last place. -/
def TB.ulp (t : TB) : ℚ := (2 : ℚ) ^ ((t.e % 2 ^ 15 : Nat) - 16383 - 63 : Int)

/-- The magnitude (of a normal number). -/
def TB.abs (t : TB) : ℚ := t.m * t.ulp

def TB.minus (t : TB) : Bool := 2 ^ 15 ≤ t.e

/-- The largest number. -/
def maxReal10 : ℚ := (2 ^ 64 - 1) * (2 : ℚ) ^ (16383 - 63 : Int)

/-- The smallest normal number is 2^-16382; numbers that differ from it by less than a fraction of its last place are
included. -/
def minReal10 : ℚ := (2 : ℚ) ^ (-16382 : Int) * (1 - 1 / 2 ^ 66)

end Verif.Real10
