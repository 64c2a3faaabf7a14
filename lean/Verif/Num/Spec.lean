/-!
# Specification of numeric literals (independent of the model)
-/
namespace Verif.Num.Spec

/-- Positional value of a digit string, most significant digit first. -/
def posVal (base : Nat) : List Nat → Nat
  | [] => 0
  | d :: ds => d * base ^ ds.length + posVal base ds

/-- `IsDigit c d`: character code `c` is a digit with value `d` (0-9, a-f, A-F). -/
def IsDigit (c d : Nat) : Prop :=
  (d ≤ 9 ∧ c = 48 + d) ∨ (10 ≤ d ∧ d ≤ 15 ∧ (c = 97 + (d - 10) ∨ c = 65 + (d - 10)))

/-- `Digits base s ds`: the text `s` is the digit string `ds` in base `base`. -/
def Digits (base : Nat) : List Nat → List Nat → Prop
  | [], [] => True
  | c :: s, d :: ds => IsDigit c d ∧ d < base ∧ Digits base s ds
  | _, _ => False

/-- A character that cannot belong to a literal written without suffix:
not a hex digit, not `.`, and none of the suffix letters h r y t q o, nor x (either case). 0 = end of line. -/
def Terminates (c : Nat) : Prop :=
  (∀ d, ¬ IsDigit c d) ∧ c ∉ [46, 104, 114, 121, 116, 113, 111, 120, 72, 82, 89, 84, 81, 79, 88]

def first (s : List Nat) : Nat := s.headD 0

/-- `Literal radix text v rest`: `text` starts with a numeric literal of value `v`, followed by `rest`,
when the default radix is `radix`. One rule for each notation documented for MASM/UASM. -/
inductive Literal (radix : Nat) : List Nat → Nat → List Nat → Prop
  /-- `0ABCh` -/
  | hex {s ds rest x} : Digits 16 s ds → s ≠ [] → x ∈ [104, 72] → Literal radix (s ++ x :: rest) (posVal 16 ds) rest
  /-- `1011y` -/
  | bin {s ds rest x} : Digits 2 s ds → s ≠ [] → x ∈ [121, 89] → Literal radix (s ++ x :: rest) (posVal 2 ds) rest
  /-- `123t` -/
  | dec {s ds rest x} : Digits 10 s ds → s ≠ [] → x ∈ [116, 84] → Literal radix (s ++ x :: rest) (posVal 10 ds) rest
  /-- `777o`, `777q` -/
  | oct {s ds rest x} : Digits 8 s ds → s ≠ [] → x ∈ [111, 79, 113, 81] →
      Literal radix (s ++ x :: rest) (posVal 8 ds) rest
  /-- `0x1F` -/
  | chex {s ds rest x} : Digits 16 s ds → s ≠ [] → x ∈ [120, 88] → (∀ d, ¬ IsDigit (first rest) d) → first rest ≠ 46 →
      Literal radix (48 :: x :: (s ++ rest)) (posVal 16 ds) rest
  /-- `123`: in the default radix -/
  | plain {s ds rest} : Digits radix s ds → s ≠ [] → Terminates (first rest) → Literal radix (s ++ rest) (posVal radix ds) rest
  /-- `1011b`, provided `b` is not a digit of the default radix -/
  | binB {s ds rest x} : Digits 2 s ds → s ≠ [] → x ∈ [98, 66] → radix ≤ 11 → Terminates (first rest) →
      Literal radix (s ++ x :: rest) (posVal 2 ds) rest
  /-- `123d`, provided `d` is not a digit of the default radix -/
  | decD {s ds rest x} : Digits 10 s ds → s ≠ [] → x ∈ [100, 68] → radix ≤ 13 → Terminates (first rest) →
      Literal radix (s ++ x :: rest) (posVal 10 ds) rest

end Verif.Num.Spec
