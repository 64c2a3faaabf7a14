import Verif.Num.Model
/-!
# String directives and functions (string.c)

Modelled: CATSTR/TEXTEQU, SUBSTR, SIZESTR, INSTR (the directives `CatStrDir`, `SubStrDir`, `SizeStrDir`,
`InStrDir`) and @CatStr, @InStr, @SizeStr, @SubStr (`CatStrFunc`, `InStrFunc`, `SizeStrFunc`,
`SubStrFunc`), with C `int` arithmetic.

A text is the list of its bytes; C strings contain no zero byte, so `strlen` is `length`. Numeric
operands are given as the 64-bit value found by the expression evaluator (`opndx.llvalue`), see Expr.
The result `crash` stands for: the function leaves the defined behaviour of C (here: it copies beyond
the end of the source string).
-/

namespace Verif.Strings

abbrev Text := List Nat

inductive Err
  | pastEnd | tooLarge | notPositive | countNegative | tooLong
  deriving DecidableEq, Repr

/-- Outcome: `err` = error message. -/
inductive Res (α : Type)
  | ok (a : α)
  | err (e : Err)
  | crash
  deriving DecidableEq, Repr

/-- `opndx.value`: the low 32 bits of the value, as `int`. -/
def value32 (v : BitVec 64) : BitVec 32 := v.setWidth 32

/-- C's `strstr`: index of the first occurrence. -/
def strstr : Text → Text → Option Nat
  | [], q => if q.isEmpty then some 0 else none
  | c :: p, q => if q.isPrefixOf (c :: p) then some 0 else (strstr p q).map (· + 1)

/-- H/globals.h 68 -/
def MAX_LINE_LEN : Nat := 1024

/-- string.c 256-278: the checking loop of `CatStrDir` (all items are `<>` literals). -/
def catCheck (count : Nat) : List Text → Option Nat
  | [] => some count
  | t :: ts => if count + t.length ≥ MAX_LINE_LEN then none else catCheck (count + t.length) ts

/-- string.c 320-324: the copying loop. -/
def catCopy : List Text → Text
  | [] => []
  | t :: ts => t ++ catCopy ts

/-- string.c 232-334 `CatStrDir`. Not modelled: redefinition errors. -/
def catStrDir (items : List Text) : Res Text :=
  match catCheck 0 items with
  | none => .err .tooLong
  | some _ => .ok (catCopy items)

/-- The copy `memcpy( dst, src, size )` of a part of a string with `avail` bytes left. -/
def copyPart (src : Text) (pos size : BitVec 32) : Res Text :=
  if (pos.toInt - 1) + size.toInt ≤ src.length ∧ 0 ≤ size.toInt then
    .ok ((src.drop (pos.toInt - 1).toNat).take size.toInt.toNat)
  else .crash

/-- string.c 433-605 `SubStrDir`: `name SUBSTR <src>, pos [, size]`. -/
def subStrDir (src : Text) (posV : BitVec 64) (sizeV : Option (BitVec 64)) : Res Text :=
  let cnt : BitVec 32 := BitVec.ofNat 32 src.length
  let pos := value32 posV
  if pos.toInt ≤ 0 then .err .notPositive
  else
    match sizeV with
    | some sv =>
      let size := value32 sv
      if size.toInt < 0 then .err .countNegative
      else if pos.toInt > cnt.toInt then .err .pastEnd
      -- `(pos+size-1) > cnt` in int arithmetic (two's complement wrap)
      else if (pos + size - 1).toInt > cnt.toInt then .err .tooLarge
      else copyPart src pos size
    | none =>
      if pos.toInt > cnt.toInt then .err .pastEnd
      else copyPart src pos (cnt - pos + 1)

/-- string.c 611-645 `SizeStrDir`: the value of the variable. -/
def sizeStrDir (src : Text) : BitVec 32 := BitVec.ofNat 32 src.length

/-- string.c 672-690: the start position (1 if not given). -/
def dirStart : Option (BitVec 64) → BitVec 32
  | none => 1
  | some v => value32 v

/-- string.c 814-833: the start position of @InStr. -/
def funcStart : Option (BitVec 64) → BitVec 32
  | none => 1
  | some v => if value32 v = 0 then 1 else value32 v

/-- string.c 653-752 `InStrDir`: `name INSTR [pos,] <src>, <sub>`; the value of the variable. -/
def inStrDir (posV : Option (BitVec 64)) (src sub : Text) : Res (BitVec 32) :=
  let start := dirStart posV
  let sizestr : BitVec 32 := BitVec.ofNat 32 src.length
  if start.toInt > sizestr.toInt then .err .pastEnd
  else
    .ok (if start.toInt > 0 ∧ src.length ≥ sub.length ∧ sub.length ≠ 0 then
      match strstr (src.drop (start.toInt - 1).toNat) sub with
      | some k => BitVec.ofNat 32 ((start.toInt - 1).toNat + k + 1)
      | none => 0
    else 0)

/-- string.c 811-853 `InStrFunc`: `@InStr([pos], src, sub)`; the result is a text. -/
def inStrFunc (radix : Nat) (posV : Option (BitVec 64)) (src sub : Text) : Res Text :=
  let pos := funcStart posV
  -- `pos > strlen(...)`: pos is converted to size_t (sign extended)
  if (pos.signExtend 64).toNat > src.length then .err .pastEnd
  else if sub.isEmpty then .ok [48]
  else match strstr (src.drop ((pos.signExtend 64).toNat - 1)) sub with
    | none => .ok [48]
    | some k =>
      match Num.myltoa (BitVec.ofNat 32 ((pos.signExtend 64).toNat - 1 + k + 1)) radix false true with
      | some t => .ok t
      | none => .crash

/-- string.c 859-871 `SizeStrFunc`. -/
def sizeStrFunc (radix : Nat) (src : Option Text) : Res Text :=
  match src with
  | none => .ok [48]
  | some s =>
    match Num.myltoa (BitVec.ofNat 32 s.length) radix false true with
    | some t => .ok t
    | none => .crash

/-- string.c 876-930 `SubStrFunc`: `@SubStr(src, pos [, size])`. -/
def subStrFunc (src : Text) (posV : BitVec 64) (sizeV : Option (BitVec 64)) : Res Text :=
  let pos := value32 posV
  if pos.toInt < 0 then .err .pastEnd
  else
    let pos := if pos = 0 then 1 else pos
    let size : BitVec 32 := BitVec.ofNat 32 src.length
    if pos.toInt > size.toInt then .err .pastEnd
    else
      let size := size - pos + 1
      match sizeV with
      | some sv =>
        let sizereq := value32 sv
        if sizereq.toInt < 0 then .err .countNegative
        else if sizereq.toInt > size.toInt then .err .tooLarge
        else copyPart src pos sizereq
      | none => copyPart src pos size

/-! ## @CatStr: the arguments are laid out in memory by RunMacro -/

/-- input.h 97 `GetAlignedPointer( x, size )` with 8-byte pointers. -/
def alignedPtr (x size : Nat) : Nat := x + (size + 1 + 8 - 1) / 8 * 8

/-- Memory: byte at an address. -/
abbrev Memory := Nat → Nat

/-- Write a string and its terminating zero at `p`. -/
def putStr (m : Memory) (p : Nat) (s : Text) : Memory := fun a =>
  if p ≤ a ∧ a < p + s.length then s.getD (a - p) 0
  else if a = p + s.length then 0 else m a

/-- expans.c 557-575: the arguments of a VARARG predefined macro function are stored one after the other,
each at an aligned address (only the first address is recorded). -/
def storeArgs (m : Memory) (p : Nat) : List Text → Memory
  | [] => m
  | a :: as => storeArgs (putStr m p a) (alignedPtr p a.length) as

/-- `strlen`: may not terminate. -/
def strlen (m : Memory) (p : Nat) : Option Nat :=
  if m p = 0 then some 0 else do let n ← strlen m (p + 1); return n + 1
partial_fixpoint

/-- string.c 769-776 `CatStrFunc`: `parmcnt` arguments starting at `p`. -/
def catStrFunc (m : Memory) (p : Nat) : (parmcnt : Nat) → Option Text
  | 0 => some []
  | n + 1 => do
    let i ← strlen m p
    let rest ← catStrFunc m (alignedPtr p i) n
    return (List.range i).map (fun k => m (p + k)) ++ rest

end Verif.Strings
