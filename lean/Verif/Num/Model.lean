/-!
# Model of numeric literals and number-to-text conversion
(`tokenize.c` `get_number`, `expreval.c` `myatoi128`, `expans.c` `myltoa`/`myqtoa`/`num2hex64`, `lqueue.c` `%d`/`%q`)

Characters are modelled by their byte code (`Nat`); a C string is a list of codes, the terminating NUL is implicit:
reading behind the end of the list yields 0.
-/
namespace Verif.Num

/-- C `tolower`, "C" locale. -/
def toLower (c : Nat) : Nat := if 65 ≤ c ∧ c ≤ 90 then c + 32 else c

/-- First character of a string (NUL at the end). -/
def hd (s : List Nat) : Nat := s.headD 0

/-! ## `myatoi128` -/

/-- `( *src <= '9' ? *src - '0' : ( *src | 0x20 ) - 'a' + 10 )`, `expreval.c` 827.
Computed in C `int`, stored in `uint_32`. -/
def digitVal32 (c : Nat) : BitVec 32 :=
  if c ≤ 57 then BitVec.ofNat 32 c - 48#32 else (BitVec.ofNat 32 c ||| 0x20#32) - 97#32 + 10#32

/-- Inner loop over the eight 16-bit limbs, `expreval.c` 828-833: `val += (uint_32)*px * base; *px++ = val; val >>= 16`.
Bits carried out of the last limb are dropped. -/
def limbs (base : BitVec 32) : BitVec 32 → List (BitVec 16) → List (BitVec 16)
  | _, [] => []
  | val, l :: ls =>
    let v := val + l.zeroExtend 32 * base
    v.truncate 16 :: limbs base (v >>> 16) ls

/-- `myatoi128`, `expreval.c` 807-839 (with CHEXPREFIX = 1, `H/globals.h` 187). Result: the 128-bit number as eight
limbs, least significant first. The `do ... while` always consumes one character. -/
def myatoi128 (src : List Nat) (base size : Nat) : List (BitVec 16) :=
  let src' := if (hd (src.drop 1) ||| 0x20) = 0x78 ∧ hd src = 0x30 then src.drop 2 else src
  (src'.take (max size 1)).foldl (fun a c => limbs (BitVec.ofNat 32 base) (digitVal32 c) a) (List.replicate 8 0#16)

/-- The number held by the limbs (little endian memory layout of `uint_64 dst[2]`). -/
def limbsNat : List (BitVec 16) → Nat
  | [] => 0
  | l :: ls => l.toNat + 65536 * limbsNat ls

/-! ## `get_number` -/

def isHexChar (c : Nat) : Bool := (48 ≤ c ∧ c ≤ 57) ∨ (97 ≤ toLower c ∧ toLower c ≤ 102)

/-- Bit set in `digits_seen` for a digit character, `tokenize.c` 793-800. -/
def digitIdx (c : Nat) : Nat := if 48 ≤ c ∧ c ≤ 57 then c - 48 else toLower c + 10 - 97

/-- `digits_seen` of a digit string (`uint_32`; the shift counts are at most 15). -/
def digitsSeen (s : List Nat) : Nat := s.foldl (fun a c => a ||| (1 <<< digitIdx c)) 0

inductive TokKind | num | badNum | float
  deriving DecidableEq, Repr

/-- Result of `get_number`: token kind, `numbase`, `itemlen`, token text (copied to the output) and remaining input. -/
structure NumTok where
  kind : TokKind
  base : Nat
  len : Nat
  text : List Nat
  rest : List Nat
  deriving DecidableEq, Repr

/-- `is_valid_id_char`, `H/tokenize.h`/`globals.h`: letters, digits, `_ @ $ ?`. -/
def isIdChar (c : Nat) : Bool :=
  (48 ≤ c ∧ c ≤ 57) ∨ (97 ≤ toLower c ∧ toLower c ≤ 122) ∨ c = 95 ∨ c = 64 ∨ c = 36 ∨ c = 63

/-- Does `digits_seen` contain only bits of `mask`: `OK_NUM`, `tokenize.c` 781. -/
def okNum (seen mask : Nat) : Bool := seen &&& (0xFFFFFFFF - mask) = 0

/-- `get_number`, `tokenize.c` 767-921, with CHEXPREFIX = 1, MASMNUMBER = 1, COCTALS = 0.
`radix` is `ModuleInfo.radix`. Simplification: after a '.' the function continues as `get_float`, which is not modelled
(kind `float`, nothing consumed). -/
def getNumber (radix : Nat) (input : List Nat) : NumTok :=
  let pre := hd input = 48 ∧ toLower (hd (input.drop 1)) = 120
  let start := if pre then input.drop 2 else input
  let ds := start.takeWhile isHexChar
  let after := start.drop ds.length          -- `ptr`
  let seen := digitsSeen ds
  let last := toLower (hd after)
  let prelen := if pre then 2 else 0
  let mk (base dlen extra : Nat) : NumTok :=
    let n := prelen + ds.length + extra
    if base ≠ 0 then ⟨.num, base, dlen, input.take n, input.drop n⟩
    else
      let n' := n + ((input.drop n).takeWhile isIdChar).length
      ⟨.badNum, 0, 0, input.take n', input.drop n'⟩
  if last = 46 then ⟨.float, 0, 0, [], input⟩
  else if pre then mk (if seen = 0 then 0 else 16) ds.length 0
  else if last = 114 then ⟨.float, 0, 0, input.take (ds.length + 1), input.drop (ds.length + 1)⟩
  else if last = 104 then mk 16 ds.length 1
  else if last = 121 then if okNum seen 0x3 then mk 2 ds.length 1 else mk 0 0 0
  else if last = 116 then if okNum seen 0x3ff then mk 10 ds.length 1 else mk 0 0 0
  else if last = 113 ∨ last = 111 then if okNum seen 0xff then mk 8 ds.length 1 else mk 0 0 0
  else
    let lc := toLower (ds.getLastD 0)        -- `*(ptr-1)`
    let body := ds.dropLast
    let mx := if lc = 98 then 49 else 57
    if (lc = 98 ∨ lc = 100) ∧ seen ≥ 2 ^ radix ∧ body.all (fun c => c ≤ mx) then
      mk (if lc = 98 then 2 else 10) body.length 0
    else mk (if seen < 2 ^ radix then radix else 0) ds.length 0

/-- The value of a literal at the start of `input` as the expression evaluator sees it (`get_operand`, case T_NUM,
`expreval.c` 896-899) and the remaining input. -/
def literal (radix : Nat) (input : List Nat) : Option (Nat × List Nat) :=
  let t := getNumber radix input
  if t.kind = .num then some (limbsNat (myatoi128 t.text t.base t.len), t.rest) else none

/-! ## `myltoa`, `myqtoa` -/

/-- `__digits[]`, `expans.c` 45. -/
def digitChar (d : Nat) : Nat := if d < 10 then 48 + d else 55 + d

/-- The loop `for ( ; value; value = value / radix ) *(--p) = __digits[value % radix]` (`expans.c` 69-70).
`room` is the number of free bytes below `p` in `tmpbuf`; `none` = undefined behaviour (write before the array). -/
def toaLoop (radix : Nat) : (room : Nat) → (value : Nat) → List Nat → Option (List Nat)
  | 0, v, acc => if v = 0 then some acc else none
  | room + 1, v, acc => if v = 0 then some acc else toaLoop radix room (v / radix) (digitChar (v % radix) :: acc)

/-- Common body of `myltoa` (`expans.c` 52-77, `w = 32`) and `myqtoa` (82-108, `w = 64`).
`tmpbuf` has 34 bytes, the last one is the NUL. -/
def toa (w : Nat) (value : BitVec w) (radix : Nat) (sign addzero : Bool) : Option (List Nat) :=
  if sign then
    (toaLoop radix 33 (0 - value).toNat []).map fun p => 45 :: ((if addzero ∧ hd p > 57 then [48] else []) ++ p)
  else if value.toNat = 0 then some [48]
  else
    (toaLoop radix 33 value.toNat []).map fun p => (if addzero ∧ hd p > 57 then [48] else []) ++ p

def myltoa (value : BitVec 32) := toa 32 value
def myqtoa (value : BitVec 64) := toa 64 value

/-- `num2hex64`, `expans.c` 111-123: 16 bytes preset to '0', digits stored from the right. -/
def num2hex64 (value : BitVec 64) : Option (List Nat) :=
  (toaLoop 16 16 value.toNat []).map fun p => List.replicate (16 - p.length) 48 ++ p

/-- `%d`/`%u` conversion of generated lines, `lqueue.c` 130-151: decimal, 't' suffix unless the radix is 10. -/
def fmtD (radix : Nat) (l : BitVec 32) : Option (List Nat) :=
  (myltoa l 10 l.msb false).map (· ++ if radix ≠ 10 then [116] else [])

/-- `%q` conversion, `lqueue.c` 126-134. -/
def fmtQ (radix : Nat) (l : BitVec 64) : Option (List Nat) :=
  (myqtoa l 10 l.msb false).map (· ++ if radix ≠ 10 then [116] else [])

/-- Numeric macro argument `%expr`, `expans.c` 406: the low 32 bits of the value, signed by bit 63 (`hvalue < 0`). -/
def pctArg (radix : Nat) (v : BitVec 64) : Option (List Nat) :=
  myltoa (v.truncate 32) radix v.msb false

end Verif.Num
