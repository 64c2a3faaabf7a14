import Verif.Real10.Spec
/-! # Model of tbyte.c: conversion of a decimal literal to REAL10

Words are natural numbers below 2^32 (2^64).  Simplification: the counters `exp1`, `exponent`, `exponent_tmp` and the
exponent read (`int_32`) are integers without bounds. -/
namespace Verif.Real10

/-- Three words, the lowest first: `union u96`, the mantissa of `struct ELD`, `m64` of `union u192` (tbyte.c 51-64). -/
structure W3 where
  a : Nat
  b : Nat
  c : Nat
  deriving DecidableEq, Repr

/-- `struct ELD` (tbyte.c 60-64) -/
structure ELD where
  m : W3
  e : Nat
  deriving DecidableEq, Repr

/-- `tab_plus_exp` (tbyte.c 73-87) -/
def tabPlus : List ELD := [
  ⟨⟨0x00000000, 0x00000000, 0xA0000000⟩, 0x4002⟩,
  ⟨⟨0x00000000, 0x00000000, 0xC8000000⟩, 0x4005⟩,
  ⟨⟨0x00000000, 0x00000000, 0x9C400000⟩, 0x400C⟩,
  ⟨⟨0x00000000, 0x00000000, 0xBEBC2000⟩, 0x4019⟩,
  ⟨⟨0x00000000, 0x04000000, 0x8E1BC9BF⟩, 0x4034⟩,
  ⟨⟨0xF0200000, 0x2B70B59D, 0x9DC5ADA8⟩, 0x4069⟩,
  ⟨⟨0x3CBF6B71, 0xFFCFA6D5, 0xC2781F49⟩, 0x40D3⟩,
  ⟨⟨0xC66F336B, 0x80E98CDF, 0x93BA47C9⟩, 0x41A8⟩,
  ⟨⟨0xDDBB9018, 0x9DF9DE8D, 0xAA7EEBFB⟩, 0x4351⟩,
  ⟨⟨0xCC655C4B, 0xA60E91C6, 0xE319A0AE⟩, 0x46A3⟩,
  ⟨⟨0x650D3D17, 0x81750C17, 0xC9767586⟩, 0x4D48⟩,
  ⟨⟨0xA74D28B1, 0xC53D5DE4, 0x9E8b3B5D⟩, 0x5A92⟩,
  ⟨⟨0xC94C14F7, 0x8A20979A, 0xC4605202⟩, 0x7525⟩]

/-- `tab_minus_exp` (tbyte.c 89-103) -/
def tabMinus : List ELD := [
  ⟨⟨0xCCCCCCCD, 0xCCCCCCCC, 0xCCCCCCCC⟩, 0x3FFB⟩,
  ⟨⟨0x3D70A3D7, 0x70A3D70A, 0xA3D70A3D⟩, 0x3FF8⟩,
  ⟨⟨0xD3C36113, 0xE219652B, 0xD1B71758⟩, 0x3FF1⟩,
  ⟨⟨0xFDC20D2A, 0x8461CEFC, 0xABCC7711⟩, 0x3FE4⟩,
  ⟨⟨0x4C2EBE65, 0xC44DE15B, 0xE69594BE⟩, 0x3FC9⟩,
  ⟨⟨0x67DE18E7, 0x453994BA, 0xCFB11EAD⟩, 0x3F94⟩,
  ⟨⟨0x3F2398CC, 0xA539E9A5, 0xA87FEA27⟩, 0x3F2A⟩,
  ⟨⟨0xAC7CB3D9, 0x64BCE4A0, 0xDDD0467C⟩, 0x3E55⟩,
  ⟨⟨0xFA911122, 0x637A1939, 0xC0314325⟩, 0x3CAC⟩,
  ⟨⟨0x7132D2E4, 0xDB23D21C, 0x9049EE32⟩, 0x395A⟩,
  ⟨⟨0x87A600A6, 0xDA57C0BD, 0xA2A682A5⟩, 0x32B5⟩,
  ⟨⟨0x4925110F, 0x34362DE4, 0xCEAE534F⟩, 0x256B⟩,
  ⟨⟨0x2DE37E46, 0xD2CE9FDE, 0xA6DD04C8⟩, 0x0AD8⟩]

/-- `cmp_u96_max( x ) > 0` (tbyte.c 105-126) -/
def overMax (x : W3) : Bool :=
  if x.c > 0x19999999 then true
  else if x.c < 0x19999999 then false
  else if x.b > 0x99999999 then true
  else if x.b < 0x99999999 then false
  else if x.a > 0x99999998 then true
  else false

/-- `add_check_u96_overflow` (tbyte.c 128-148); `none`: overflow. -/
def addDigit (x : W3) (d : Nat) : Option W3 :=
  if overMax x then none
  else
    let c0 := d + x.a * 10
    let c1 := c0 / 2 ^ 32 + x.b * 10
    let c2 := c1 / 2 ^ 32 + x.c * 10
    some ⟨c0 % 2 ^ 32, c1 % 2 ^ 32, c2 % 2 ^ 32⟩

/-- The loop of `bitsize32` (`w` = 32) and `bitsize64` (`w` = 64), tbyte.c 150-176. -/
def bitsizeLoop (w : Nat) : Nat → Nat → Nat
  | 0, _ => 0
  | i + 1, x => if x / 2 ^ (w - 1) % 2 = 1 then i + 1 else bitsizeLoop w i (x * 2 % 2 ^ w)

def bitsize (w x : Nat) : Nat := bitsizeLoop w w x

/-- Shift of three words by `w - k` bits (tbyte.c 205-212, 243-251). -/
def shiftUp (w k : Nat) (r : W3) : W3 :=
  { c := r.c * 2 ^ (w - k) % 2 ^ w ||| r.b / 2 ^ k
    b := r.b * 2 ^ (w - k) % 2 ^ w ||| r.a / 2 ^ k
    a := r.a * 2 ^ (w - k) % 2 ^ w }

/-- The statements `U96LD` (`w` = 32, tbyte.c 178-215) and `normalize` (`w` = 64, tbyte.c 217-253) have in common: the
words shifted, and the number of bits. -/
def norm3 (w : Nat) (r0 : W3) : W3 × Nat :=
  let p1 : W3 × Nat :=
    let bs := bitsize w r0.c + 2 * w
    if bs = 2 * w then
      let r : W3 := ⟨0, r0.a, r0.b⟩
      (r, bitsize w r.c + w)
    else (r0, bs)
  let p2 : W3 × Nat :=
    if p1.2 = w then
      let r : W3 := ⟨0, p1.1.a, p1.1.b⟩
      (r, bitsize w r.c)
    else p1
  if p2.2 = 0 then p2
  else if p2.2 % w = 0 then p2
  else (shiftUp w (p2.2 % w) p2.1, p2.2)

/-- `U96LD` (tbyte.c 178-215) -/
def u96ld (x : W3) : ELD :=
  let p := norm3 32 x
  if p.2 = 0 then ⟨p.1, 0⟩ else ⟨p.1, p.2 - 1 + 0x3FFF⟩

/-- `normalize` (tbyte.c 217-253): the words, and the value returned. -/
def normalize (x : W3) : W3 × Int :=
  let p := norm3 64 x
  if p.2 = 0 then (p.1, 0) else (p.1, (p.2 : Int) - 192)

/-- A loop of `add192`. -/
def addWords : Nat → List Nat → List Nat
  | _, [] => []
  | cy, w :: ws => (cy + w) % 2 ^ 32 :: addWords ((cy + w) / 2 ^ 32) ws

/-- `add192` (tbyte.c 255-276) -/
def add192 (r : List Nat) (x pos : Nat) : List Nat :=
  let r := r.take pos ++ addWords (x % 2 ^ 32) (r.drop pos)
  r.take (pos + 1) ++ addWords (x / 2 ^ 32) (r.drop (pos + 1))

/-- `union u192` seen as six words or as three. -/
def words6 (r : W3) : List Nat :=
  [r.a % 2 ^ 32, r.a / 2 ^ 32, r.b % 2 ^ 32, r.b / 2 ^ 32, r.c % 2 ^ 32, r.c / 2 ^ 32]
def words3 (r : List Nat) : W3 :=
  ⟨r.getD 0 0 + r.getD 1 0 * 2 ^ 32, r.getD 2 0 + r.getD 3 0 * 2 ^ 32, r.getD 4 0 + r.getD 5 0 * 2 ^ 32⟩

/-- `round result` in `multiply` (tbyte.c 305-316) -/
def roundUp (r : List Nat) (exp : Int) : List Nat × Int :=
  if r.getD 2 0 ≥ 2 ^ 31 then
    if r.getD 5 0 = 2 ^ 32 - 1 ∧ r.getD 4 0 = 2 ^ 32 - 1 ∧ r.getD 3 0 = 2 ^ 32 - 1 then
      ([r.getD 0 0, r.getD 1 0, r.getD 2 0, 0, 0, 2 ^ 31], exp + 1)
    else (add192 r 1 3, exp)
  else (r, exp)

/-- `multiply` (tbyte.c 278-322) -/
def multiply (x y : ELD) : ELD :=
  let exp : Int := (x.e % 2 ^ 15 : Nat) + (y.e % 2 ^ 15 : Nat) - 0x3FFF + 1
  let r := words6 ⟨x.m.a * y.m.a, x.m.b * y.m.b, x.m.c * y.m.c⟩
  let r := add192 r (x.m.b * y.m.a) 1
  let r := add192 r (x.m.a * y.m.b) 1
  let r := add192 r (x.m.a * y.m.c) 2
  let r := add192 r (x.m.c * y.m.a) 2
  let r := add192 r (x.m.b * y.m.c) 3
  let r := add192 r (x.m.c * y.m.b) 3
  let n := normalize (words3 r)
  let exp := exp + n.2
  let r := words6 n.1
  let p := roundUp r exp
  ⟨⟨p.1.getD 3 0, p.1.getD 4 0, p.1.getD 5 0⟩, (p.2 % 2 ^ 16).toNat⟩

/-- The loop of `TB_create` (tbyte.c 341-347): `n` is the decimal exponent without sign. -/
def mulPow : List ELD → Nat → ELD → ELD
  | [], _, r => r
  | t :: ts, n, r =>
    let r := if n % 2 = 1 then multiply r t else r
    if n / 2 = 0 then r else mulPow ts (n / 2) r

/-- `TB_create` (tbyte.c 324-363) -/
def tbCreate (v : W3) (exponent : Int) : TB :=
  let r := mulPow (if exponent < 0 then tabMinus else tabPlus) exponent.natAbs (u96ld v)
  let m := r.m.b + r.m.c * 2 ^ 32
  if r.m.a ≥ 2 ^ 31 then
    if m = 2 ^ 64 - 1 then ⟨2 ^ 63, (r.e + 1) % 2 ^ 16⟩ else ⟨m + 1, r.e⟩
  else ⟨m, r.e⟩

/-- Local variables of `strtotb`. -/
structure PSt where
  value : W3 := ⟨0, 0, 0⟩
  tmp : W3 := ⟨0, 0, 0⟩
  /-- `exp1`, then `exponent` -/
  ex : Int := 0
  /-- `exponent_tmp` -/
  et : Int := 0
  ov : Bool := false
  deriving DecidableEq, Repr

def isDigit (c : Char) : Bool := 48 ≤ c.toNat ∧ c.toNat < 58
def digitVal (c : Char) : Nat := c.toNat - 48

/-- A digit in front of the point (tbyte.c 399-416). -/
def intDigit (d : Nat) (s : PSt) : PSt :=
  if s.ov then { s with et := s.et + 1, ex := s.ex + 1 }
  else
    match addDigit s.tmp d with
    | none => { s with ov := true, et := s.et + 1, ex := s.ex + 1 }
    | some t =>
      if d ≠ 0 then { s with tmp := t, value := t, ex := 0 }
      else if s.value.a ≠ 0 ∨ s.value.b ≠ 0 ∨ s.value.c ≠ 0 then { s with tmp := t, ex := s.ex + 1 }
      else { s with tmp := t }

/-- A digit behind the point (tbyte.c 420-433). -/
def fracDigit (d : Nat) (s : PSt) : PSt :=
  if s.ov then s
  else
    match addDigit s.tmp d with
    | none => { s with ov := true }
    | some t =>
      if d ≠ 0 then { s with tmp := t, et := s.et - 1, value := t, ex := s.et - 1 }
      else { s with tmp := t, et := s.et - 1 }

/-- The loops over digits. -/
def digits (f : Nat → PSt → PSt) : List Char → PSt → PSt × List Char
  | [], s => (s, [])
  | c :: r, s => if isDigit c then digits f r (f (digitVal c) s) else (s, c :: r)

/-- The loop over the digits of the exponent (tbyte.c 459-460). -/
def expDigits : List Char → Int → Int
  | [], n => n
  | c :: r, n => if isDigit c then expDigits r (10 * n + digitVal c) else n

/-- `SET_SIGN` (tbyte.c 67) -/
def setSign (t : TB) (minus : Bool) : TB := if minus then { t with e := t.e ||| 2 ^ 15 } else t

/-- `isspace` -/
def isSpace (c : Char) : Bool := c.toNat = 32 ∨ 9 ≤ c.toNat ∧ c.toNat ≤ 13

/-- The sign (tbyte.c 382-392). -/
def readSign (p : List Char) : Bool × List Char :=
  match p with
  | '-' :: r => (true, r)
  | '+' :: r => (false, r)
  | r => (false, r)

/-- `strtotb` (tbyte.c 365-468) -/
def strtotb (p : List Char) (negative : Bool) : TB :=
  let p := p.dropWhile isSpace
  let sp := readSign p
  let minus := if negative then !sp.1 else sp.1
  let q := digits intDigit sp.2 {}
  let q :=
    match q.2 with
    | '.' :: r => digits fracDigit r q.1
    | _ => q
  let fin (x : Int) := setSign (tbCreate q.1.value (x + q.1.ex)) minus
  match q.2 with
  | c :: r =>
    if c = 'e' ∨ c = 'E' then
      match r with
      | '-' :: r => fin (- expDigits r 0)
      | '+' :: r => fin (expDigits r 0)
      | c :: r => if isDigit c then fin (expDigits (c :: r) 0) else setSign ⟨0, 0⟩ minus
      | [] => setSign ⟨0, 0⟩ minus
    else fin 0
  | [] => fin 0

/-- `atofloat` for size 10 without real number designator (atofloat.c 84-86). -/
def atofloat10 (inp : List Char) (negative : Bool) : TB := strtotb inp negative

end Verif.Real10
