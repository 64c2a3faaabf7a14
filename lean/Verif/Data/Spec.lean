import Verif.Data.Model
/-
  What a line of initializers means, written without reference to `data_item`.
-/
namespace Verif.Data

/-- the number whose little endian representation is the byte list -/
def leVal : List Byte → Nat
  | [] => 0
  | b :: r => b.toNat + 256 * leVal r

/-- The integer an operand stands for in an item of `n` bytes. Up to 8 bytes it is the signed 64-bit number;
    beyond that the signed 128-bit number, where a negated 64-bit number is extended first
    (but not for items of more than 16 bytes). -/
def Const.value (k : Const) (n : Nat) : Int :=
  if n ≤ 8 then k.ll.toInt
  else if n ≤ 16 ∧ k.neg ∧ k.ll.toInt < 0 ∧ k.hl = 0#64 then k.ll.toInt
  else (k.hl ++ k.ll).toInt

/-- The range of an item of `n` bytes: as usual in assemblers, from minus the largest unsigned number to the largest
    unsigned number. (12..16 byte items and larger take every 128-bit operand.) -/
def InRange (n : Nat) (v : Int) : Prop :=
  if n ≤ 8 then -(2 ^ (8 * n) : Int) ≤ v ∧ v < 2 ^ (8 * n)
  else if n = 10 then -(2 ^ 80 - 2 ^ 64 : Int) ≤ v ∧ v < 2 ^ 80
  else True

/-- `bs` is the little endian two's complement representation of `v` in `n` bytes -/
def Represents (n : Nat) (v : Int) (bs : List Byte) : Prop :=
  bs.length = n ∧ (leVal bs : Int) = v % 2 ^ (8 * n)

/-- brackets match: never more closing than opening ones, and finally as many -/
def Balanced (l : List Tok) : Prop :=
  (∀ p, p <+: l → p.count .cl ≤ p.count .op) ∧ l.count .cl = l.count .op

mutual
/-- `Init n A l rest out cnt`: the line `l` starts with an initializer for `n`-byte items, `rest` is what follows it; it puts
    `out` into the segment and makes up `cnt` array elements. `A` tells the result of address operands. -/
inductive Init (n : Nat) (A : Addr → List Chunk → Prop) :
    List Tok → List Tok → List Chunk → Nat → Prop
  /-- `?` leaves one item of space -/
  | undef {r} : Init n A (.question :: r) r (List.replicate n .undef) 1
  /-- a number in range is stored little endian -/
  | num {k r bs} : r.head? ≠ some .dup → InRange n (k.value n) → Represents n (k.value n) bs →
      Init n A (.const k :: r) r (bs.map .byte) 1
  /-- a string of bytes is stored in order, one element per character -/
  | bytes {b r} : r.head? ≠ some .dup → n = 1 → b ≠ [] →
      Init n A (.str b :: r) r (b.map .byte) b.length
  /-- a string in a larger item is one number: last character first, filled with zeros -/
  | chars {b r} : r.head? ≠ some .dup → n ≠ 1 → b ≠ [] → b.length ≤ n →
      Init n A (.str b :: r) r ((b.reverse ++ List.replicate (n - b.length) 0#8).map .byte) 1
  | addr {a r out} : r.head? ≠ some .dup → A a out → Init n A (.addr a :: r) r out 1
  /-- `count DUP (list)`: the list `count` times -/
  | dup {k : Const} {r r' out cnt} (m : Nat) : k.ll.toInt = (m : Int) → 0 < m → Inits n A r (.cl :: r') out cnt →
      Init n A (.const k :: .dup :: .op :: r) r' (List.replicate m out).flatten (m * cnt)
  /-- `0 DUP (...)`: nothing -/
  | dup0 {k : Const} {body r'} : k.ll.toInt = 0 → Balanced body →
      Init n A (.const k :: .dup :: .op :: (body ++ .cl :: r')) r' [] 0
/-- a comma separated list of initializers; one more comma at the end is allowed -/
inductive Inits (n : Nat) (A : Addr → List Chunk → Prop) :
    List Tok → List Tok → List Chunk → Nat → Prop
  | last {l r out cnt} : Init n A l r out cnt → r.head? ≠ some .comma → Inits n A l r out cnt
  | trail {l r out cnt} : Init n A l (.comma :: r) out cnt → (r = [] ∨ r.head? = some .cl) →
      Inits n A l r out cnt
  | cons {l r r' out out' cnt cnt'} : Init n A l (.comma :: r) out cnt → ¬ (r = [] ∨ r.head? = some .cl) →
      Inits n A r r' out' cnt' → Inits n A l r' (out ++ out') (cnt + cnt')
end

/-- Lines on which no constant exceeds the width the program looks at: numbers for items of at most 8 bytes have 64
    bits, DUP counts are 32-bit numbers, not strings, and `count * n` stays below 2^32. -/
def LineOk (n : Nat) (line : List Tok) : Prop :=
  (n ≤ 8 → ∀ k : Const, .const k ∈ line → k.hl = 0#64) ∧
  ∀ pre t r, line = pre ++ t :: .dup :: r → ∀ b, t ≠ .str b ∧
    ∀ k : Const, t = .const k → k.hl = 0#64 ∧ -2 ^ 31 ≤ k.ll.toInt ∧ k.ll.toInt < 2 ^ 31 ∧ k.ll.toInt * n < 2 ^ 32

end Verif.Data
