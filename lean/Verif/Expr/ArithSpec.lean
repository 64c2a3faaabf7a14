import Verif.Expr.Const
/-! # Specification of constant arithmetic, on mathematical integers -/
namespace Verif.Expr

/-- The unsigned reading of a signed 64-bit value. -/
def uns (x : Int) : Int := x % 2 ^ 64

def tf (c : Prop) [Decidable c] : Int := if c then -1 else 0

/-- Documented result of a binary operator on integers (the assembler keeps the low 64 bits of it). TRUE is -1; `/` truncates
towards 0; MOD, SHR work on the unsigned 64-bit value. -/
def binSpec : BinOp → Int → Int → Except CErr Int
  | .add, x, y => .ok (x + y)
  | .sub, x, y => .ok (x - y)
  | .nm .mul, x, y => .ok (x * y)
  | .nm .div, x, y => if y = 0 then .error .divZero else .ok (Int.tdiv x y)
  | .nm .mod, x, y => if y = 0 then .error .divZero else .ok (uns x % uns y)
  | .nm .eq, x, y => .ok (tf (x = y))
  | .nm .ne, x, y => .ok (tf (x ≠ y))
  | .nm .lt, x, y => .ok (tf (x < y))
  | .nm .le, x, y => .ok (tf (x ≤ y))
  | .nm .gt, x, y => .ok (tf (x > y))
  | .nm .ge, x, y => .ok (tf (x ≥ y))
  | .nm .shl, x, y => if y < 0 then .error .countNegative else .ok (x * 2 ^ y.toNat)
  | .nm .shr, x, y => if y < 0 then .error .countNegative else .ok (uns x / 2 ^ y.toNat)
  | .nm .and, x, y => .ok ((uns x).toNat &&& (uns y).toNat : Nat)
  | .nm .or, x, y => .ok ((uns x).toNat ||| (uns y).toNat : Nat)
  | .nm .xor, x, y => .ok ((uns x).toNat ^^^ (uns y).toNat : Nat)
  | .nm .ptr, _, _ => .error .notNumeric
  | .nm .colon, _, _ => .error .notNumeric

/-- Documented result of a unary operator. -/
def unSpec : UnOp → Int → Except CErr Int
  | .pos, x => .ok x
  | .neg, x => .ok (-x)
  | .nm .not, x => .ok (-x - 1)
  | .nm .low, x => .ok (x % 256)
  | .nm .high, x => .ok (x / 256 % 256)
  | .nm .lowword, x => .ok (x % 65536)
  | .nm .highword, x => .ok (x / 65536 % 65536)
  | .nm .low32, x => .ok (x % 4294967296)
  | .nm .high32, x => .ok (x / 4294967296 % 4294967296)
  | _, _ => .error .notNumeric

/-- 64-bit constant holding the low 64 bits of an integer. -/
def const (x : Int) : Val := ⟨BitVec.ofInt 64 x, 0#64⟩

/-- Signed 64-bit range. -/
def Fits (x : Int) : Prop := -(2 ^ 63) ≤ x ∧ x < 2 ^ 63

end Verif.Expr
