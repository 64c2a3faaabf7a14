import Verif.Expr.Model
/-!
# `calculate()` for constants (`/repo/expreval.c`)
-/
namespace Verif.Expr

/-- `llvalue`, `hlvalue` of an EXPR_CONST operand (`H/expreval.h` 84-99); `value`, `hvalue` are the halves of `llvalue`. -/
structure Val where
  ll : BitVec 64
  hl : BitVec 64
  deriving DecidableEq, Repr

def Val.value (v : Val) : BitVec 32 := v.ll.setWidth 32

/-- What the result depends on besides the operands: -Zm, the offset size, the width of `unsigned long` of the host compiler. -/
structure Cfg where
  m510 : Bool
  use32 : Bool
  ulong64 : Bool
  deriving DecidableEq, Repr

inductive CErr
  | tooLarge        -- CONSTANT_VALUE_TOO_LARGE_EX
  | divZero         -- DIVIDE_BY_ZERO_IN_EXPR
  | countNegative   -- COUNT_MUST_BE_POSITIVE_OR_ZERO
  | sigfpe          -- the C division overflows: the process is killed
  | notNumeric      -- operator not modelled for numbers (SIZEOF, PTR, ...)
  deriving DecidableEq, Repr

/-- The check at the beginning of `calculate`, `expreval.c` 3378-3387. -/
def chk (v : Val) : Except CErr Unit := if v.hl ≠ 0#64 then .error .tooLarge else .ok ()

/-- `plus_op`, CONST-CONST, `expreval.c` 2585-2588. -/
def plusOp (a b : Val) : Val := ⟨a.ll + b.ll, a.hl⟩
/-- `minus_op`, CONST-CONST, `expreval.c` 2692-2695. -/
def minusOp (a b : Val) : Val := ⟨a.ll - b.ll, a.hl⟩
/-- `positive_op`, `expreval.c` 3166-3170. -/
def positiveOp (b : Val) : Val := b
/-- `negative_op`, `expreval.c` 3193-3202; `opnd1` is fresh, so its `hlvalue` is 0. -/
def negativeOp (b : Val) : Val := ⟨-b.ll, if b.hl ≠ 0#64 then -b.hl - 1#64 else 0#64⟩

def truth (a : Val) (c : Bool) : Val := ⟨if c then -1#64 else 0#64, a.hl⟩

/-- Binary operators on two constants, `expreval.c` 3514 (`*`), 3567-3573 (`/`), 3671-3750. SHL/SHR with a negative count emit an
error but go on; here that is an error. -/
def binConst (cfg : Cfg) : BName → Val → Val → Except CErr Val
  | .mul, a, b => .ok ⟨a.ll * b.ll, a.hl⟩
  | .div, a, b =>
    if b.ll = 0#64 then .error .divZero
    else if a.ll = BitVec.intMin 64 ∧ b.ll = -1#64 then .error .sigfpe
    else .ok ⟨a.ll.sdiv b.ll, a.hl⟩
  | .eq, a, b => .ok (truth a (a.ll == b.ll))
  | .ne, a, b => .ok (truth a (a.ll != b.ll))
  | .lt, a, b => .ok (truth a (a.ll.slt b.ll))
  | .le, a, b => .ok (truth a (a.ll.sle b.ll))
  | .gt, a, b => .ok (truth a (b.ll.slt a.ll))
  | .ge, a, b => .ok (truth a (b.ll.sle a.ll))
  | .mod, a, b => if b.ll = 0#64 then .error .divZero else .ok ⟨a.ll % b.ll, a.hl⟩
  | .shl, a, b =>
    if b.value.slt 0#32 then .error .countNegative
    else
      let r := if b.value.toNat ≥ 64 then 0#64 else a.ll <<< b.value.toNat
      .ok (if cfg.m510 then ⟨r &&& 0xffffffff#64, 0#64⟩ else ⟨r, a.hl⟩)
  | .shr, a, b =>
    if b.value.slt 0#32 then .error .countNegative
    else if b.value.toNat ≥ 64 then .ok ⟨0#64, a.hl⟩
    else if a.value = -1#32 ∧ cfg.use32 then
      .ok ⟨(if cfg.ulong64 then a.ll else a.ll &&& 0xffffffff#64) >>> b.value.toNat, a.hl⟩
    else .ok ⟨a.ll >>> b.value.toNat, a.hl⟩
  | .and, a, b => .ok ⟨a.ll &&& b.ll, a.hl⟩
  | .or, a, b => .ok ⟨a.ll ||| b.ll, a.hl⟩
  | .xor, a, b => .ok ⟨a.ll ^^^ b.ll, a.hl⟩
  | .ptr, _, _ => .error .notNumeric
  | .colon, _, _ => .error .notNumeric

/-- Named unary operators on a constant: NOT `expreval.c` 3772; `lowword_op`, `highword_op`, `low_op`, `high_op`, `low32_op`,
`high32_op`, `expreval.c` 2296-2409. -/
def unConst : UName → Val → Except CErr Val
  | .not, b => .ok ⟨~~~b.ll, b.hl⟩
  | .low, b => .ok ⟨b.ll &&& 0xff#64, b.hl⟩
  | .high, b =>
    -- opnd1->value = opnd1->value >> 8 (32-bit arithmetic shift, hvalue kept), then llvalue &= 0xff
    .ok ⟨((b.ll &&& 0xffffffff00000000#64) ||| (b.value.sshiftRight 8).setWidth 64) &&& 0xff#64, b.hl⟩
  | .lowword, b => .ok ⟨b.ll &&& 0xffff#64, b.hl⟩
  | .highword, b => .ok ⟨((b.value.sshiftRight 16) &&& 0xffff#32).signExtend 64, b.hl⟩
  | .low32, b => .ok ⟨b.ll &&& 0xffffffff#64, b.hl⟩
  | .high32, b => .ok ⟨b.ll >>> 32, b.hl⟩
  | _, _ => .error .notNumeric

/-- `calculate` for constants. -/
def constSem (cfg : Cfg) : Sem Val CErr where
  bracket _ b := do chk b; .ok b
  juxt _ a b := do chk b; .ok (plusOp a b)
  un u b := match u with
    | .pos => .ok (positiveOp b)
    | .neg => .ok (negativeOp b)
    | .nm n => do chk b; unConst n b
  bin o a b := do
    chk b
    match o with
    | .add => .ok (plusOp a b)
    | .sub => .ok (minusOp a b)
    | .nm n => binConst cfg n a b

end Verif.Expr
