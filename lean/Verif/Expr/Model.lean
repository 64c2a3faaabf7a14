/-!
# Model of the expression evaluator (`/repo/expreval.c`)

Part 1 (`evaluate`) is generic in the operands and in what the operators do to them: `V` stands for `struct expr` with a
kind other than EXPR_EMPTY (EXPR_EMPTY is `none`), `Sem` for `calculate()`. Part 2 is `calculate()` for constants.
-/
namespace Verif.Expr

/-- Unary operators with their own name: `T_NOT` (`expreval.c` 4289) and the RWT_UNARY_OP entries of `H/special.h` 316-351
except OPATTR and .TYPE, which have their own rules in `evaluate`. -/
inductive UName
  | not | high | high32 | highword | low | low32 | lowword
  | length | lengthof | size | sizeof | mask | width
  | offset | lroffset | seg | this | type | imagerel | sectionrel | frameofs | argidx | argsize | argtype
  | short
  deriving DecidableEq, Repr

/-- Unary operators; `pos`, `neg` are `+` and `-` before an operand. -/
inductive UnOp
  | pos | neg | nm (n : UName)
  deriving DecidableEq, Repr

/-- Binary operators: `H/special.h` 356-363, `expreval.c` 4281-4300, and the special characters (`T_DOT` is not modelled). -/
inductive BName
  | mul | div | mod | shl | shr | eq | ne | lt | le | gt | ge | and | or | xor | ptr | colon
  deriving DecidableEq, Repr

/-- Binary operators with `+` and `-` behind an operand. -/
inductive BinOp
  | add | sub | nm (n : BName)
  deriving DecidableEq, Repr

/-- Token kinds as `evaluate` distinguishes them. `+` and `-` get their role (`specval`) only during evaluation. `sq` marks
square brackets. `operand` is a token that `get_operand` accepts, `junk` one that is neither operand nor operator. -/
inductive Tok (V : Type)
  | operand (v : V)
  | plus | minus
  | un (u : UName)
  | bin (b : BName)
  | op (sq : Bool)
  | cl (sq : Bool)
  | junk

/-- What `calculate` does: `bracket` = T_OP_BRACKET/T_OP_SQ_BRACKET with empty left operand, `juxt` = the same with a left
operand. -/
structure Sem (V E : Type) where
  bracket : Bool → V → Except E V
  juxt : Bool → V → V → Except E V
  un : UnOp → V → Except E V
  bin : BinOp → V → V → Except E V

/-- Errors of the evaluator itself. -/
inductive PErr
  | missingOperator      -- OperErr
  | operandExpected      -- get_operand default
  | missingParen         -- MISSING_RIGHT_PARENTHESIS_IN_EXPRESSION
  deriving DecidableEq, Repr

inductive Err (E : Type)
  | parse (e : PErr)
  | calcErr (e : E)
  deriving DecidableEq, Repr

/-- Precedence of the named unary operators: `H/special.h`, `expreval.c` 4290 (NOT). -/
def UName.prec : UName → Nat
  | .length | .lengthof | .size | .sizeof | .mask | .width => 3
  | .offset | .lroffset | .seg | .this | .type | .imagerel | .sectionrel | .frameofs | .argidx | .argsize | .argtype => 5
  | .high | .high32 | .highword | .low | .low32 | .lowword => 6
  | .not => 11
  | .short => 14

/-- `get_precedence` for unary operators, `expreval.c` 692-716 (unary plus, minus: 7). -/
def UnOp.prec : UnOp → Nat
  | .pos | .neg => 7
  | .nm n => n.prec

/-- Precedence of the binary operators, `H/special.h` 356-363, `expreval.c` 707-713, 4281-4300. -/
def BName.prec : BName → Nat
  | .colon => 3
  | .ptr => 4
  | .mul | .div | .mod | .shl | .shr => 8
  | .eq | .ne | .lt | .le | .gt | .ge => 10
  | .and => 12
  | .or | .xor => 13

/-- `get_precedence` for binary operators (binary plus, minus: 9), `expreval.c` 715. -/
def BinOp.prec : BinOp → Nat
  | .add | .sub => 9
  | .nm n => n.prec

/-- Precedence of `(` and `[`: 9 with OPTION M510 (-Zm), else 1; `expreval.c` 703. -/
def bracketPrec (m510 : Bool) : Nat := if m510 then 9 else 1

/-- An operator together with the role it has been given. -/
inductive Oper | un (u : UnOp) | bin (b : BinOp) | br (sq : Bool)
  deriving DecidableEq, Repr

def Oper.prec (m510 : Bool) : Oper → Nat
  | .un u => u.prec
  | .bin b => b.prec
  | .br _ => bracketPrec m510

/-- `is_unary_op`, `expreval.c` 744, and the role of the token at the beginning of an operand. -/
def unaryRole {V : Type} : Tok V → Option Oper
  | .plus => some (.un .pos)
  | .minus => some (.un .neg)
  | .un n => some (.un (.nm n))
  | .op sq => some (.br sq)
  | _ => none

/-- The checks behind an operand, `expreval.c` 4124-4126 and 4208-4210: `+`/`-` become binary, unary operators and operands
are an error. -/
def binaryRole {V : Type} : Tok V → Option Oper
  | .plus => some (.bin .add)
  | .minus => some (.bin .sub)
  | .bin n => some (.bin (.nm n))
  | .op sq => some (.br sq)
  | _ => none

def isClose {V : Type} : Tok V → Bool
  | .cl _ => true
  | _ => false

/-- The result type: `none` = does not return, otherwise error or a value. -/
abbrev M (E α : Type) := ExceptT (Err E) Option α

def perr {E α : Type} (e : PErr) : M E α := throw (.parse e)

def liftC {E α : Type} : Except E α → M E α
  | .ok a => pure a
  | .error e => throw (.calcErr e)

/-- `calculate( opnd1, opnd2, oper )` dispatch, `expreval.c` 3388-3935. -/
def calculate {V E : Type} (sem : Sem V E) (o : Oper) (opnd1 : Option V) (opnd2 : V) : M E V :=
  match o, opnd1 with
  | .br sq, none => liftC (sem.bracket sq opnd2)
  | .br sq, some v => liftC (sem.juxt sq v opnd2)
  | .un u, _ => liftC (sem.un u opnd2)
  | .bin b, some v => liftC (sem.bin b v opnd2)
  | .bin _, none => perr .operandExpected

/-- `get_operand`, `expreval.c` 851-1380: `T_NUM` and the like; anything else is an error (default case 1350-1366). -/
def getOperand {V E : Type} : List (Tok V) → M E (V × List (Tok V))
  | .operand v :: ts => pure (v, ts)
  | _ => perr .operandExpected

mutual
/-- `evaluate`, `expreval.c` 4028-4252. `one` is EXPF_ONEOPND. The token list is `tokenarray[*i .. end)`; the token at `end` is
taken to be no bracket. Not modelled: the `.label` syntax, RECORD literals, the MASK/xmm special case, OPATTR. -/
def evaluate {V E : Type} (m510 : Bool) (sem : Sem V E) (one : Bool) (opnd1 : Option V) (ts : List (Tok V)) :
    M E (Option V × List (Tok V)) :=
  match opnd1, ts with
  | none, [] => perr .operandExpected
  | none, t :: ts' =>
    match unaryRole t with
    | some _ => loop m510 sem one none (t :: ts')
    | none => do
      let (v, r) ← getOperand (t :: ts')
      loop m510 sem one (some v) r
  | some v, ts => loop m510 sem one (some v) ts
partial_fixpoint
/-- The outer loop, `expreval.c` 4114-4240. -/
def loop {V E : Type} (m510 : Bool) (sem : Sem V E) (one : Bool) (opnd1 : Option V) (ts : List (Tok V)) :
    M E (Option V × List (Tok V)) :=
  match ts with
  | [] => pure (opnd1, [])
  | t :: ts' =>
    if isClose t then pure (opnd1, t :: ts')
    else match (if opnd1.isSome then binaryRole t else unaryRole t) with
      | none => perr .missingOperator
      | some o => do
        let (opnd2, r) ← readOperand m510 sem o ts'
        let (opnd2, r) ← climb m510 sem (o.prec m510) opnd2 r
        let v ← calculate sem o opnd1 opnd2
        if one then pure (some v, r) else loop m510 sem one (some v) r
partial_fixpoint
/-- Reading the operand behind an operator, `expreval.c` 4164-4199. -/
def readOperand {V E : Type} (m510 : Bool) (sem : Sem V E) (o : Oper) (ts : List (Tok V)) : M E (V × List (Tok V)) :=
  match o, ts with
  | .br sq, ts => do
    let (v, r) ← evaluate m510 sem false none ts
    match v, r with
    | some v, .cl sq' :: r' => if sq' = sq then pure (v, r') else perr .missingParen
    | _, _ => perr .missingParen
  | _, [] => perr .operandExpected
  | _, t :: ts' =>
    match unaryRole t with
    | some _ => do
      let (v, r) ← evaluate m510 sem true none (t :: ts')
      match v with
      | some v => pure (v, r)
      | none => perr .operandExpected
    | none => getOperand (t :: ts')
partial_fixpoint
/-- The inner loop, `expreval.c` 4205-4221: as long as the next operator binds tighter than the current one, it takes the
operand just read as its left operand. -/
def climb {V E : Type} (m510 : Bool) (sem : Sem V E) (p : Nat) (opnd2 : V) (ts : List (Tok V)) : M E (V × List (Tok V)) :=
  match ts with
  | [] => pure (opnd2, [])
  | t :: ts' =>
    if isClose t then pure (opnd2, t :: ts')
    else match binaryRole t with
      | none => perr .missingOperator
      | some o =>
        if o.prec m510 ≥ p then pure (opnd2, t :: ts')
        else do
          let (v, r) ← evaluate m510 sem true (some opnd2) (t :: ts')
          match v with
          | some v => climb m510 sem p v r
          | none => perr .operandExpected
partial_fixpoint
end

end Verif.Expr
