import Verif.Expr.Model
/-!
# Specification: what tree a token string stands for

An expression is a tree. Its text is obtained by writing operators and brackets in the obvious way. `WF` says which trees may
be written without further brackets: the documented rules "operators of higher precedence are applied first, operators of
equal precedence from left to right, a prefix operator applies to everything behind it that binds tighter".
The precedence table is the one of the manual (MASM Programmer's Guide, Table 1.3, with the changes stated in
`expreval.c` 675-688); lower numbers bind tighter.
-/
namespace Verif.Expr

inductive Ex (V : Type)
  | opnd (v : V)
  | brk (sq : Bool) (e : Ex V)          -- ( e ) or [ e ]
  | un (u : UnOp) (e : Ex V)
  | bin (b : BinOp) (l r : Ex V)
  | juxt (sq : Bool) (l e : Ex V)       -- l ( e ) or l [ e ]

/-- Documented precedence levels. -/
def unLevel : UnOp → Nat
  | .nm .length => 3 | .nm .lengthof => 3 | .nm .size => 3 | .nm .sizeof => 3 | .nm .mask => 3 | .nm .width => 3
  | .nm .offset => 5 | .nm .lroffset => 5 | .nm .seg => 5 | .nm .this => 5 | .nm .type => 5
  | .nm .imagerel => 5 | .nm .sectionrel => 5 | .nm .frameofs => 5 | .nm .argidx => 5 | .nm .argsize => 5 | .nm .argtype => 5
  | .nm .high => 6 | .nm .highword => 6 | .nm .high32 => 6 | .nm .low => 6 | .nm .lowword => 6 | .nm .low32 => 6
  | .pos => 7 | .neg => 7
  | .nm .not => 11
  | .nm .short => 14

def binLevel : BinOp → Nat
  | .nm .colon => 3
  | .nm .ptr => 4
  | .nm .mul => 8 | .nm .div => 8 | .nm .mod => 8 | .nm .shl => 8 | .nm .shr => 8
  | .add => 9 | .sub => 9
  | .nm .eq => 10 | .nm .ne => 10 | .nm .lt => 10 | .nm .le => 10 | .nm .gt => 10 | .nm .ge => 10
  | .nm .and => 12
  | .nm .or => 13 | .nm .xor => 13

namespace Ex
variable {V E : Type}

/-- The operator as written. -/
def unTok : UnOp → Tok V
  | .pos => .plus
  | .neg => .minus
  | .nm n => .un n

def binTok : BinOp → Tok V
  | .add => .plus
  | .sub => .minus
  | .nm n => .bin n

def toks : Ex V → List (Tok V)
  | opnd v => [.operand v]
  | brk sq e => .op sq :: (e.toks ++ [.cl sq])
  | un u e => unTok u :: e.toks
  | bin b l r => l.toks ++ (binTok b :: r.toks)
  | juxt sq l e => l.toks ++ (.op sq :: (e.toks ++ [.cl sq]))

/-- Level of the loosest operator that is exposed at the right end (0 if none). -/
def right : Ex V → Nat
  | opnd _ => 0
  | brk _ _ => 0
  | un u e => max (unLevel u) e.right
  | bin b _ r => max (binLevel b) r.right
  | juxt _ _ _ => 1

/-- Level of the root if it is an infix operator (0 otherwise). -/
def root : Ex V → Nat
  | bin b _ _ => binLevel b
  | juxt _ _ _ => 1
  | _ => 0

/-- No brackets are missing. -/
def WF : Ex V → Prop
  | opnd _ => True
  | brk _ e => e.WF
  | un u e => e.WF ∧ e.root < unLevel u
  | bin b l r => l.WF ∧ r.WF ∧ l.right ≤ binLevel b ∧ r.root < binLevel b
  | juxt _ l e => l.WF ∧ e.WF ∧ l.right ≤ 1

/-- Value of a tree, operands from left to right; the first error wins. -/
def eval (sem : Sem V E) : Ex V → Except E V
  | opnd v => .ok v
  | brk sq e => do sem.bracket sq (← e.eval sem)
  | un u e => do sem.un u (← e.eval sem)
  | bin b l r => do
    let x ← l.eval sem
    let y ← r.eval sem
    sem.bin b x y
  | juxt sq l e => do
    let x ← l.eval sem
    let y ← e.eval sem
    sem.juxt sq x y

end Ex

/-- The evaluator stops at the end of the expression or at a closing bracket it did not open. -/
def AtEnd {V : Type} : List (Tok V) → Prop
  | [] => True
  | .cl _ :: _ => True
  | _ => False

end Verif.Expr
