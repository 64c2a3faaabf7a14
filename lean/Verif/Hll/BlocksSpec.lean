import Verif.Hll.Blocks
import Verif.Hll.Spec
/-!
# Specification for C49: structured programs, their text, their meaning, and the execution of the resulting lines

Nothing here uses the functions of the model, only its types of tokens, directives and lines. -/
namespace Verif.Hll

/-! ## Programs -/

/-- The ends of a .REPEAT block: `.UNTIL c`, `.UNTILCXZ`, `.UNTILCXZ c`. -/
inductive Until (κ : Type) | cond (c : κ) | cxz | cxzCond (c : κ)

mutual
/-- Programs with conditions of type `κ` and other lines of type `β`. -/
inductive Stmt (κ β : Type)
  | skip
  | user (u : β)
  | seq (a b : Stmt κ β)
  | ifs (c : κ) (t : Stmt κ β) (e : Els κ β)
  | whil (c : κ) (b : Stmt κ β)
  | rep (b : Stmt κ β) (u : Until κ)
  /-- `c` = none: no text between the colons -/
  | forl (init : List β) (c : Option κ) (count : List β) (b : Stmt κ β)
  /-- .BREAK, .BREAK .IF c -/
  | brk (c : Option κ)
  | cont (c : Option κ)
/-- What follows the first block of .IF. -/
inductive Els (κ β : Type)
  | endif
  | els (p : Stmt κ β)
  | elif (c : κ) (t : Stmt κ β) (e : Els κ β)
end

/-! ## Source text -/

section
variable {α β κ : Type} (pr : κ → List (Tok α))

def Until.print : Until κ → Dir α β
  | .cond c => .until_ (pr c)
  | .cxz => .untilcxz []
  | .cxzCond c => .untilcxz (pr c)

mutual
def Stmt.print : Stmt κ β → List (Dir α β)
  | .skip => []
  | .user u => [.user u]
  | .seq a b => a.print ++ b.print
  | .ifs c t e => .if_ (pr c) :: (t.print ++ e.print)
  | .whil c b => .while_ (pr c) :: (b.print ++ [.endw])
  | .rep b u => .repeat_ :: (b.print ++ [u.print pr])
  | .forl init c count b => .for_ init (c.elim [] pr) count :: (b.print ++ [.endfor])
  | .brk c => [.break_ (c.map pr)]
  | .cont c => [.continue_ (c.map pr)]
def Els.print : Els κ β → List (Dir α β)
  | .endif => [.endif]
  | .els p => .else_ :: (p.print ++ [.endif])
  | .elif c t e => .elseif (pr c) :: (t.print ++ e.print)
end
end

/-! ## The processor -/

/-- What the lines do. `S`: registers and memory. -/
structure Mach (α β S : Type) where
  /-- the values of operands -/
  env : S → Env α
  /-- a line of the source that is not a block directive -/
  act : β → S × Flags → S × Flags
  /-- decrement of CX, ECX or RCX by LOOP -/
  dec : S → S
  /-- CX is 0 -/
  cxz : S → Bool

section
variable {α β S : Type} (M : Mach α β S)

/-- The condition of LOOP, LOOPZ (LOOPE), LOOPNZ (LOOPNE) on the flags -/
def loopFlag : LoopK → Flags → Bool
  | .loop, _ => true
  | .loopz, f => f.z
  | .loopnz, f => !f.z

/-- LOOP, LOOPZ, LOOPNZ after the decrement -/
def loopTaken (k : LoopK) (st : S × Flags) : Bool := !M.cxz st.1 && loopFlag k st.2

/-- One step of the program `C`; the state is the line number, registers and memory, and the flags. -/
inductive Step (C : List (BLine α β)) : Nat × S × Flags → Nat × S × Flags → Prop
  | user {pc u st} : C[pc]? = some (.user u) → Step C (pc, st) (pc + 1, M.act u st)
  | ins {pc i s f} : C[pc]? = some (.gen (.ins i)) → Step C (pc, s, f) (pc + 1, s, i.exec (M.env s))
  | label {pc l st} : C[pc]? = some (.gen (.label l)) → Step C (pc, st) (pc + 1, st)
  | skip {pc m l c s f} : C[pc]? = some (.gen (.jump m l)) → jumpCond m.chars = some c → c f = false →
      Step C (pc, s, f) (pc + 1, s, f)
  | jump {pc m l c k s f} : C[pc]? = some (.gen (.jump m l)) → jumpCond m.chars = some c → c f = true →
      C[k]? = some (.gen (.label l)) → Step C (pc, s, f) (k, s, f)
  | loopNo {pc k l s f} : C[pc]? = some (.loop k l) → loopTaken M k (M.dec s, f) = false →
      Step C (pc, s, f) (pc + 1, M.dec s, f)
  | loopYes {pc k l j s f} : C[pc]? = some (.loop k l) → loopTaken M k (M.dec s, f) = true →
      C[j]? = some (.gen (.label l)) → Step C (pc, s, f) (j, M.dec s, f)

/-- `n` steps -/
inductive Steps (C : List (BLine α β)) : Nat → Nat × S × Flags → Nat × S × Flags → Prop
  | zero {x} : Steps C 0 x x
  | succ {n x y z} : Step M C x y → Steps C n y z → Steps C (n + 1) x z

/-- The program started at its first line arrives behind its last line in the state `st'`. -/
def Computes (C : List (BLine α β)) (st st' : S × Flags) : Prop := ∃ n, Steps M C n (0, st) (C.length, st')

/-- The labels defined in a program. -/
def labelsOf (C : List (BLine α β)) : List Nat :=
  C.filterMap fun x => match x with | .gen (.label l) => some l | _ => none

/-! ## Meaning of programs -/

/-- How a statement is left. -/
inductive Out | norm | brk | cont
  deriving DecidableEq, Repr

/-- A loop with the test `c` at the top and `nxt` behind the body. -/
inductive LoopEx {T : Type} (c : T → Bool × T) (body : T → Out → T → Prop) (nxt : T → T) : T → T → Prop
  | stop {s} : (c s).1 = false → LoopEx c body nxt s (c s).2
  | brk {s s'} : (c s).1 = true → body (c s).2 .brk s' → LoopEx c body nxt s s'
  | next {s o s1 s'} : (c s).1 = true → body (c s).2 o s1 → o ≠ .brk → LoopEx c body nxt (nxt s1) s' →
      LoopEx c body nxt s s'

/-- A loop with the test `u` (true: leave) at the bottom. -/
inductive RepeatEx {T : Type} (body : T → Out → T → Prop) (u : T → Bool × T) : T → T → Prop
  | brk {s s'} : body s .brk s' → RepeatEx body u s s'
  | stop {s o s1} : body s o s1 → o ≠ .brk → (u s1).1 = true → RepeatEx body u s (u s1).2
  | next {s o s1 s'} : body s o s1 → o ≠ .brk → (u s1).1 = false → RepeatEx body u (u s1).2 s' → RepeatEx body u s s'

/-- Evaluation of a condition: its value and the state afterwards. -/
def condEv (c : OrE α) (st : S × Flags) : Bool × S × Flags :=
  let r := c.eval (M.env st.1) st.2
  (r.1, st.1, r.2)

def actAll (us : List β) (st : S × Flags) : S × Flags := us.foldl (fun st u => M.act u st) st

/-- Is the loop left, and the state. -/
def untilEv : Until (OrE α) → S × Flags → Bool × S × Flags
  | .cond c, st => condEv M c st
  | .cxz, st => (M.cxz (M.dec st.1), M.dec st.1, st.2)
  | .cxzCond c, st =>
    let r := condEv M c st
    (r.1 || M.cxz (M.dec r.2.1), M.dec r.2.1, r.2.2)

mutual
def Stmt.Exec : Stmt (OrE α) β → S × Flags → Out → S × Flags → Prop
  | .skip, s, o, s' => o = .norm ∧ s' = s
  | .user u, s, o, s' => o = .norm ∧ s' = M.act u s
  | .seq a b, s, o, s' => (∃ s1, a.Exec s .norm s1 ∧ b.Exec s1 o s') ∨ (o ≠ .norm ∧ a.Exec s o s')
  | .ifs c t e, s, o, s' =>
    ((condEv M c s).1 = true ∧ t.Exec (condEv M c s).2 o s') ∨ ((condEv M c s).1 = false ∧ e.Exec (condEv M c s).2 o s')
  | .whil c b, s, o, s' => o = .norm ∧ LoopEx (condEv M c) b.Exec id s s'
  | .rep b u, s, o, s' => o = .norm ∧ RepeatEx b.Exec (untilEv M u) s s'
  | .forl init c count b, s, o, s' =>
    o = .norm ∧ LoopEx (c.elim (fun s => (true, s)) (condEv M)) b.Exec (actAll M count) (actAll M init s) s'
  | .brk none, s, o, s' => o = .brk ∧ s' = s
  | .brk (some c), s, o, s' => o = (if (condEv M c s).1 then .brk else .norm) ∧ s' = (condEv M c s).2
  | .cont none, s, o, s' => o = .cont ∧ s' = s
  | .cont (some c), s, o, s' => o = (if (condEv M c s).1 then .cont else .norm) ∧ s' = (condEv M c s).2
def Els.Exec : Els (OrE α) β → S × Flags → Out → S × Flags → Prop
  | .endif, s, o, s' => o = .norm ∧ s' = s
  | .els p, s, o, s' => p.Exec s o s'
  | .elif c t e, s, o, s' =>
    ((condEv M c s).1 = true ∧ t.Exec (condEv M c s).2 o s') ∨ ((condEv M c s).1 = false ∧ e.Exec (condEv M c s).2 o s')
end

/-! ## Programs that are covered

`.BREAK` and `.CONTINUE` have to be in a loop, and the conditions have to be of the kind for which the code of the
condition is right (`P c m`, see C28; `m` is true if the code jumps when the condition is true). -/

mutual
/-- The first operand that is evaluated. -/
def Simple.fst : Simple α → Atom α
  | .atom a => a
  | .not s => s.fst
  | .paren e => e.fst
def AndE.fst : AndE α → Atom α
  | .one s => s.fst
  | .cons s _ => s.fst
def OrE.fst : OrE α → Atom α
  | .one a => a.fst
  | .cons a _ => a.fst
end

/-- a constant as operand without operator -/
def Atom.isConst : Atom α → Bool
  | .val a => a.o.kind.isConst
  | _ => false

/-- The value of a condition that is only a constant. -/
def OrE.lone : OrE α → Option Bool
  | .one (.one (.atom (.val a))) => match a.o.kind with | .const v => some (v != 0) | _ => none
  | _ => none

/-- .WHILE and .FOR: a condition that begins with a constant is only the constant. -/
def OrE.loopOk (c : OrE α) : Prop := c.fst.isConst = true → c.lone.isSome = true

/-- .UNTILCXZ: `a == b`, `a != b` and `a`, possibly with `!`. -/
def Simple.cxzOk : Simple α → Prop
  | .atom (.cmp c _ _) => c = .eq ∨ c = .ne
  | .atom (.val a) => a.o.kind.isConst = false
  | .not s => s.cxzOk
  | _ => False

def Until.Ok (P : OrE α → Bool → Prop) : Until (OrE α) → Prop
  | .cond c => P c false
  | .cxz => True
  | .cxzCond c => P c false ∧ ∃ s, c = .one (.one s) ∧ s.cxzOk

mutual
def Stmt.Ok (P : OrE α → Bool → Prop) (inLoop : Bool) : Stmt (OrE α) β → Prop
  | .skip => True
  | .user _ => True
  | .seq a b => a.Ok P inLoop ∧ b.Ok P inLoop
  | .ifs c t e => P c false ∧ t.Ok P inLoop ∧ e.Ok P inLoop
  | .whil c b => P c true ∧ c.loopOk ∧ b.Ok P true
  | .rep b u => b.Ok P true ∧ u.Ok P
  | .forl _ c _ b => (∀ x, c = some x → P x true ∧ x.loopOk ∧ x.lone ≠ some false) ∧ b.Ok P true
  | .brk c => inLoop = true ∧ ∀ x, c = some x → P x true
  | .cont c => inLoop = true ∧ ∀ x, c = some x → P x true
def Els.Ok (P : OrE α → Bool → Prop) (inLoop : Bool) : Els (OrE α) β → Prop
  | .endif => True
  | .els p => p.Ok P inLoop
  | .elif c t e => P c false ∧ t.Ok P inLoop ∧ e.Ok P inLoop
end

end
end Verif.Hll
