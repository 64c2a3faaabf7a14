import Verif.CondAsm.Model
/-!
# Specification of conditional assembly

Structured source text as a tree, with the obvious big-step meaning: the first branch whose condition is
true is processed, everything else is ignored.  Only the vocabulary of lines/conditions/events is shared
with the model; the state machine of the model is not used.
-/
namespace Verif.CondAsm

mutual
/-- Structured source text. A block is `IF c body (ELSEIF c body)* [ELSE body] ENDIF`. -/
inductive Src
  | nil
  | line (n : Nat) (rest : Src)
  | block (c : Cond) (body : Src) (alts : Alts) (rest : Src)
/-- The part of a block after its first branch. -/
inductive Alts
  | endif
  | els (body : Src)
  | elseif (c : Cond) (body : Src) (alts : Alts)
end

mutual
/-- The line sequence of a structured text. -/
def Src.flat : Src → List Line
  | .nil => []
  | .line n r => .plain n :: r.flat
  | .block c b a r => .dir (.ifx c) :: (b.flat ++ (a.flat ++ r.flat))
def Alts.flat : Alts → List Line
  | .endif => [.dir (.endif false)]
  | .els b => .dir (.els false) :: (b.flat ++ [.dir (.endif false)])
  | .elseif c b a => .dir (.elseifx c) :: (b.flat ++ a.flat)
end

mutual
/-- Nesting depth. -/
def Src.depth : Src → Nat
  | .nil => 0
  | .line _ r => r.depth
  | .block _ b a r => max (1 + max b.depth a.depth) r.depth
def Alts.depth : Alts → Nat
  | .endif => 0
  | .els b => b.depth
  | .elseif _ b a => max b.depth a.depth
end

/-- Documented truth value of a condition (`none`: the operand is not acceptable, the assembler complains).
A numeric condition is decided by the low 32 bits of its value. -/
def truth {σ} (W : World σ) (w : σ) (c : Cond) : Option Bool :=
  if c.trailing then none else
  match c.kind, c.opnd with
  | .num neg, .expr e =>
    match W.evalNum w e with
    | .const v => some (decide (v.toNat % 2 ^ 32 ≠ 0) ^^ neg)
    | _ => none
  | .sym neg, .name n => some (W.isDefined w n ^^ neg)
  | .blk neg, .text a => some (a.all isSpace ^^ neg)
  | .lit neg ci, .texts a b =>
    some (decide (if ci then a.map toLower ≠ b.map toLower else a ≠ b) ^^ neg)
  | .pass1, _ => some true
  | .pass2, _ => if W.setif2 w then some true else none
  | _, _ => none

mutual
/-- Big-step meaning of a structured text: the final world and the observable events
(lines assembled, conditions evaluated).  `none` if an unacceptable condition is met. -/
def Src.exec {σ} (W : World σ) (w : σ) : Src → Option (σ × List Event)
  | .nil => some (w, [])
  | .line n r =>
    (r.exec W (W.assemble w n)).bind fun (w', ev) => some (w', .asm n :: ev)
  | .block c b a r =>
    (truth W w c).bind fun t =>
    (if t then b.exec W w else a.exec W w).bind fun (w', ev) =>
    (r.exec W w').bind fun (w'', ev') => some (w'', .eval c :: (ev ++ ev'))
/-- The remaining branches of a block none of whose earlier branches was taken. -/
def Alts.exec {σ} (W : World σ) (w : σ) : Alts → Option (σ × List Event)
  | .endif => some (w, [])
  | .els b => b.exec W w
  | .elseif c b a =>
    (truth W w c).bind fun t =>
    (if t then b.exec W w else a.exec W w).bind fun (w', ev) => some (w', .eval c :: ev)
end

/-! ## Block structure diagnostics

A directive history is checked with the plain textbook stack: one frame per open IF block. -/

/-- Status of an open IF block: still looking for a true branch, in the taken branch, or past it. -/
inductive Phase | seeking | taken | past
  deriving DecidableEq, Repr

structure Frame where
  phase : Phase
  elseSeen : Bool
  deriving DecidableEq, Repr

/-- Open blocks, innermost first, and the number of blocks opened inside skipped text. -/
structure Stack where
  frames : List Frame
  skipped : Nat
  deriving DecidableEq, Repr

def Stack.live (s : Stack) : Bool :=
  match s.frames with | [] => true | f :: _ => f.phase = .taken

/-- Checking one line. `truthOf` tells whether a condition holds. Result: new stack or the structural error. -/
def Stack.check (truthOf : Cond → Bool) (s : Stack) : Line → Except Err Stack
  | .plain _ => .ok s
  | .dir (.ifx c) =>
    if s.live then
      if s.frames.length ≥ 20 then .error .nesting
      else .ok { s with frames := ⟨if truthOf c then .taken else .seeking, false⟩ :: s.frames }
    else .ok { s with skipped := s.skipped + 1 }
  | .dir (.elseifx c) =>
    match s.frames with
    | [] => .error .noIf
    | f :: fs =>
      if s.skipped > 0 then .ok s
      else if f.elseSeen then .error .elseTwice
      else .ok { s with frames :=
        { f with phase := if f.phase = .seeking then (if truthOf c then .taken else .seeking) else .past } :: fs }
  | .dir (.els _) =>
    match s.frames with
    | [] => .error .noIf
    | f :: fs =>
      if s.skipped > 0 then .ok s
      else if f.elseSeen then .error .elseTwice
      else .ok { s with frames :=
        ⟨if f.phase = .seeking then .taken else .past, true⟩ :: fs }
  | .dir (.endif _) =>
    match s.frames with
    | [] => .error .noIf
    | _ :: fs => if s.skipped > 0 then .ok { s with skipped := s.skipped - 1 } else .ok { s with frames := fs }

/-- Every condition in the text is acceptable whenever it is evaluated, and ELSE/ENDIF have no operands. -/
def Acceptable {σ} (W : World σ) (ls : List Line) : Prop :=
  ∀ l ∈ ls, match l with
    | .plain _ => True
    | .dir (.ifx c) => ∀ w, truth W w c ≠ none
    | .dir (.elseifx c) => ∀ w, truth W w c ≠ none
    | .dir (.els t) => t = false
    | .dir (.endif t) => t = false

/-- The world after a line: a plain line is assembled iff the innermost open block is in its taken branch. -/
def nextWorld {σ} (W : World σ) (k : Stack) (w : σ) : Line → σ
  | .plain n => if k.live then W.assemble w n else w
  | .dir _ => w

/-- Check a whole text: the stack of blocks left open, or the first structural error. -/
def checkText {σ} (W : World σ) : σ → Stack → List Line → Except Err Stack
  | _, k, [] => .ok k
  | w, k, l :: ls =>
    match k.check (fun c => (truth W w c).getD false) l with
    | .error e => .error e
    | .ok k' =>
      checkText W (nextWorld W k w l) k' ls

/-- The diagnostics among the events, in order. -/
def errors : List Event → List Err
  | [] => []
  | .err e :: r => e :: errors r
  | _ :: r => errors r

end Verif.CondAsm
