import Verif.LineQueue.Model
/-!
# What the line queue is supposed to do

A queue is a list of lines; no pointers, no heap, no step counter.
-/
namespace Verif.LineQueue

/-- Abstract state: the queued lines (oldest first), the rest of the assembler, the lines assembled so far, the lines queued
so far. -/
structure Abs (σ L : Type) where
  queue : List L
  env : σ
  log : List L
  added : List L

mutual
/-- `Does beh p a a'`: the actions `p` lead from `a` to `a'`. -/
inductive Does {σ L : Type} (beh : L → Prog σ L) : Prog σ L → Abs σ L → Abs σ L → Prop
  | done (a) : Does beh .done a a
  | upd (f k a a') : Does beh k { a with env := f a.env } a' → Does beh (.upd f k) a a'
  | add (f k a a') : Does beh k { a with queue := a.queue ++ [f a.env], added := a.added ++ [f a.env] } a' → Does beh (.add f k) a a'
  | run (k a b a') : Runs beh a.queue { a with queue := [] } b → Does beh k b a' → Does beh (.run k) a a'
  | runIf (k a b a') : Runs beh a.queue { a with queue := [] } b → Does beh k b a' → Does beh (.runIf k) a a'
  | del (k a a') : Does beh k { a with queue := [] } a' → Does beh (.del k) a a'
  | branchT (c p q a a') : c a.env = true → Does beh p a a' → Does beh (.branch c p q) a a'
  | branchF (c p q a a') : c a.env = false → Does beh q a a' → Does beh (.branch c p q) a a'
/-- `Runs beh ls a a'`: the lines `ls` are assembled one after the other, each completely (with everything it generates and
runs) before the next one. -/
inductive Runs {σ L : Type} (beh : L → Prog σ L) : List L → Abs σ L → Abs σ L → Prop
  | nil (a) : Runs beh [] a a
  | cons (l ls a b a') : Does beh (beh l) { a with log := a.log ++ [l] } b → Runs beh ls b a' → Runs beh (l :: ls) a a'
end

end Verif.LineQueue
