/-!
# Model of the queue of generated source lines (`/repo/lqueue.c`)

The queue is a singly linked list of heap nodes. The model keeps the heap explicit, so that a wrong pointer, a node used
after it was freed or a lost node is visible. Processing a line (`PreprocessLine` + `ParseLine`) is an arbitrary program
that reads and changes the rest of the assembler state (`σ`), may queue lines, and may run or delete the queue itself.
-/
namespace Verif.LineQueue

/-- `struct lq_line`, `lqueue.c` 25-31. `L` is the type of lines; pointers are numbers, 0 = NULL. -/
structure Node (L : Type) where
  next : Nat
  line : L

/-- What `ParseLine` does with a line, seen from the line queue. -/
inductive Prog (σ L : Type) where
  | done
  /-- anything that does not touch the queue -/
  | upd (f : σ → σ) (k : Prog σ L)
  /-- `AddLineQueue()`; the text may depend on the state -/
  | add (f : σ → L) (k : Prog σ L)
  /-- `RunLineQueue()` -/
  | run (k : Prog σ L)
  /-- `if ( is_linequeue_populated() ) RunLineQueue();` (e.g. `parser.c`, `hll.c`, `proc.c`) -/
  | runIf (k : Prog σ L)
  /-- `DeleteLineQueue()` -/
  | del (k : Prog σ L)
  /-- any decision taken on the rest of the state -/
  | branch (c : σ → Bool) (p q : Prog σ L)

/-- The heap, `line_queue.head`, `line_queue.tail`, the rest of the assembler; and, for observation, the lines assembled so
far and the lines queued so far (latest last). -/
structure St (σ L : Type) where
  heap : Nat → Option (Node L)
  head : Nat
  tail : Nat
  env : σ
  log : List L
  added : List L

/-- Outcome: `fault` is an access to a node that does not exist (never allocated, or freed); `timeout` is an unfinished
computation. -/
inductive Res (α : Type) where
  | ok (a : α)
  | fault
  | timeout

def Res.bind {α β : Type} : Res α → (α → Res β) → Res β
  | .ok a, f => f a
  | .fault, _ => .fault
  | .timeout, _ => .timeout

def setHeap {L : Type} (h : Nat → Option (Node L)) (p : Nat) (v : Option (Node L)) : Nat → Option (Node L) :=
  fun a => if a = p then v else h a

/-- `AddLineQueue`, `lqueue.c` 58-82. `alloc` is `MemAlloc`. Line 79 writes through `tail`. -/
def addLine {σ L : Type} (alloc : (Nat → Option (Node L)) → Nat) (s : St σ L) (l : L) : Res (St σ L) :=
  let new := alloc s.heap
  let h := setHeap s.heap new (some ⟨0, l⟩)
  if s.head = 0 then
    .ok { s with heap := h, head := new, tail := new, added := s.added ++ [l] }
  else
    match h s.tail with
    | none => .fault
    | some n => .ok { s with heap := setHeap h s.tail (some ⟨new, n.line⟩), tail := new, added := s.added ++ [l] }

/-- `MemFree` of a node. -/
def freeNode {σ L : Type} (s : St σ L) (p : Nat) : St σ L := { s with heap := setHeap s.heap p none }

/-- `DeleteLineQueue`, `lqueue.c` 43-53. -/
def delLoop {σ L : Type} : Nat → Nat → St σ L → Res (St σ L)
  | 0, _, _ => .timeout
  | fuel + 1, curr, s =>
    if curr = 0 then .ok { s with head := 0 }
    else match s.heap curr with
      | none => .fault
      | some n => delLoop fuel n.next (freeNode s curr)

mutual
/-- Execution of what `ParseLine` does. -/
def exec {σ L : Type} (alloc : (Nat → Option (Node L)) → Nat) (beh : L → Prog σ L) : Nat → Prog σ L → St σ L → Res (St σ L)
  | 0, _, _ => .timeout
  | _ + 1, .done, s => .ok s
  | fuel + 1, .upd f k, s => exec alloc beh fuel k { s with env := f s.env }
  | fuel + 1, .add f k, s => (addLine alloc s (f s.env)).bind (exec alloc beh fuel k)
  | fuel + 1, .run k, s => (runQueue alloc beh fuel s).bind (exec alloc beh fuel k)
  | fuel + 1, .runIf k, s =>
    if s.head ≠ 0 then (runQueue alloc beh fuel s).bind (exec alloc beh fuel k) else exec alloc beh fuel k s
  | fuel + 1, .del k, s => (delLoop fuel s.head s).bind (exec alloc beh fuel k)
  | fuel + 1, .branch c p q, s => if c s.env then exec alloc beh fuel p s else exec alloc beh fuel q s
/-- `RunLineQueue`, `lqueue.c` 240-257: the head is saved and cleared (line 254), then the loop. Saving and restoring the
input status (lines 247, 271) does not touch the queue and is not modelled. -/
def runQueue {σ L : Type} (alloc : (Nat → Option (Node L)) → Nat) (beh : L → Prog σ L) : Nat → St σ L → Res (St σ L)
  | 0, _ => .timeout
  | fuel + 1, s => runLoop alloc beh fuel s.head { s with head := 0 }
/-- The loop of `RunLineQueue`, `lqueue.c` 258-266: `next` is fetched and the text copied before the node is freed, then the
line is processed. -/
def runLoop {σ L : Type} (alloc : (Nat → Option (Node L)) → Nat) (beh : L → Prog σ L) : Nat → Nat → St σ L → Res (St σ L)
  | 0, _, _ => .timeout
  | fuel + 1, curr, s =>
    if curr = 0 then .ok s
    else match s.heap curr with
      | none => .fault
      | some n =>
        let s := freeNode s curr
        (exec alloc beh fuel (beh n.line) { s with log := s.log ++ [n.line] }).bind (runLoop alloc beh fuel n.next)
end

end Verif.LineQueue
