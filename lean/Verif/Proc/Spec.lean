import Verif.Proc.Model
/-! # Specification: running a prologue and looking at the stack

A little machine executes the prologue; addresses are relative to the stack pointer at entry (where the return address is). -/
namespace Verif.Proc

/-- A part of the stack: lowest address and size. -/
structure Region where
  addr : Int
  size : Nat
  deriving DecidableEq, Repr

def Region.Disjoint (a b : Region) : Prop := a.addr + a.size ≤ b.addr ∨ b.addr + b.size ≤ a.addr

structure St where
  sp : Int
  bp : Int
  /-- what the prologue has stored (and the return address) -/
  saved : List Region
  deriving DecidableEq, Repr

/-- Execute one instruction; `ws` is the word size. -/
def step (ws : Nat) (s : St) : Op → St
  | .push => ⟨s.sp - ws, s.bp, ⟨s.sp - ws, ws⟩ :: s.saved⟩
  | .sub n => ⟨s.sp - n, s.bp, s.saved⟩
  | .setbp n => ⟨s.sp, s.sp + n, s.saved⟩
  | .save o n => ⟨s.sp, s.bp, ⟨s.sp + o, n⟩ :: s.saved⟩

/-- At entry: the return address (two words for a FAR procedure) is at the stack pointer. -/
def entry (ws : Nat) (far : Bool) : St := ⟨0, 0, [⟨0, (1 + if far then 1 else 0) * ws⟩]⟩

def run (ws : Nat) (far : Bool) (ops : List Op) : St := ops.foldl (step ws) (entry ws far)

/-- Variables as regions, addressed with register value `base`. -/
def regions (base : Int) (vars : List (Local × Int)) : List Region := vars.map (fun v => ⟨base + v.2, v.1.size⟩)
def pregions (base : Int) (vars : List (Nat × Int)) : List Region := vars.map (fun v => ⟨base + v.2, v.1⟩)

/-- A sound frame: what was saved and the locals are pairwise disjoint, and the locals lie between the stack pointer and the return
address. -/
structure FrameOk (st : St) (locals : List Region) : Prop where
  disjoint : (locals ++ st.saved).Pairwise Region.Disjoint
  inside : ∀ r ∈ locals, st.sp ≤ r.addr ∧ r.addr + r.size ≤ 0

/-- Addresses at which a caller leaves stack parameters: consecutive slots of whole words behind the return address. -/
def slots (ws : Nat) : Int → List Nat → List Region
  | _, [] => []
  | a, n :: r => ⟨a, n⟩ :: slots ws (a + ((n + (ws - 1)) / ws * ws : Nat)) r

end Verif.Proc
