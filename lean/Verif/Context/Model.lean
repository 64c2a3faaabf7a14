/-!
# Model of `/repo/context.c` (PUSHCONTEXT, POPCONTEXT) and of the parts of `/repo/assume.c` it uses

The stack and the list of free items are linked lists in a memory of nodes.
-/
namespace Verif.Context

/-- context_type, context.c 29-36; a mask of type bits is modelled as a list of kinds. -/
inductive Kind | assumes | radix | listing | cpu | alignment
  deriving DecidableEq, Repr

/-- struct assume_info for a segment register, H/assume.h 43-48; the symbol is given by its address. -/
structure SegAssume where
  symbol : Option Nat
  error : Nat
  isFlat : Bool
  deriving DecidableEq, Repr

/-- struct assume_info for a general register. `symbol` is NULL or the one type symbol of this register, `stdsym[]`,
assume.c 68, 329-332. -/
structure StdAssume where
  assumed : Bool
  error : Nat
  deriving DecidableEq, Repr

/-- struct stdassume_typeinfo, H/assume.h 51-57. -/
structure TypeInfo where
  type : Nat
  target : Nat
  memType : Nat
  ptrMemtype : Nat
  isPtr : Nat
  deriving DecidableEq, Repr

/-- The type symbol of a general register, as far as ASSUME sets it, assume.c 334-343. -/
structure Sym where
  info : TypeInfo
  totalSize : Nat
  isfar : Bool
  ofssize : Nat
  deriving DecidableEq, Repr

/-- struct listing_context, context.c 62-68. -/
structure Listing where
  listMacro : Nat
  list : Bool
  cref : Bool
  listif : Bool
  listGenerated : Bool
  deriving DecidableEq, Repr

/-- The settings of a module that ContextDirective reads and writes, and the default offset size which SetCPU sets. -/
structure Module where
  seg : Fin 6 → SegAssume
  std : Fin 16 → StdAssume
  syms : Fin 16 → Sym
  radix : Nat
  fieldalign : Nat
  procalign : Nat
  listing : Listing
  cpu : Nat
  currCpu : Nat
  /-- value of the symbol @Cpu, if sym_Cpu isn't NULL -/
  symCpu : Option Nat
  defOfssize : Nat

/-- The union in struct context, context.c 91-101. `type_content` is set for registers with a symbol only. -/
inductive Data
  | assumes (seg : Fin 6 → SegAssume) (std : Fin 16 → StdAssume) (ti : Fin 16 → Option TypeInfo)
  | radix (r : Nat)
  | listing (l : Listing)
  | cpu (cpu currCpu : Nat)
  | alignment (fieldalign procalign : Nat)

/-- curr->type -/
def Data.kind : Data → Kind
  | .assumes .. => .assumes
  | .radix .. => .radix
  | .listing .. => .listing
  | .cpu .. => .cpu
  | .alignment .. => .alignment

/-- context.c 211-233 with GetSegAssumeTable and GetStdAssumeTable, assume.c 92-98, 126-141. -/
def save (m : Module) : Kind → Data
  | .assumes => .assumes m.seg m.std (fun i => if (m.std i).assumed then some (m.syms i).info else none)
  | .radix => .radix m.radix
  | .listing => .listing m.listing
  | .cpu => .cpu m.cpu m.currCpu
  | .alignment => .alignment m.fieldalign m.procalign

/-- context.c 162-185 with SetSegAssumeTable and SetStdAssumeTable, assume.c 86-91, 107-124. -/
def restore (m : Module) : Data → Module
  | .assumes seg std ti =>
    { m with
      seg := seg
      std := std
      syms := fun i => if (std i).assumed then { m.syms i with info := (ti i).getD (m.syms i).info } else m.syms i }
  | .radix r => { m with radix := r }
  | .alignment f p => { m with fieldalign := f, procalign := p }
  | .listing l => { m with listing := l }
  | .cpu c cc => { m with cpu := c, symCpu := m.symCpu.map fun _ => c, currCpu := cc }

/-- struct context -/
structure Node where
  next : Option Nat
  data : Data

/-- ModuleInfo.g.ContextStack, ContextFree, the memory of the nodes; `brk` is the next fresh address of LclAlloc. -/
structure St where
  m : Module
  heap : Nat → Node
  stack : Option Nat
  free : Option Nat
  brk : Nat

def setNode (h : Nat → Node) (a : Nat) (n : Node) : Nat → Node := fun x => if x = a then n else h x

/-- context.c 197-234, one item: from the free list or the heap, linked in front of the stack. -/
def pushOne (s : St) (k : Kind) : St :=
  match s.free with
  | some c => { s with free := (s.heap c).next, heap := setNode s.heap c ⟨s.stack, save s.m k⟩, stack := some c }
  | none => { s with brk := s.brk + 1, heap := setNode s.heap s.brk ⟨s.stack, save s.m k⟩, stack := some s.brk }

/-- typetab without ALL, which no bit is left for; context.c 38-40. -/
def typetab : List Kind := [.assumes, .radix, .listing, .cpu, .alignment]

/-- context.c 190-236. -/
def pushLoop (s : St) (type : List Kind) : St :=
  (typetab.filter (· ∈ type)).foldl pushOne s

/-- context.c 153-156 -/
def unlink (s : St) (prev next : Option Nat) : St :=
  match prev with
  | some p => { s with heap := setNode s.heap p ⟨next, (s.heap p).data⟩ }
  | none => { s with stack := next }

/-- The loop of POPCONTEXT, context.c 142-187. -/
def popLoop (s : St) (prev curr : Option Nat) (type : List Kind) : Option (St × List Kind) :=
  match curr with
  | none => some (s, type)
  | some c =>
    if type = [] then some (s, type)
    else
      let next := (s.heap c).next
      let d := (s.heap c).data
      if d.kind ∉ type then do
        let r ← popLoop s (some c) next type
        return r
      else
        let type := type.filter (· ≠ d.kind)
        let s1 := unlink s prev next
        let s2 := { s1 with heap := setNode s1.heap c ⟨s1.free, d⟩, free := some c }
        let s3 := { s2 with m := restore s2.m d }
        do
          let r ← popLoop s3 prev next type
          return r
partial_fixpoint

/-- The tokens behind the directive. -/
inductive Tok | id (name : String) | comma | other
  deriving DecidableEq, Repr

/-- contextnames and typetab, context.c 38-44; the names are compared without case, the model takes them in upper case. -/
def kinds : String → Option (List Kind)
  | "ASSUMES" => some [.assumes]
  | "RADIX" => some [.radix]
  | "LISTING" => some [.listing]
  | "CPU" => some [.cpu]
  | "ALIGNMENT" => some [.alignment]
  | "ALL" => some [.assumes, .radix, .listing, .cpu]
  | _ => none

inductive Err | unmatched | syntaxError
  deriving DecidableEq, Repr

/-- ContextDirective, context.c 107-246: `pop` for POPCONTEXT, `strict`: -Zg or strict_masm_compat. The outer option is none if a
loop doesn't end. With no operand the code reads an uninitialised variable (finding); the model takes it as valid. -/
def contextDirective (pop strict : Bool) (s : St) : List Tok → Option (St × Option Err)
  | [] => some (s, none)
  | .id name :: rest =>
    match kinds name with
    | none => some (s, some .syntaxError)
    | some type =>
      if strict ∧ type = [.alignment] then some (s, some .syntaxError)
      else
        let cont (s : St) : Option (St × Option Err) :=
          match rest with
          | .comma :: t :: rest => contextDirective pop strict s (t :: rest)
          | rest => contextDirective pop strict s rest
        if pop then
          match popLoop s none s.stack type with
          | none => none
          | some (s', type) => if type ≠ [] then some (s', some .unmatched) else cont s'
        else cont (pushLoop s type)
  | _ => some (s, some .syntaxError)

/-! ### The saved state for the following passes -/

/-- The chain behind a pointer; used for the copy in ContextSaveState, context.c 253-271. -/
def chain (h : Nat → Node) : Nat → Option Nat → List Data
  | 0, _ => []
  | _ + 1, none => []
  | n + 1, some c => (h c).data :: chain h n (h c).next

/-- ContextSaveState: the number of items is counted first; here the count is the number of nodes ever allocated at most. -/
def saveState (s : St) : List Data := chain s.heap s.brk s.stack

/-- ContextRestoreState, context.c 275-290: from the last saved item to the first. -/
def restoreState (s : St) (saved : List Data) : St :=
  saved.reverse.foldl (fun s d =>
    match s.free with
    | some c => { s with free := (s.heap c).next, heap := setNode s.heap c ⟨s.stack, d⟩, stack := some c }
    | none => { s with brk := s.brk + 1, heap := setNode s.heap s.brk ⟨s.stack, d⟩, stack := some s.brk }) s

end Verif.Context
