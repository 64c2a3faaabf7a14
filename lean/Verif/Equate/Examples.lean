import Verif.Equate.Accept
/-! # Examples: regular sources, and sources whose names do not have the values one reads -/
namespace Verif.Equate

/-- Expressions: numbers, names, sums, the location counter, and the distance of an address from the start of its
segment. -/
inductive Ex where
  | num (n : BitVec 64)
  | nm (x : Name)
  | add (a b : Ex)
  | here
  | dist (x : Name)

/-- Sum of two results: two addresses cannot be added. -/
def addRes : Res → Res → Res
  | .bad, _ => .bad
  | _, .bad => .bad
  | .undef, _ => .undef
  | _, .undef => .undef
  | .const a, .const b => .const (a + b)
  | .addr g o a, .const b => .addr g o (a + b)
  | .const a, .addr g o b => .addr g o (a + b)
  | .addr .., .addr .. => .bad

def evEx (loc : Nat → Nat → Nat × BitVec 32) (p i : Nat) : Ex → Env → Res
  | .num n, _ => .const n
  | .nm x, env =>
    match env x with
    | none => .undef
    | some (.const v) => .const v
    | some (.addr g o) => .addr g o 0
  | .add a b, env => addRes (evEx loc p i a env) (evEx loc p i b env)
  | .here, _ => .addr (loc p i).1 (loc p i).2 0
  | .dist x, env =>
    match env x with
    | none => .undef
    | some (.const _) => .bad
    | some (.addr _ o) => .const (o.setWidth 64)

/-- Each line occupies four bytes in segment 1. -/
def W4 : World Ex := ⟨evEx fun _ i => (1, BitVec.ofNat 32 (4 * i)), fun _ i => (1, BitVec.ofNat 32 (4 * i))⟩

/-- Lines are one byte longer in the first pass. -/
def W5 : World Ex :=
  ⟨evEx fun p i => (1, BitVec.ofNat 32 ((if p = 0 then 5 else 4) * i)),
   fun p i => (1, BitVec.ofNat 32 ((if p = 0 then 5 else 4) * i))⟩

section Good

/-- ```
n = 3
k equ 10
n = n + 1
  dd n
lab:
n = n + k
  dd n, lab, fwd
len sizestr <abc>
fwd equ 7
  dd len
``` -/
def good : List (Line Ex) :=
  [.assign "n" (.num 3), .equ "k" (.num 10), .assign "n" (.add (.nm "n") (.num 1)), .use (.nm "n"), .label "lab",
   .assign "n" (.add (.nm "n") (.nm "k")), .use (.nm "n"), .use (.nm "lab"), .use (.nm "fwd"), .strvar "len" 3,
   .equ "fwd" (.num 7), .use (.nm "len")]

example : (reading W4 good 0).outs =
    [some (.const 4), some (.const 14), some (.addr 1 16), none, some (.const 3)] := by decide +kernel

/-- All passes after the first see the same values. -/
theorem good_later (p : Nat) : (reading W4 good (p + 1)).outs =
    [some (.const 4), some (.const 14), some (.addr 1 16), some (.const 7), some (.const 3)] ∧
    (reading W4 good (p + 1)).defs = (reading W4 good 0).defs ∧ (reading W4 good p).env "fwd" = some (.const 7) := by
  induction p with
  | zero => exact ⟨by decide +kernel, by decide +kernel, by decide +kernel⟩
  | succ p ih =>
    have h : (reading W4 good (p + 1)).env "fwd" = some (.const 7) := rfl
    refine ⟨?_, rfl, h⟩
    show [some (Val.const 4), some (Val.const 14), some (Val.addr 1 16), (W4.ev (p + 2) 8 (.nm "fwd") _).value, some (Val.const 3)] = _
    rfl

theorem good_head : headOf W4 good =
    [(0, .assign "n" (.num 3)), (1, .equ "k" (.num 10)), (2, .assign "n" (.add (.nm "n") (.num 1)))] := rfl

theorem good_inHead {x : Name} (h : InHead W4 good x) : x = "n" ∨ x = "k" := by
  obtain ⟨l, hl, hx⟩ := h
  rw [good_head] at hl
  simp only [List.mem_cons, List.not_mem_nil, or_false] at hl
  rcases hl with rfl | rfl | rfl <;> simp [Line.target] at hx <;> simp [hx]

theorem good_defs (p : Nat) : (reading W4 good p).defs =
    [("n", .const 3), ("k", .const 10), ("n", .const 4), ("lab", .addr 1 16), ("n", .const 14), ("len", .const 3),
     ("fwd", .const 7)] := by
  cases p with
  | zero => decide +kernel
  | succ p => rw [(good_later p).2.1]; decide +kernel

theorem good_env (p : Nat) : (reading W4 good p).env "k" = some (.const 10) := by cases p <;> rfl

theorem good_reequ (p : Nat) : ∀ x o v, (x, o, v) ∈ (reading W4 good p).reequ → o = v := by
  intro x o v h
  cases p with
  | zero => exact absurd h (by rw [show (reading W4 good 0).reequ = [] by decide +kernel]; simp)
  | succ p =>
    have hk := good_env p
    have hf := (good_later p).2.2
    have : (reading W4 good (p + 1)).reequ = [("k", .const 10, .const 10), ("fwd", .const 7, .const 7)] := by
      have e : (reading W4 good (p + 1)).reequ =
        ((match (reading W4 good p).env "k" with | some o => [("k", o, Val.const 10)] | none => []) ++
         (match (reading W4 good p).env "fwd" with | some o => [("fwd", o, Val.const 7)] | none => [])) := rfl
      rw [e, hk, hf]; rfl
    rw [this] at h
    simp only [List.mem_cons, List.not_mem_nil, or_false, Prod.mk.injEq] at h
    rcases h with ⟨-, rfl, rfl⟩ | ⟨-, rfl, rfl⟩ <;> rfl

/-- The source above meets all the conditions of `C69_passes_partial`. -/
theorem good_regular : Regular W4 good where
  headConst := by
    intro l hl x e hle p env env' v hv hsub
    rw [good_head] at hl
    simp only [List.mem_cons, List.not_mem_nil, or_false] at hl
    rcases hl with rfl | rfl | rfl <;> rcases hle with h | h <;> cases h
    · exact hv
    · exact hv
    · simp only [W4, evEx] at hv ⊢
      cases hn : env "n" with
      | none => rw [hn] at hv; cases hv
      | some u =>
        rw [hsub _ _ hn]
        rw [hn] at hv
        exact hv
  kind := by
    intro x hx
    refine ⟨none, fun p v hv => ?_⟩
    rw [good_defs] at hv
    rcases good_inHead hx with rfl | rfl <;> simp at hv
    · rcases hv with rfl | rfl | rfl <;> rfl
    · subst hv; rfl
  known := by
    intro x _
    rw [show (reading W4 good 0).skipped = [] by decide +kernel]
    simp
  same := fun x _ p o v h => good_reequ p x o v h
  small := by
    intro x n hx hh
    simp [good] at hx
    rcases good_inHead hh with rfl | rfl <;> simp at hx
  strs := by
    intro x n hx
    simp [good] at hx
    obtain ⟨rfl, -⟩ := hx
    refine ⟨none, fun p v hv => ?_⟩
    rw [good_defs] at hv
    simp at hv
    subst hv; rfl
  unmixed := by
    intro x hx hq
    simp [good] at hq ⊢
    rcases hq with ⟨e, ⟨rfl, -⟩ | ⟨rfl, -⟩⟩ | rfl <;> simp

/-- It is assembled without error in every pass. -/
theorem good_accepted : (assembling W4 false good 0).err = false ∧ (assembling W4 false good 1).err = false ∧
    (assembling W4 false good 2).err = false ∧ (assembling W4 true good 2).err = false := by decide +kernel

example : (assembling W4 false good 2).outs =
    [some (.const 4), some (.const 14), some (.addr 1 16), some (.const 7), some (.const 3)] := by
  rw [(C69_passes_partial W4 good good_regular false 2 good_accepted.2.2.1).1]
  exact (good_later 1).1

/-- In the second pass the stored lines are used: the first three lines are not read again, and the value of `n` is
restored. -/
example : (assembling W4 false good 0).store.length = 9 ∧ (assembling W4 false good 0).useSaved = true ∧
    (assembling W4 false good 0).equs = [("n", 4, 0)] := by decide +kernel

theorem good_sort : ∀ l ∈ good, ∀ x, l.target = some x → OnlySet good x ∨ OnlyEqu good x ∨ l = .label x := by
  intro l hl x ht
  have hc : x = "n" ∨ x = "len" ∨ x = "k" ∨ x = "fwd" ∨ l = .label x := by
    simp only [good, List.mem_cons, List.not_mem_nil, or_false] at hl
    rcases hl with rfl | rfl | rfl | rfl | rfl | rfl | rfl | rfl | rfl | rfl | rfl | rfl <;>
      simp [Line.target] at ht <;> subst ht <;> simp
  rcases hc with rfl | rfl | rfl | rfl | h
  · left
    intro l hl ht
    simp only [good, List.mem_cons, List.not_mem_nil, or_false] at hl
    rcases hl with rfl | rfl | rfl | rfl | rfl | rfl | rfl | rfl | rfl | rfl | rfl | rfl <;> simp [Line.target] at ht ⊢
  · left
    intro l hl ht
    simp only [good, List.mem_cons, List.not_mem_nil, or_false] at hl
    rcases hl with rfl | rfl | rfl | rfl | rfl | rfl | rfl | rfl | rfl | rfl | rfl | rfl <;> simp [Line.target] at ht ⊢
  · right; left
    intro l hl ht
    simp only [good, List.mem_cons, List.not_mem_nil, or_false] at hl
    rcases hl with rfl | rfl | rfl | rfl | rfl | rfl | rfl | rfl | rfl | rfl | rfl | rfl <;> simp [Line.target] at ht ⊢
  · right; left
    intro l hl ht
    simp only [good, List.mem_cons, List.not_mem_nil, or_false] at hl
    rcases hl with rfl | rfl | rfl | rfl | rfl | rfl | rfl | rfl | rfl | rfl | rfl | rfl <;> simp [Line.target] at ht ⊢
  · exact .inr (.inr h)

/-- It also meets the conditions of `C70_accepts`. -/
theorem good_proper : Proper W4 good where
  sort := good_sort
  once := by
    intro i j x l h1 h2 ht
    have hi : i = 4 ∧ x = "lab" := by
      rcases i with _ | _ | _ | _ | _ | _ | _ | _ | _ | _ | _ | _ | i <;> simp [good] at h1
      exact ⟨rfl, h1.symm⟩
    obtain ⟨rfl, rfl⟩ := hi
    rcases j with _ | _ | _ | _ | _ | _ | _ | _ | _ | _ | _ | _ | j <;> simp [good] at h2 <;>
      first | rfl | (subst h2; simp [Line.target] at ht)
  const := by
    intro x hx p v w h1 h2
    rw [good_defs] at h1 h2
    have hn : x ≠ "n" := by
      rintro rfl
      obtain ⟨e, h⟩ := hx (.assign "n" (.num 3)) (by simp [good]) rfl
      cases h
    simp only [List.mem_cons, List.not_mem_nil, or_false, Prod.mk.injEq] at h1 h2
    rcases h1 with ⟨h1, rfl⟩ | ⟨h1, rfl⟩ | ⟨h1, rfl⟩ | ⟨h1, rfl⟩ | ⟨h1, rfl⟩ | ⟨h1, rfl⟩ | ⟨h1, rfl⟩ <;> subst h1 <;>
      simp at h2 hn <;> simp [h2]
  strs := good_regular.strs
  evals := by
    intro p
    cases p with
    | zero =>
      simp only [good, numbered, Evaluates, and_true, true_and]
      refine ⟨?_, ?_, ?_, ?_, ?_, ?_, ?_, ?_, ?_, ?_⟩
      all_goals first | (left; decide +kernel) | (right; decide +kernel) | decide +kernel
    | succ p =>
      have hf := (good_later p).2.2
      simp only [good, numbered, Evaluates, and_true, true_and]
      refine ⟨?_, ?_, ?_, ?_, ?_, ?_, ?_, ?_, ?_, ?_⟩
      all_goals first
        | (refine .inl ?_
           show (match (reading W4 good p).env "fwd" with
              | none => Res.undef | some (.const v) => .const v | some (.addr g o) => .addr g o 0).value ≠ none
           rw [hf]
           simp [Res.value])
        | exact .inl (by intro h; cases h)
        | (intro h; cases h)

example (p : Nat) : (assembling W4 true good p).err = false := C70_accepts W4 good good_proper p

end Good

/-! ## Findings: C69 -/

/-- The linked-list idiom of MASM's documentation:
```
link = 0
e1: dd link
link = e1
e2: dd link
link = e2
```
`RestoreState` restores the value but not the segment: in the second pass the end of the list is not the number 0 but
address 0 of the segment (a relocation is written). -/
def links : List (Line Ex) :=
  [.assign "link" (.num 0), .label "e1", .use (.nm "link"), .assign "link" (.nm "e1"), .label "e2", .use (.nm "link"),
   .assign "link" (.nm "e2")]

theorem C69_defect_segment_not_restored :
    (assembling W4 false links 1).err = false ∧
    (assembling W4 false links 1).outs = [some (.addr 1 0), some (.addr 1 4)] ∧
    (reading W4 links 1).outs = [some (.const 0), some (.addr 1 4)] := by decide +kernel

/-- ```
x = 1
  dd x
x = fwd
fwd = 5
```
A `=` line with a forward reference is left before the variable is saved: from the third pass on `x` starts with 5. -/
def fwdAssign : List (Line Ex) :=
  [.assign "x" (.num 1), .use (.nm "x"), .assign "x" (.nm "fwd"), .assign "fwd" (.num 5)]

theorem C69_defect_forward_assign :
    (assembling W4 false fwdAssign 2).err = false ∧
    (assembling W4 false fwdAssign 1).outs = [some (.const 1)] ∧
    (assembling W4 false fwdAssign 2).outs = [some (.const 5)] ∧
    (reading W4 fwdAssign 2).outs = [some (.const 1)] := by decide +kernel

/-- ```
x = $
x sizestr <abc>
  dd x
```
`SIZESTR` and `INSTR` do not clear the segment: `x` is an address, not the number 3. -/
def strSeg : List (Line Ex) := [.assign "x" .here, .strvar "x" 3, .use (.nm "x")]

theorem C69_defect_sizestr_segment :
    (assembling W4 true strSeg 0).err = false ∧ (assembling W4 true strSeg 0).outs = [some (.addr 1 3)] ∧
    (reading W4 strSeg 0).outs = [some (.const 3)] := by decide +kernel

/-- ```
x = 100000005h
  dq x
x sizestr <abc>
```
`SIZESTR` and `INSTR` clear the high word before they save the variable: the second pass sees 5. -/
def strHigh : List (Line Ex) := [.assign "x" (.num 0x100000005), .use (.nm "x"), .strvar "x" 3]

theorem C69_defect_sizestr_high :
    (assembling W4 false strHigh 1).err = false ∧ (assembling W4 false strHigh 1).outs = [some (.const 5)] ∧
    (reading W4 strHigh 1).outs = [some (.const 0x100000005)] := by decide +kernel

/-- ```
x = 10
  dd x
lab:
x equ lab - start
```
where the distance is 10 in the first pass and 8 in the others: an `EQU` does not save the variable, so the third pass
starts with 8. -/
def equHead : List (Line Ex) := [.assign "x" (.num 10), .use (.nm "x"), .label "lab", .equ "x" (.dist "lab")]

theorem C69_defect_equ_not_saved :
    (assembling W5 false equHead 2).err = false ∧ (assembling W5 false equHead 2).outs = [some (.const 8)] ∧
    (reading W5 equHead 2).outs = [some (.const 10)] := by decide +kernel

/-- ```
  dd x
x equ 5
x = 5
x = 6
```
The variable was created by an `EQU` below the head, so it is saved at its first `=` although it did not exist where
the head ends: the forward reference has the value 5 instead of 6. -/
def equSaved : List (Line Ex) := [.use (.nm "x"), .equ "x" (.num 5), .assign "x" (.num 5), .assign "x" (.num 6)]

theorem C69_defect_forward_ref :
    (assembling W4 false equSaved 0).err = false ∧
    (assembling W4 false equSaved 1).outs = [some (.const 5)] ∧
    (reading W4 equSaved 1).outs = [some (.const 6)] := by decide +kernel

/-! ## Findings: C70 -/

/-- Two constants, several definitions with the same value: accepted. -/
def consts : List (Line Ex) :=
  [.equ "a" (.num 5), .use (.nm "a"), .equ "a" (.add (.num 2) (.num 3)), .label "l", .equ "b" (.nm "l"), .use (.nm "b"),
   .equ "b" (.nm "l")]

theorem consts_accepted : (assembling W4 true consts 0).err = false ∧ (assembling W4 true consts 1).err = false ∧
    (assembling W4 false consts 1).err = false := by decide +kernel

theorem consts_defs (p : Nat) : (reading W4 consts p).defs =
    [("a", .const 5), ("a", .const 5), ("l", .addr 1 12), ("b", .addr 1 12), ("b", .addr 1 12)] := by
  cases p <;> rfl

/-- The conditions of `C70_constant_partial`. -/
example : OnlyEqu consts "a" ∧ OneKind W4 consts "a" ∧ OnlyEqu consts "b" ∧ OneKind W4 consts "b" := by
  refine ⟨?_, ⟨none, fun p v hv => ?_⟩, ?_, ⟨some 1, fun p v hv => ?_⟩⟩
  · intro l hl ht
    simp only [consts, List.mem_cons, List.not_mem_nil, or_false] at hl
    rcases hl with rfl | rfl | rfl | rfl | rfl | rfl | rfl <;> simp [Line.target] at ht ⊢
  · rw [consts_defs] at hv; simp at hv; subst hv; rfl
  · intro l hl ht
    simp only [consts, List.mem_cons, List.not_mem_nil, or_false] at hl
    rcases hl with rfl | rfl | rfl | rfl | rfl | rfl | rfl <;> simp [Line.target] at ht ⊢
  · rw [consts_defs] at hv; simp at hv; subst hv; rfl

/-- A different value is refused. -/
example : (assembling W4 true [.equ "a" (.num 5), .use (.nm "a"), .equ "a" (.num 6)] 0).err = true := by decide +kernel

/-- `x EQU 5`, `x = 5`, `x = 6`: accepted, the constant has changed.  A `=` with the value the constant has makes it a
variable. -/
def changed : List (Line Ex) := [.equ "x" (.num 5), .assign "x" (.num 5), .assign "x" (.num 6), .use (.nm "x")]

theorem C70_defect_equ_then_assign :
    (assembling W4 true changed 1).err = false ∧ (assembling W4 true changed 1).outs = [some (.const 6)] := by
  decide +kernel

/-- `x EQU 5`, `x SIZESTR <abc>`: accepted, the constant has changed. -/
def changedStr : List (Line Ex) := [.equ "x" (.num 5), .use (.nm "x"), .strvar "x" 3, .use (.nm "x")]

theorem C70_defect_equ_then_sizestr :
    (assembling W4 true changedStr 0).err = false ∧
    (assembling W4 true changedStr 0).outs = [some (.const 5), some (.const 3)] := by decide +kernel

/-- `x EQU lab` where `lab` is at offset 0, then `x EQU 0`: accepted, the address has become a number. -/
def addrNum : List (Line Ex) :=
  [.label "lab", .equ "x" (.nm "lab"), .use (.nm "x"), .equ "x" (.num 0), .use (.nm "x")]

theorem C70_defect_address_becomes_number :
    (assembling W4 true addrNum 0).err = false ∧
    (assembling W4 true addrNum 0).outs = [some (.addr 1 0), some (.const 0)] := by decide +kernel

/-- A label at offset 0, then `lab = 0`, `lab = 6`: accepted, the label is gone. -/
def labNum : List (Line Ex) :=
  [.label "lab", .assign "lab" (.num 0), .use (.nm "lab"), .assign "lab" (.num 6), .use (.nm "lab")]

theorem C70_defect_label_assigned :
    (assembling W4 true labNum 0).err = false ∧
    (assembling W4 true labNum 0).outs = [some (.const 0), some (.const 6)] := by decide +kernel

/-- `x = 1`, code, `x = 2`, `x EQU 2`: accepted in the first pass, and refused in the second, because the `EQU` has
made the variable a constant and `RestoreState` does not undo this. -/
def varConst : List (Line Ex) :=
  [.assign "x" (.num 1), .use (.nm "x"), .assign "x" (.num 2), .equ "x" (.num 2)]

theorem C70_defect_second_pass :
    (assembling W4 false varConst 0).err = false ∧ (assembling W4 false varConst 1).err = true := by decide +kernel

end Verif.Equate
