import Verif.Switch.Accept
/-
  Concrete blocks: the hypotheses of C68 are met, and what happens where they are not.
-/
namespace Verif.Switch

/-- addresses and memory for the examples -/
def exAdr : Lbl → BitVec 64
  | .case n => BitVec.ofNat 64 (4096 + n)
  | .dflt => 1 | .exit => 2 | .start => 3 | .top => 4 | .jump => 5 | .skip => 6 | .cont => 7
  | .data1 => 0x100000
  | .data2 => 0x200000

def exEnv {σ : Type} (o : Out σ) : Env where
  adr := exAdr
  rd a _ :=
    if a.toNat ≥ 0x200000 then enc o.w2 (o.t2.getD ((a.toNat - 0x200000) / o.w2) 0)
    else exAdr (o.t1.getD ((a.toNat - 0x100000) / (if o.mode.is64 then 8 else 4)) .data1)

def labsOf {σ : Type} : List (Line σ) → List Lbl
  | [] => []
  | .lab l :: r => l :: labsOf r
  | _ :: r => labsOf r

theorem mem_labs {σ : Type} (l : Lbl) (p r : List (Line σ)) (h : after l p = some r) : l ∈ labsOf p := by
  induction p with
  | nil => simp [after] at h
  | cons x xs ih =>
    cases x with
    | lab k =>
      simp only [after] at h
      split at h
      · rename_i e; simp [labsOf, e]
      · simp [labsOf, ih h]
    | ins i => exact ih h
    | stm f => exact ih h
    | brIf p q => exact ih h
    | loadOp f => exact ih h

theorem layout_of {σ : Type} (env : Env) (p : List (Line σ))
    (h : ∀ l ∈ labsOf p, ∀ l' ∈ labsOf p, env.adr l = env.adr l' → l = l') : Layout env p := by
  intro l l' r r' h1 h2 e
  have := h l (mem_labs l p r h1) l' (mem_labs l' p r' h2) e
  subst this
  rw [h1] at h2
  cases h2; rfl

theorem placed_of {σ : Type} (o : Out σ)
    (h1 : ∀ i ∈ List.range o.t1.length, (exEnv o).rd (trunc o.mode ((exEnv o).adr .data1 + BitVec.ofNat 64 i * (if o.mode.is64 then 8 else 4)))
      (if o.mode.is64 then 8 else 4) = exAdr (o.t1.getD i .data1))
    (h2 : ∀ i ∈ List.range o.t2.length, (exEnv o).rd (trunc o.mode ((exEnv o).adr .data2 + BitVec.ofNat 64 i * BitVec.ofNat 64 o.w2)) o.w2 =
      enc o.w2 (o.t2.getD i 0)) : Placed (exEnv o) o := by
  constructor
  · intro i l hl
    obtain ⟨hi, e⟩ := List.getElem?_eq_some_iff.mp hl
    rw [h1 i (List.mem_range.mpr hi)]
    rw [List.getD_eq_getElem?_getD, hl]; rfl
  · intro i v hv
    obtain ⟨hi, e⟩ := List.getElem?_eq_some_iff.mp hv
    rw [h2 i (List.mem_range.mpr hi)]
    rw [List.getD_eq_getElem?_getD, hv]; rfl

/-- the machine, `n` steps -/
def runN {σ : Type} (env : Env) (m : Mode) (p : List (Line σ)) : Nat → Conf σ → Conf σ
  | 0, c => c
  | n + 1, c =>
    match step env m p c with
    | some d => runN env m p n d
    | none => c

theorem runN_reach {σ : Type} (env : Env) (m : Mode) (p : List (Line σ)) (n : Nat) (c : Conf σ) :
    Reach env m p c (runN env m p n c) := by
  induction n generalizing c with
  | zero => exact .refl _
  | succ n ih =>
    simp only [runN]
    split
    · rename_i d h; exact .head h (ih d)
    · exact .refl _

/-- the machine has one behaviour: a configuration that is reached and has no next step is the only one -/
theorem reach_end {σ : Type} (env : Env) (m : Mode) (p : List (Line σ)) (c d e : Conf σ) (h : Reach env m p c d)
    (hd : step env m p d = none) (h' : Reach env m p c e) (he : step env m p e = none) : d = e := by
  induction h with
  | refl c =>
    cases h' with
    | refl => rfl
    | head s _ => rw [hd] at s; cases s
  | head s _ ih =>
    cases h' with
    | refl => rw [he] at s; cases s
    | head s' h'' =>
      rw [s] at s'
      cases s'
      exact ih hd h''

/-- statement `i` of the examples writes its number behind the others -/
def put1 (i : Nat) : Dir (List Nat) := .stm fun x => (x.1, x.2 ++ [i])

def st0 (ax : BitVec 64) : St (List Nat) := { r := fun r => if r = .ax then ax else 7, stk := [], fl := (0, 0), u := [] }

/-- one statement for every constant, with its number -/
def cases (vs : List Nat) : List (Dir (List Nat)) := vs.flatMap fun v => [.case [Int.ofNat v], put1 v, .brk]

/-- the result: the statements executed when the code ends, `none` if it has not ended -/
def outcome (is64 : Bool) (swsize : Int) (k : OpKind) (val : X (List Nat) → BitVec 64) (ds : List (Dir (List Nat))) (ax : BitVec 64) (n : Nat) :
    Option (List Nat) :=
  match assemble is64 swsize 0 k val ds with
  | none => none
  | some o =>
    match runN (exEnv o) o.mode o.code n (o.code, st0 ax) with
    | ([], s) => some s.u
    | _ => none

/-- the same, as a statement about the machine -/
theorem outcome_spec (is64 : Bool) (swsize : Int) (k : OpKind) (val : X (List Nat) → BitVec 64) (ds : List (Dir (List Nat))) (ax : BitVec 64) (n : Nat)
    (u : List Nat) (h : outcome is64 swsize k val ds ax n = some u) :
    ∃ o s, assemble is64 swsize 0 k val ds = some o ∧ Reach (exEnv o) o.mode o.code (o.code, st0 ax) ([], s) ∧ s.u = u := by
  unfold outcome at h
  cases ha : assemble is64 swsize 0 k val ds with
  | none => simp [ha] at h
  | some o =>
    simp only [ha] at h
    have hr := runN_reach (exEnv o) o.mode o.code n (o.code, st0 ax)
    generalize runN (exEnv o) o.mode o.code n (o.code, st0 ax) = c at h hr
    obtain ⟨l, s⟩ := c
    cases l with
    | nil => simp at h; exact ⟨o, s, rfl, hr, h⟩
    | cons x xs => simp at h

/-- the hypotheses of C68 are met: a jump table with a hole and a default, 32-bit -/
def exJump : List (Dir (List Nat)) := [.case [1, 2], put1 12, .brk, .case [3], put1 3, .brkIf (fun _ => false), .case [5], .dflt, put1 5, .brk]

/-- a binary search -/
def exTree : List (Dir (List Nat)) := cases [1, 100000, 20000000, 500000000]

/-- a table of bytes -/
def exByte : List (Dir (List Nat)) := cases [10, 60, 100, 200]

theorem example_good : GoodConsts .m32 (consts exJump) ∧ GoodConsts .m64d (consts exTree) ∧ GoodConsts .m64q (consts exByte) := by
  refine ⟨⟨?_, ?_, ?_⟩, ⟨?_, ?_, ?_⟩, ⟨?_, ?_, ?_⟩⟩
  all_goals first | decide +kernel | (unfold TablesFit; decide +kernel)

theorem example_shape : Separated exJump ∧ Separated exTree ∧ Separated exByte ∧
    EndsWithBreak exJump ∧ EndsWithBreak exTree ∧ EndsWithBreak exByte :=
  ⟨rfl, rfl, rfl, ⟨exJump.dropLast, rfl⟩, ⟨exTree.dropLast, rfl⟩, ⟨exByte.dropLast, rfl⟩⟩

def chk {σ : Type} (m : Mode) (o : Out σ) : Bool :=
  decide (∀ i ∈ List.range o.t1.length, (exEnv o).rd (trunc o.mode ((exEnv o).adr .data1 + BitVec.ofNat 64 i * (if o.mode.is64 then 8 else 4)))
      (if o.mode.is64 then 8 else 4) = exAdr (o.t1.getD i .data1)) &&
  decide (∀ i ∈ List.range o.t2.length, (exEnv o).rd (trunc o.mode ((exEnv o).adr .data2 + BitVec.ofNat 64 i * BitVec.ofNat 64 o.w2)) o.w2 =
      enc o.w2 (o.t2.getD i 0)) &&
  decide (∀ l ∈ labsOf o.code, ∀ l' ∈ labsOf o.code, exAdr l = exAdr l' → l = l') && decide (o.mode = m)

theorem ex_any {α : Type} (o : Option α) (f : α → Bool) (h : o.any f = true) : ∃ a, o = some a ∧ f a = true := by
  cases o with
  | none => simp at h
  | some a => exact ⟨a, rfl, by simpa using h⟩

theorem chk_spec {σ : Type} (m : Mode) (a : Option (Out σ)) (h : a.any (chk m) = true) :
    ∃ o, a = some o ∧ Placed (exEnv o) o ∧ Layout (exEnv o) o.code ∧ o.mode = m := by
  obtain ⟨o, e, h⟩ := ex_any a _ h
  simp only [chk, Bool.and_eq_true, decide_eq_true_eq] at h
  exact ⟨o, e, placed_of o h.1.1.1 h.1.1.2, layout_of _ _ h.1.2, h.2⟩

/-- the blocks are assembled, and memory can be as required -/
theorem example_placed :
    (∃ o, assemble false 0x4000 0 .eax (fun _ => 0) exJump = some o ∧ Placed (exEnv o) o ∧ Layout (exEnv o) o.code ∧ o.mode = .m32) ∧
    (∃ o, assemble true 0x4000 0 .memDword (fun _ => 100000) exTree = some o ∧ Placed (exEnv o) o ∧ Layout (exEnv o) o.code ∧ o.mode = .m64d) ∧
    (∃ o, assemble true 0x4000 0 .rax (fun _ => 0) exByte = some o ∧ Placed (exEnv o) o ∧ Layout (exEnv o) o.code ∧ o.mode = .m64q) := by
  refine ⟨chk_spec _ _ ?_, chk_spec _ _ ?_, chk_spec _ _ ?_⟩
  all_goals decide +kernel

example : outcome false 0x4000 .eax (fun _ => 0) exJump 2 100 = some [12] := by decide +kernel
example : outcome false 0x4000 .eax (fun _ => 0) exJump 3 100 = some [3, 5] := by decide +kernel
example : outcome false 0x4000 .eax (fun _ => 0) exJump 4 100 = some [5] := by decide +kernel
example : outcome true 0x4000 .memDword (fun _ => 100000) exTree 0 200 = some [100000] := by decide +kernel
example : outcome true 0x4000 .memDword (fun _ => 100001) exTree 0 200 = some [] := by decide +kernel
example : outcome true 0x4000 .rax (fun _ => 0) exByte 100 200 = some [100] := by decide +kernel

/-! ### where the conditions are not met -/

/-- 76 constants 0..73, 75, 76: the label of 75 is missing in the jump table, 75 executes the statements of 76 -/
theorem C68_defect_lost_label_32 :
    outcome false 0x4000 .eax (fun _ => 0) (cases (List.range 74 ++ [75, 76])) 75 100 = some [76] := by decide +kernel

/-- the same in 64-bit code -/
theorem C68_defect_lost_label_64 :
    outcome true 0x4000 .rax (fun _ => 0) (cases (List.range 74 ++ [75, 76])) 75 100 = some [76] := by decide +kernel

/-- 75 constants and a table of bytes: the table has no entry for the default, but the numbers refer to it -/
theorem C68_defect_no_default :
    ∃ o, assemble false 0x4000 0 .eax (fun _ => 0) (cases ((List.range 75).map (2 * ·))) = some o ∧
      o.t1.length = 75 ∧ o.t2[1]? = some 75 := by
  obtain ⟨o, e, h⟩ := ex_any (assemble false 0x4000 0 .eax (fun _ => 0) (cases ((List.range 75).map (2 * ·))))
    (fun o => o.t1.length == 75 && o.t2[1]? == some 75) (by decide +kernel)
  simp only [Bool.and_eq_true, beq_iff_eq] at h
  exact ⟨o, e, h.1, h.2⟩

/-- a binary search for 64-bit constants: they are stored with 32 bits, the last `.CASE` is never executed -/
theorem C68_defect_64bit_constants :
    outcome true 0x4000 .rax (fun _ => 0) (cases [1, 2, 3, 0x500000000]) 0x500000000 200 = some [] := by decide +kernel

/-- constants 2^29 apart: the distance times 4 overflows, a jump table with 2^29 entries is chosen -/
theorem C68_defect_huge_table :
    method .m32 0x4000 [(0, 1), (1, 2), (2, 3), (0x20000000, 4)] = .jump ∧
    maxOf [(0, 1), (1, 2), (2, 3), (0x20000000, 4)] - minOf [(0, 1), (1, 2), (2, 3), (0x20000000, 4)] = 536870912 := by
  decide +kernel

/-- a `.CASE` behind statements without `.BREAK` gets the label of the `.CASE` in front of it -/
theorem C68_defect_fall_through :
    outcome false 0x4000 .eax (fun _ => 0) [.case [1], put1 1, .case [2], put1 2, .brk] 2 100 = some [1, 2] := by decide +kernel

/-- the upper half of RAX is used although the operand is EAX: nothing is executed, the jump goes to an address that is not in
    the table -/
theorem C68_defect_upper_half :
    ∃ o c, assemble true 0x4000 0 .eax (fun _ => 0) (cases [0, 1, 2, 3]) = some o ∧
      Reach (exEnv o) o.mode o.code (o.code, st0 0x100000001) c ∧ c.1 ≠ [] ∧ step (exEnv o) o.mode o.code c = none := by
  obtain ⟨o, e, h⟩ := ex_any (assemble true 0x4000 0 .eax (fun _ => 0) (cases [0, 1, 2, 3]))
    (fun o => !(runN (exEnv o) o.mode o.code 100 (o.code, st0 0x100000001)).1.isEmpty &&
      (step (exEnv o) o.mode o.code (runN (exEnv o) o.mode o.code 100 (o.code, st0 0x100000001))).isNone) (by decide +kernel)
  simp only [Bool.and_eq_true, Bool.not_eq_true', Option.isNone_iff_eq_none] at h
  refine ⟨o, _, e, runN_reach _ _ _ 100 _, ?_, h.2⟩
  intro e
  rw [e] at h
  simp at h

/-- `.SWITCH 5` is a switch on EAX -/
theorem C68_defect_constant_operand :
    outcome false 0x4000 .other (fun _ => 5) (cases [1, 5]) 1 100 = some [1] := by decide +kernel

/-- 80 constants with one label: the second row of the table begins with a comma, the block is refused -/
theorem C68_defect_comma :
    assemble (σ := List Nat) false 0x4000 0 .eax (fun _ => 0) [.case ((List.range 80).map fun i => ((2 * i : Nat) : Int)), .brk] = none := by
  apply Option.isNone_iff_eq_none.mp; decide +kernel

/-- without `.BREAK` at the end of the block the switch is executed again, for ever -/
theorem C68_defect_no_break (n : Nat) :
    ∃ o c, assemble false 0x4000 0 .eax (fun _ => 0) [.case [1], .brk, .dflt, put1 9] = some o ∧
      Reach (exEnv o) o.mode o.code (o.code, st0 5) c ∧ c.2.u = List.replicate n 9 ∧ c.1 ≠ [] := by
  refine ⟨_, (dispatch .m32 .chain .dflt [(1, 1)] [(1, 1)] ++ [.lab .exit],
    { st0 5 with u := List.replicate n 9, fl := (if n = 0 then (0, 0) else (5, 1)) }), rfl, ?_, rfl, by simp [dispatch]⟩
  induction n with
  | zero => exact Reach.head rfl (Reach.refl _)
  | succ n ih =>
    refine ih.trans ?_
    refine Reach.head rfl (Reach.head rfl (Reach.head rfl (Reach.head rfl (Reach.head rfl (Reach.cast ?_ (Reach.refl _))))))
    simp [List.replicate_succ']
    decide

end Verif.Switch
