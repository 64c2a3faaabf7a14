import Verif.Invoke64.Spec
import Verif.Invoke.Lemmas
namespace Verif.Invoke64
open Frame (store load)

theorem run_cons (m : M) (i : Ins) (l : List Ins) : run m (i :: l) = run (exec m i) l := rfl
theorem run_nil (m : M) : run m [] = m := rfl
theorem run_append (m : M) (l l' : List Ins) : run m (l ++ l') = run (run m l) l' := by simp [run]

/-- Register written. -/
def wG : Ins → List Nat
  | .addSp _ => [4]
  | .lea d _ => [d.num] | .mov d _ => [d.num] | .movx _ d _ _ => [d.num] | .movImm d _ => [d.num] | .xor d => [d.num]
  | _ => []
/-- Vector register written. -/
def wX : Ins → List Nat
  | .movaps n _ => [n] | .getX _ n _ => [n] | .movX n _ => [n]
  | _ => []
/-- Bytes above RSP written. -/
def wM : Ins → List (Nat × Nat)
  | .put d r => [(d, partSize r.part)] | .putImm s d _ => [(d, s)] | .putX s d _ => [(d, s)]
  | _ => []

theorem exec_gpr (m : M) (i : Ins) (r : Nat) (h : r ∉ wG i) : (exec m i).gpr r = m.gpr r := by
  cases i <;> simp_all [exec, wG, setReg, setX]

theorem exec_xmm (m : M) (i : Ins) (k : Nat) (h : k ∉ wX i) : (exec m i).xmm k = m.xmm k := by
  cases i <;> simp_all [exec, wX, setReg, setX]

theorem exec_mem (m : M) (i : Ins) (x : Int) (h : ∀ w ∈ wM i, x < m.gpr 4 + w.1 ∨ m.gpr 4 + w.1 + w.2 ≤ x) :
    (exec m i).mem x = m.mem x := by
  cases i <;> simp_all [exec, wM, setReg, setX, Frame.store_out]

theorem run_gpr (l : List Ins) (r : Nat) (h : ∀ i ∈ l, r ∉ wG i) : ∀ m : M, (run m l).gpr r = m.gpr r := by
  induction l with
  | nil => intro m; rfl
  | cons i l ih =>
    intro m
    rw [run_cons, ih (fun j hj => h j (by simp [hj])), exec_gpr _ _ _ (h i (by simp))]

theorem run_xmm (l : List Ins) (r : Nat) (h : ∀ i ∈ l, r ∉ wX i) : ∀ m : M, (run m l).xmm r = m.xmm r := by
  induction l with
  | nil => intro m; rfl
  | cons i l ih =>
    intro m
    rw [run_cons, ih (fun j hj => h j (by simp [hj])), exec_xmm _ _ _ (h i (by simp))]

theorem run_mem (l : List Ins) (x : Int) (h4 : ∀ i ∈ l, 4 ∉ wG i) : ∀ m : M,
    (∀ i ∈ l, ∀ w ∈ wM i, x < m.gpr 4 + w.1 ∨ m.gpr 4 + w.1 + w.2 ≤ x) → (run m l).mem x = m.mem x := by
  induction l with
  | nil => intro m _; rfl
  | cons i l ih =>
    intro m h
    have e := exec_gpr m i 4 (h4 i (by simp))
    rw [run_cons, ih (fun j hj => h4 j (by simp [hj])) _ (fun j hj w hw => by rw [e]; exact h j (by simp [hj]) w hw),
      exec_mem _ _ _ (h i (by simp))]

theorem partOf_size {n : Nat} {pt : Part} (h : partOf n = some pt) : partSize pt = n ∧ pt ≠ .h := by
  unfold partOf at h
  split at h <;> simp_all <;> subst h <;> simp [partSize]

theorem partOf_le {n : Nat} {pt : Part} (h : partOf n = some pt) : n ≤ 8 := by
  unfold partOf at h
  split at h <;> simp_all

theorem partSize_le (p : Part) : partSize p ≤ 8 := by cases p <;> simp [partSize]

theorem preg_cases (i : Nat) : preg i = 1 ∨ preg i = 2 ∨ preg i = 8 ∨ preg i = 9 := by
  unfold preg; split <;> simp

theorem preg_ne4 (i : Nat) : preg i ≠ 4 ∧ preg i ≠ 0 := by
  rcases preg_cases i with h | h | h | h <;> simp [h]

theorem preg_inj {i j : Nat} (hi : i < 4) (hj : j < 4) (h : preg i = preg j) : i = j := by
  have : ∀ a : Fin 4, ∀ b : Fin 4, preg a = preg b → a = b := by decide
  have := this ⟨i, hi⟩ ⟨j, hj⟩ h
  simpa using this

theorem psz_eq (p : Param) (a : Arg) : psizeOf p a = psz p a := by
  unfold psizeOf psz natural
  split
  · cases a <;> simp
    rename_i v nm
    split <;> split <;> omega
  · rfl

/-- What one argument's code may write. -/
structure Frame1 (i : Nat) (p : Param) (used : List Nat) (o : List Ins × List Nat) : Prop where
  g : ∀ x ∈ o.1, ∀ r ∈ wG x, r ∈ o.2 ∧ (r = 0 ∨ (i < 4 ∧ r = preg i))
  x : ∀ x ∈ o.1, ∀ k ∈ wX x, k = i ∧ i < 4 ∧ p.kind = .real ∧ p.vararg = false
  m : ∀ x ∈ o.1, ∀ w ∈ wM x, 4 ≤ i ∧ 8 * i ≤ w.1 ∧ w.1 + w.2 ≤ 8 * i + 8
  sub : ∀ r ∈ used, r ∈ o.2
  sup : ∀ r ∈ o.2, r ∈ used ∨ r = 0 ∨ (i < 4 ∧ r = preg i)

theorem ite_imp {α : Type} {P : α → Prop} {c : Prop} [Decidable c] {a b : α} (h1 : c → P a) (h2 : ¬ c → P b) : P (if c then a else b) := by
  split
  · exact h1 ‹_›
  · exact h2 ‹_›

theorem stack_frame (i : Nat) (p : Param) (hp : p.vararg = true ∨ WfParam p) (a : Arg) (used : List Nat) (o : List Ins × List Nat)
    (hi : 4 ≤ i) (h : stackArg i p a used = some o) : Frame1 i p used o := by
  cases a with
  | addr x =>
    simp only [stackArg] at h
    repeat' split at h
    all_goals simp at h
    all_goals subst h; constructor <;> simp [wG, wX, wM, partSize, hi] <;> grind
  | const v nm =>
    simp only [stackArg, Option.bind_eq_some_iff] at h
    split at h
    · simp at h; subst h; constructor <;> simp [wG, wX, wM, hi] <;> grind
    · simp only [Option.bind_eq_some_iff] at h
      rcases h with ⟨pt, hpt, h⟩
      have := partOf_le hpt
      simp at h; subst h; constructor <;> simp [wG, wX, wM, hi] <;> grind
  | float f4 f8 =>
    simp only [stackArg] at h
    repeat' split at h
    all_goals simp at h
    all_goals subst h; constructor <;> simp [wG, wX, wM, hi] <;> grind
  | xmm k =>
    simp only [stackArg] at h
    split at h <;> simp at h
    rename_i hr
    have : psizeOf p (.xmm k) ≤ 8 := by
      rcases hp with hp | hp
      · simp [hp] at hr
      · have := hp.2.2 hr.1
        simp [psizeOf, hr.2]; omega
    subst h; constructor <;> simp [wG, wX, wM, hi] <;> grind
  | reg r s =>
    have hz := partSize_le r.part
    simp only [stackArg, widen, Option.bind_eq_some_iff] at h
    rcases h with ⟨pt, hpt, h⟩
    have hz2 := partSize_le pt
    split at h
    · simp at h; subst h; constructor <;> simp [wG, wX, wM, hi] <;> grind
    · split at h
      · simp at h
      · split at h
        · simp at h
        · simp only [Option.bind_eq_some_iff] at h
          rcases h with ⟨l, hl, h⟩
          split at hl <;> simp at hl
          simp at h; subst h; subst hl
          constructor <;> simp [wG, wX, wM, hi] <;> grind
  | mem x n s =>
    simp only [stackArg, widen, Option.bind_eq_some_iff] at h
    rcases h with ⟨pt, hpt, h⟩
    have hz2 := partSize_le pt
    split at h
    · simp at h
    · split at h
      · simp at h
      · split at h
        · simp at h; subst h; constructor <;> simp [wG, wX, wM, hi] <;> grind
        · simp only [Option.bind_eq_some_iff] at h
          rcases h with ⟨l, hl, h⟩
          split at hl <;> simp at hl
          simp at h; subst h; subst hl
          constructor <;> simp [wG, wX, wM, hi] <;> grind
  | memU x =>
    simp only [stackArg] at h
    split at h
    · simp at h; subst h; constructor <;> simp [wG, wX, wM, hi, partSize] <;> grind
    · simp only [Option.bind_eq_some_iff] at h
      rcases h with ⟨pt, hpt, h⟩
      have hz2 := partSize_le pt
      split at h <;> simp at h
      subst h; constructor <;> simp [wG, wX, wM, hi] <;> grind

/-- The shape of the code for the first four parameters in general registers. -/
theorem int_shape (i : Nat) (p : Param) (a : Arg) (used : List Nat) (o : List Ins × List Nat) (h : intArg i p a used = some o) :
    o = ([], used) ∨ ∃ x, o = ([x], preg i :: used) ∧ wG x = [preg i] ∧ wX x = [] ∧ wM x = [] := by
  have fin1 : ∀ x : Ins, some ([x], preg i :: used) = some o → wG x = [preg i] → wX x = [] → wM x = [] →
      (o = ([], used) ∨ ∃ x, o = ([x], preg i :: used) ∧ wG x = [preg i] ∧ wX x = [] ∧ wM x = []) :=
    fun x h a b c => Or.inr ⟨x, (Option.some.inj h).symm, a, b, c⟩
  have fin2 : some ([], used) = some o →
      (o = ([], used) ∨ ∃ x, o = ([x], preg i :: used) ∧ wG x = [preg i] ∧ wX x = [] ∧ wM x = []) :=
    fun h => Or.inl (Option.some.inj h).symm
  have hno : (none : Out) ≠ some o := by simp
  cases a <;> simp only [intArg] at h
  all_goals
    repeat' (first
      | exact absurd h hno
      | (refine fin1 _ h ?_ ?_ ?_ <;> rfl)
      | exact fin2 h
      | split at h
      | (rw [Option.bind_eq_some_iff] at h; rcases h with ⟨pt, hpt, h⟩))

theorem int_frame (i : Nat) (p : Param) (a : Arg) (used : List Nat) (o : List Ins × List Nat)
    (hi : i < 4) (h : intArg i p a used = some o) : Frame1 i p used o := by
  rcases int_shape i p a used o h with rfl | ⟨x, rfl, h1, h2, h3⟩
  · constructor <;> simp <;> grind
  · constructor <;> simp [h1, h2, h3, hi] <;> grind

theorem real_frame (i : Nat) (p : Param) (a : Arg) (used : List Nat) (o : List Ins × List Nat)
    (hi : i < 4) (hr : p.kind = .real ∧ p.vararg = false) (h : realArg i p a used = some o) : Frame1 i p used o := by
  cases a with
  | reg r s => exact int_frame i p (.reg r s) used o hi h
  | const v n => exact int_frame i p (.const v n) used o hi h
  | xmm k =>
    simp only [realArg, Option.some.injEq] at h
    subst h
    constructor <;> simp [wG, wX, wM, hi, hr] <;> grind
  | float f4 f8 =>
    simp only [realArg] at h
    split at h <;> simp at h <;> subst h <;> constructor <;> simp [wG, wX, wM, hi, hr] <;> grind
  | mem x n s => simp [realArg] at h; subst h; constructor <;> simp [wG, wX, wM, hi, hr] <;> grind
  | memU x => simp [realArg] at h; subst h; constructor <;> simp [wG, wX, wM, hi, hr] <;> grind
  | addr x => simp [realArg] at h; subst h; constructor <;> simp [wG, wX, wM, hi, hr] <;> grind

theorem param_cases (i : Nat) (p : Param) (a : Arg) (used : List Nat) (o : List Ins × List Nat) (h : param i p a used = some o) :
    (∀ r ∈ checked a, r ∉ used) ∧
    (4 ≤ i ∧ stackArg i p a used = some o ∨
     i < 4 ∧ (p.kind = .real ∧ p.vararg = false) ∧ realArg i p a used = some o ∨
     i < 4 ∧ ¬ (p.kind = .real ∧ p.vararg = false) ∧ intArg i p a used = some o) := by
  simp only [param] at h
  split at h
  · simp at h
  split at h
  · simp at h
  split at h
  · simp at h
  rename_i hc
  refine ⟨by simpa using hc, ?_⟩
  split at h
  · exact Or.inl ⟨by omega, h⟩
  split at h
  · exact Or.inr (Or.inl ⟨by omega, ‹_›, h⟩)
  · exact Or.inr (Or.inr ⟨by omega, ‹_›, h⟩)

theorem param_frame (i : Nat) (p : Param) (hp : p.vararg = true ∨ WfParam p) (a : Arg) (used : List Nat) (o : List Ins × List Nat)
    (h : param i p a used = some o) : Frame1 i p used o := by
  rcases (param_cases i p a used o h).2 with ⟨hi, h⟩ | ⟨hi, hr, h⟩ | ⟨hi, hr, h⟩
  · exact stack_frame i p hp a used o hi h
  · exact real_frame i p a used o hi hr h
  · exact int_frame i p a used o hi h

end Verif.Invoke64
