import Verif.Invoke64.Value
namespace Verif.Invoke64
open Frame (store load)

theorem eaVal_congr (m m' : M) (x : EA) (h : ∀ r ∈ eaRegs x, m.gpr r = m'.gpr r) : eaVal m x = eaVal m' x := by
  rcases x with ⟨b, ix, d⟩
  unfold eaVal
  cases b <;> cases ix <;> simp_all [eaRegs]

theorem argVal_congr (m m' : M) (p : Param) (a : Arg) (hg : ∀ r ∈ argRegs a, m.gpr r = m'.gpr r)
    (hx : ∀ k, a = .xmm k → m.xmm k = m'.xmm k) (hm : ∀ x, reads m' p a x → m.mem x = m'.mem x) : argVal m p a = argVal m' p a := by
  cases a with
  | mem x n s =>
    have e := eaVal_congr m m' x hg
    simp only [argVal, e]
    split
    · rfl
    · rw [Frame.load_congr _ _ _ _ fun y h1 h2 => hm y ⟨h1, h2⟩]
  | memU x =>
    have e := eaVal_congr m m' x hg
    simp only [argVal, e]
    split
    · rfl
    · rename_i h8
      have hw : width p (.memU x) = psz p (.memU x) := by simp only [width, if_neg h8]
      rw [Frame.load_congr _ _ _ _ fun y h1 h2 => hm y ⟨h1, by rw [hw]; exact h2⟩]
  | reg r s =>
    have e := hg r.num (by simp [argRegs])
    simp only [argVal, regVal, e]
  | xmm k => exact hx k rfl
  | const v nm => rfl
  | float f4 f8 => rfl
  | addr x => exact eaVal_congr m m' x hg

/-- Only RAX, RCX, RDX, R8 and R9 are marked. -/
def Marks (used : List Nat) : Prop := ∀ r ∈ used, r = 0 ∨ r = 1 ∨ r = 2 ∨ r = 8 ∨ r = 9

theorem Frame1.marks {i : Nat} {p : Param} {used : List Nat} {o : List Ins × List Nat} (f : Frame1 i p used o) (h : Marks used) :
    Marks o.2 := by
  intro r hr
  rcases f.sup r hr with h1 | h1 | h1
  · exact h r h1
  · exact Or.inl h1
  · have := preg_cases i; omega

theorem Frame1.gpr {i : Nat} {p : Param} {used : List Nat} {o : List Ins × List Nat} (f : Frame1 i p used o) (m : M) (r : Nat)
    (h : r ∉ o.2 ∨ (r ≠ 0 ∧ (i < 4 → r ≠ preg i))) : (run m o.1).gpr r = m.gpr r := by
  refine run_gpr _ _ (fun x hx hr => ?_) m
  have := f.g x hx r hr
  grind

theorem Frame1.gpr4 {i : Nat} {p : Param} {used : List Nat} {o : List Ins × List Nat} (f : Frame1 i p used o) (m : M) :
    (run m o.1).gpr 4 = m.gpr 4 :=
  f.gpr m 4 (Or.inr ⟨by omega, fun _ h => (preg_ne4 i).1 h.symm⟩)

theorem Frame1.xmm {i : Nat} {p : Param} {used : List Nat} {o : List Ins × List Nat} (f : Frame1 i p used o) (m : M) (k : Nat)
    (h : k ≠ i ∨ 4 ≤ i ∨ ¬ (p.kind = .real ∧ p.vararg = false)) : (run m o.1).xmm k = m.xmm k := by
  refine run_xmm _ _ (fun x hx hr => ?_) m
  have := f.x x hx k hr
  grind

theorem Frame1.mem {i : Nat} {p : Param} {used : List Nat} {o : List Ins × List Nat} (f : Frame1 i p used o) (m : M) (x : Int)
    (h : i < 4 ∨ x < m.gpr 4 + 8 * i ∨ m.gpr 4 + 8 * i + 8 ≤ x) : (run m o.1).mem x = m.mem x := by
  refine run_mem _ _ (fun y hy h4 => ?_) m (fun y hy w hw => ?_)
  · have := (f.g y hy 4 h4).2
    have := preg_ne4 i
    omega
  · have := f.m y hy w hw
    omega

/-- What is found for an argument is kept by the code of another. -/
theorem Frame1.keep {i : Nat} {p : Param} {used : List Nat} {o : List Ins × List Nat} (f : Frame1 i p used o) (m : M) (q : Param)
    (j w : Nat) (hij : i ≠ j) (hw : w ≤ 8) : found (run m o.1) q j w = found m q j w := by
  by_cases hj : j < 4
  · by_cases hr : q.kind = .real ∧ q.vararg = false
    · rw [found_real _ _ _ _ hj hr, found_real _ _ _ _ hj hr, f.xmm m j (Or.inl (Ne.symm hij))]
    · rw [found_int _ _ _ _ hj hr, found_int _ _ _ _ hj hr,
        f.gpr m _ (Or.inr ⟨(preg_ne4 j).2, fun hi h => hij (preg_inj hi hj h.symm)⟩)]
  · rw [found_stack _ _ _ _ (by omega), found_stack _ _ _ _ (by omega), f.gpr4]
    refine Frame.load_congr _ _ _ _ fun x h1 h2 => f.mem m x ?_
    omega

theorem width_le (p : Param) (a : Arg) : width p a ≤ 8 := by unfold width; split <;> omega

theorem steps_cons {pr : Proto} {a : Arg} {i : Nat} {l : List (Arg × Nat)} {used : List Nat} {out : List Ins}
    (h : steps pr ((a, i) :: l) used = some out) :
    ∃ o out', param i (paramAt pr i) a used = some o ∧ steps pr l o.2 = some out' ∧ out = o.1 ++ out' := by
  simp only [steps, Option.bind_eq_some_iff, Option.map_eq_some_iff] at h
  rcases h with ⟨o, h1, out', h2, h3⟩
  exact ⟨o, out', h1, h2, h3.symm⟩

/-- All parameters are well-formed. -/
def WfProto (pr : Proto) : Prop := ∀ p ∈ pr.params, WfParam p

theorem paramAt_wf (pr : Proto) (h : WfProto pr) (k : Nat) : (paramAt pr k).vararg = true ∨ WfParam (paramAt pr k) := by
  unfold paramAt
  cases hk : pr.params[k]? with
  | none => left; rfl
  | some p => right; exact h p (List.mem_of_getElem? hk)

theorem steps_keep (pr : Proto) (hpr : WfProto pr) (q : Param) (j w : Nat) (hw : w ≤ 8) : ∀ (l : List (Arg × Nat)) (used : List Nat)
    (out : List Ins) (m : M), steps pr l used = some out → (∀ s ∈ l, s.2 ≠ j) → found (run m out) q j w = found m q j w := by
  intro l
  induction l with
  | nil => intro used out m h _; simp [steps] at h; subst h; rfl
  | cons s l ih =>
    rcases s with ⟨a, i⟩
    intro used out m h hne
    rcases steps_cons h with ⟨o, out', h1, h2, rfl⟩
    have f := param_frame i _ (paramAt_wf pr hpr i) a used o h1
    rw [run_append, ih _ _ _ h2 (fun s hs => hne s (by simp [hs])), f.keep m q j w (hne (a, i) (by simp)) hw]

structure Inv (pr : Proto) (m0 m : M) (n : Nat) (l : List (Arg × Nat)) (used : List Nat) : Prop where
  marks : Marks used
  g : ∀ r, r ∉ used → m.gpr r = m0.gpr r
  x : ∀ s ∈ l, (paramAt pr s.2).vararg = false → ∀ k, s.2 ≤ k → m.xmm k = m0.xmm k
  x4 : ∀ k, 4 ≤ k → m.xmm k = m0.xmm k
  m : ∀ x, x < m0.gpr 4 + 32 ∨ m0.gpr 4 + 8 * n ≤ x → m.mem x = m0.mem x

theorem steps_ok (pr : Proto) (hpr : WfProto pr) (m0 : M) (n : Nat) : ∀ (l : List (Arg × Nat)) (used : List Nat)
    (out : List Ins) (m : M), steps pr l used = some out → Inv pr m0 m n l used →
    l.Pairwise (fun s t => s.2 ≠ t.2 ∧ ((paramAt pr s.2).vararg = true ∨ s.2 < t.2)) →
    (∀ s ∈ l, s.2 < n ∧ Sound (paramAt pr s.2) s.2 s.1 ∧
      (∀ x, reads m0 (paramAt pr s.2) s.1 x → x < m0.gpr 4 + 32 ∨ m0.gpr 4 + 8 * n ≤ x)) →
    (∀ s ∈ l, found (run m out) (paramAt pr s.2) s.2 (width (paramAt pr s.2) s.1) =
        argVal m0 (paramAt pr s.2) s.1 % 256 ^ width (paramAt pr s.2) s.1) ∧
    (∀ r, r ≠ 0 → r ≠ 1 → r ≠ 2 → r ≠ 8 → r ≠ 9 → (run m out).gpr r = m0.gpr r) ∧
    (∀ k, 4 ≤ k → (run m out).xmm k = m0.xmm k) ∧
    (∀ x, x < m0.gpr 4 + 32 ∨ m0.gpr 4 + 8 * n ≤ x → (run m out).mem x = m0.mem x) := by
  intro l
  induction l with
  | nil =>
    intro used out m h inv _ _
    simp [steps] at h; subst h
    refine ⟨by simp, fun r h0 h1 h2 h8 h9 => inv.g r fun hr => ?_, inv.x4, inv.m⟩
    have := inv.marks r hr
    omega
  | cons s l ih =>
    rcases s with ⟨a, i⟩
    intro used out m h inv hpw hall
    rcases steps_cons h with ⟨o, out', h1, h2, rfl⟩
    have f := param_frame i _ (paramAt_wf pr hpr i) a used o h1
    rw [List.pairwise_cons] at hpw
    have ha := hall (a, i) (by simp)
    have h4 : m.gpr 4 = m0.gpr 4 := inv.g 4 fun hr => by have := inv.marks 4 hr; omega
    have hc := (param_cases i _ a used o h1).1
    have hregs : ∀ r ∈ argRegs a, r ∉ used := by
      intro r hr
      cases a with
      | reg q s =>
        simp [argRegs] at hr; subst hr
        by_cases hh : q.part = .h
        · intro hu
          have hm := inv.marks _ hu
          have hs := ha.2.1.1 hh
          by_cases h0 : q.num = 0
          · have := hc 0 (by simp [checked, hh, h0])
            rw [h0] at hu; exact this hu
          · omega
        · exact hc _ (by simp [checked, hh])
      | mem x n s => exact hc r hr
      | memU x => exact hc r hr
      | addr x => exact hc r hr
      | xmm k => simp [argRegs] at hr
      | const v nm => simp [argRegs] at hr
      | float f4 f8 => simp [argRegs] at hr
    have hval : argVal m (paramAt pr i) a = argVal m0 (paramAt pr i) a := by
      refine argVal_congr _ _ _ _ (fun r hr => inv.g r (hregs r hr)) (fun k hk => ?_) (fun x hx => inv.m x (ha.2.2 x hx))
      subst hk
      rcases (paramAt_wf pr hpr i) with hv | hv
      · rcases (param_cases i _ (.xmm k) used o h1).2 with ⟨_, h⟩ | ⟨_, hr, _⟩ | ⟨_, _, h⟩
        · simp [stackArg, hv] at h
        · simp [hv] at hr
        · simp [intArg] at h
      · exact inv.x _ (by simp) hv.1 k ha.2.1
    have hfirst := param_value i _ a used o m (paramAt_wf pr hpr i) h1 ha.2.1
    rw [hval] at hfirst
    have inv' : Inv pr m0 (run m o.1) n l o.2 := by
      constructor
      · exact f.marks inv.marks
      · intro r hr
        rw [f.gpr m r (Or.inl hr)]
        exact inv.g r fun hu => hr (f.sub r hu)
      · intro s hs hv k hk
        have hlt := (hpw.1 s hs).2
        rw [f.xmm m k (by rcases hlt with h | h; · right; right; simp [h]
                          · left; omega)]
        exact inv.x s (by simp [hs]) hv k hk
      · intro k hk
        rw [f.xmm m k (by omega)]
        exact inv.x4 k hk
      · intro x hx
        rw [f.mem m x (by omega)]
        exact inv.m x hx
    have := ih o.2 out' (run m o.1) h2 inv' hpw.2 (fun s hs => hall s (by simp [hs]))
    rw [run_append]
    refine ⟨fun s hs => ?_, this.2.1, this.2.2.1, this.2.2.2⟩
    rcases List.mem_cons.1 hs with rfl | hs
    · rw [steps_keep pr hpr _ i _ (width_le _ _) l o.2 out' _ h2 (fun s hs => Ne.symm (hpw.1 s hs).1)]
      exact hfirst
    · exact this.1 s hs

end Verif.Invoke64
