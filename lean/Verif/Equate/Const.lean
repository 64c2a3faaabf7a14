import Verif.Equate.Props
/-! # C70: constants do not change, variables may -/
namespace Verif.Equate
variable {E : Type}

/-- The name is defined by `EQU` lines only. -/
def OnlyEqu (src : List (Line E)) (x : Name) : Prop := ∀ l ∈ src, l.target = some x → ∃ e, l = .equ x e

/-- The name is defined by `=`, `SIZESTR` and `INSTR` lines only. -/
def OnlySet (src : List (Line E)) (x : Name) : Prop :=
  ∀ l ∈ src, l.target = some x → (∃ e, l = .assign x e) ∨ ∃ n, l = .strvar x n

theorem seg_view (s : Sym) : s.view.seg = s.segment := by
  unfold Sym.view; cases s.segment <;> rfl

theorem sameValue_eq {s : Sym} {r : Res} {v : Val} (hr : r.value = some v) (hk : s.view.seg = v.seg)
    (h : sameValue s r = true) : s.view = v := by
  rw [seg_view] at hk
  cases r with
  | const w =>
    simp only [Res.value, Option.some.injEq] at hr; subst hr
    simp only [sameValue, decide_eq_true_eq] at h
    unfold Sym.view
    rw [hk]
    simp only [Val.seg, h.1, h.2, words]
  | addr g b a =>
    simp only [Res.value, Option.some.injEq] at hr; subst hr
    simp only [sameValue, decide_eq_true_eq] at h
    unfold Sym.view
    rw [h.2]
    simp only [h.1]
  | undef => cases hr
  | bad => cases hr

theorem storeIf_syms (p i : Nat) (l : Line E) (st : St E) :
    (if st.storeState then storeLine p i l st else st).syms = st.syms := by
  split
  · exact storeLine_syms ..
  · rfl

theorem handle_fail {r : Res} {st : St E} {f : Res → St E} (h : (r.handle st.fail st.fail f).err = false) :
    ∃ v, r.value = some v ∧ r.handle st.fail st.fail f = f r := by
  rcases Res.value_cases r with hr | hr | ⟨v, hr, -, -⟩
  · simp [hr] at h
  · simp [hr] at h
  · exact ⟨v, hr, handle_val hr _ _ _⟩

/-- What a line does to a symbol it does not define. -/
theorem step_other {W : World E} {p i : Nat} {l : Line E} {st : St E} {x : Name} (h : l.target ≠ some x) :
    (step W p i l st).syms x = st.syms x := by
  cases l with
  | assign y e =>
    simp only [Line.target, ne_eq, Option.some.injEq] at h
    have hs := storeIf_syms p i (.assign y e) st
    simp only [step]
    generalize (if st.storeState then storeLine p i (Line.assign y e) st else st) = st' at hs ⊢
    rw [← hs]
    unfold Res.handle
    split
    · rfl
    · split
      · split
        · split
          · rfl
          · rw [storeLine_syms]
        · rfl
      · simp only []
        unfold assignVar
        split
        · simp [St.setSym, Ne.symm h]
        · split
          · rfl
          · split <;> simp [St.setSym, saveVar, Ne.symm h]
  | equ y e =>
    simp only [Line.target, ne_eq, Option.some.injEq] at h
    simp only [step, createConstant]
    unfold Res.handle
    split
    · rfl
    · split
      · rfl
      · simp only []
        split
        · rw [storeIf_syms]; simp [St.setSym, Ne.symm h]
        · split
          · rfl
          · split
            · rfl
            · rw [storeIf_syms]; simp [St.setSym, Ne.symm h]
  | strvar y n =>
    simp only [Line.target, ne_eq, Option.some.injEq] at h
    have hs := storeIf_syms p i (.strvar y n) st
    simp only [step]
    generalize (if st.storeState then storeLine p i (Line.strvar y n) st else st) = st' at hs ⊢
    rw [← hs]
    unfold createVariable
    split
    · simp [St.setSym, Ne.symm h]
    · split
      · rfl
      · split <;> simp [St.setSym, saveVar, Ne.symm h]
  | label y =>
    simp only [Line.target, ne_eq, Option.some.injEq] at h
    simp only [step]
    rw [storeLine_syms]
    unfold createLabel
    split
    · simp [St.setSym, Ne.symm h]
    · split
      · rfl
      · simp [St.setSym, Ne.symm h]
  | use e =>
    simp only [step]
    have hs := storeLine_syms p i (.use e) st
    generalize storeLine p i (.use e) st = st' at hs ⊢
    rw [← hs]
    unfold Res.handle
    split
    · rfl
    · split
      · split <;> rfl
      · rfl

/-- After an `EQU` line the symbol has the value and the number of the pass. -/
theorem step_equ {W : World E} {p i : Nat} {x : Name} {e : E} {st : St E} (he : (step W p i (.equ x e) st).err = false) :
    ∃ v s, (W.ev p i e st.view).value = some v ∧ (step W p i (.equ x e) st).syms x = some s ∧ s.view = v ∧
      s.asmpass = p % 256 ∧
      ∀ s0, st.syms x = some s0 → s0.asmpass = p % 256 → s0.view.seg = v.seg → s0.view = v := by
  simp only [step] at he ⊢
  obtain ⟨v, hr, hh⟩ := handle_fail he
  rw [hh] at he ⊢
  refine ⟨v, ?_⟩
  unfold createConstant at he ⊢
  cases hs : st.syms x with
  | none =>
    simp only
    refine ⟨setValue { asmpass := p % 256 } (W.ev p i e st.view), hr, (by rw [storeIf_syms]; exact if_pos rfl), view_setValue _ _ _ hr, ?_, (fun s0 h => by cases h)⟩
    cases h : W.ev p i e st.view <;> rfl
  | some s =>
    simp only [hs] at he ⊢
    split at he
    · simp at he
    · rename_i h1
      rw [if_neg h1]
      split at he
      · simp at he
      · rename_i h2
        rw [if_neg h2]
        refine ⟨setValue { s with asmpass := p % 256, isvar := false } (W.ev p i e st.view), hr, (by rw [storeIf_syms]; exact if_pos rfl), view_setValue _ _ _ hr, ?_, ?_⟩
        · cases h : W.ev p i e st.view <;> rfl
        · intro s0 h0 hp hk
          cases h0
          refine sameValue_eq hr hk ?_
          cases hsame : sameValue s (W.ev p i e st.view) with
          | true => rfl
          | false => exact absurd ⟨hp, hsame⟩ h2

/-- Definitions made in a pass by `EQU` lines: all have one value. -/
theorem equ_run {W : World E} {p : Nat} {x : Name} (ls : List (Nat × Line E)) : ∀ (st : St E) (t : Trace),
    st.view = t.env → st.outs = t.outs →
    (∀ l ∈ ls, l.2.target = some x → ∃ e, l.2 = .equ x e) →
    (∀ i y n, (i, .strvar y n) ∈ ls → (∀ v, t.env y = some v → v.seg = none) ∧
      ∀ v, (y, v) ∈ (readLines W p ls t).defs → v.seg = none) →
    (∃ k, ∀ v, (x, v) ∈ (readLines W p ls t).defs → v.seg = k) →
    (∀ v w, (x, v) ∈ t.defs → (x, w) ∈ t.defs → v = w) →
    (∀ v, (x, v) ∈ t.defs → ∃ s, st.syms x = some s ∧ s.asmpass = p % 256 ∧ s.view = v) →
    (runLines W p ls st).err = false →
    ∀ v w, (x, v) ∈ (readLines W p ls t).defs → (x, w) ∈ (readLines W p ls t).defs → v = w := by
  induction ls with
  | nil => intro st t _ _ _ _ _ h _ _; exact h
  | cons l r ih =>
    obtain ⟨i, l⟩ := l
    intro st t hv ho hx hk hkind hone hcur he
    have s := step_ok hv ho (fun x n hl v hx => (hk i x n (by simp [hl])).1 v hx) (run_err he)
    refine ih _ (readLine W p i l t) s.1 s.2.1 (fun l' hl' => hx l' (by simp [hl'])) ?_ hkind ?_ ?_ he
    · intro j y n hm
      obtain ⟨a, b⟩ := hk j y n (by simp [hm])
      refine ⟨fun v hx => ?_, b⟩
      rcases env_from [(i, l)] t (x := y) (v := v) hx with h | h
      · exact a v h
      · exact b v (defs_mono r _ h)
    all_goals by_cases ht : l.target = some x
    · obtain ⟨e, hl⟩ := hx (i, l) (by simp) ht
      simp only at hl; subst hl
      obtain ⟨v, s', hr, -, -, -, hs0⟩ := step_equ (run_err he)
      rw [hv] at hr
      have hd : (readLine W p i (.equ x e) t).defs = t.defs ++ [(x, v)] := by simp [readLine, hr, Trace.define]
      obtain ⟨k, hkk⟩ := hkind
      have hall : ∀ u, (x, u) ∈ (readLine W p i (.equ x e) t).defs → u = v := by
        intro u hu
        rw [hd, List.mem_append, List.mem_singleton, Prod.mk.injEq] at hu
        rcases hu with hu | ⟨-, hu⟩
        · obtain ⟨s0, h1, h2, h3⟩ := hcur u hu
          rw [← h3]
          refine hs0 s0 h1 h2 ?_
          rw [h3, hkk u (defs_mono r _ (by rw [hd]; simp [hu])), hkk v (defs_mono r _ (by rw [hd]; simp))]
        · exact hu
      intro a b ha hb
      rw [hall a ha, hall b hb]
    · have hd : ∀ u, (x, u) ∈ (readLine W p i l t).defs → (x, u) ∈ t.defs := by
        intro u hu
        cases l <;> simp only [Line.target, Option.some.injEq] at ht <;> simp only [readLine, Trace.define] at hu <;>
          (try split at hu) <;>
          (try (simp only [List.mem_append, List.mem_singleton, Prod.mk.injEq] at hu;
                rcases hu with hu | ⟨hu, -⟩ <;> first | exact hu | exact absurd hu.symm ht)) <;> exact hu
      intro a b ha hb
      exact hone a b (hd a ha) (hd b hb)
    · obtain ⟨e, hl⟩ := hx (i, l) (by simp) ht
      simp only at hl; subst hl
      obtain ⟨v, s', hr, hs', hview, hpass, hs0⟩ := step_equ (run_err he)
      rw [hv] at hr
      have hd : (readLine W p i (.equ x e) t).defs = t.defs ++ [(x, v)] := by simp [readLine, hr, Trace.define]
      obtain ⟨k, hkk⟩ := hkind
      intro u hu
      have hu' := hu
      rw [hd, List.mem_append, List.mem_singleton, Prod.mk.injEq] at hu
      rcases hu with hu | ⟨-, hu⟩
      · obtain ⟨s0, h1, h2, h3⟩ := hcur u hu
        have : u = v := by
          rw [← h3]
          refine hs0 s0 h1 h2 ?_
          rw [h3, hkk u (defs_mono r _ hu'), hkk v (defs_mono r _ (by rw [hd]; simp))]
        exact ⟨s', hs', hpass, by rw [hview, this]⟩
      · exact ⟨s', hs', hpass, by rw [hview, hu]⟩
    · have hd : ∀ u, (x, u) ∈ (readLine W p i l t).defs → (x, u) ∈ t.defs := by
        intro u hu
        cases l <;> simp only [Line.target, Option.some.injEq] at ht <;> simp only [readLine, Trace.define] at hu <;>
          (try split at hu) <;>
          (try (simp only [List.mem_append, List.mem_singleton, Prod.mk.injEq] at hu;
                rcases hu with hu | ⟨hu, -⟩ <;> first | exact hu | exact absurd hu.symm ht)) <;> exact hu
      intro u hu
      rw [step_other ht]
      exact hcur u (hd u hu)

/-- **C70 (partial).**  A constant is constant: if the source is accepted, then all definitions of a name that is
only defined by `EQU`, and is not at one place a number and at another an address, give it the same value in a pass.  What is
missing: a name that is also set by `=`, `SIZESTR` or `INSTR`, or is first an address and then a number, can be
redefined, see `Examples`. -/
theorem C70_constant_partial (W : World E) (src : List (Line E)) (hs : ∀ x n, .strvar x n ∈ src → OneKind W src x)
    (p : Nat) (x : Name) (hx : OnlyEqu src x) (hk : OneKind W src x)
    (he : (assembling W true src p).err = false) (v w : Val)
    (h1 : (x, v) ∈ (reading W src p).defs) (h2 : (x, w) ∈ (reading W src p).defs) : v = w := by
  obtain ⟨k, hk⟩ := hk
  rw [reading_eq] at h1 h2
  cases p with
  | zero =>
    refine equ_run (W := W) (p := 0) (x := x) (numbered 0 src) {} { env := initEnv W src 0 } rfl rfl ?_ ?_ ⟨k, ?_⟩
      (by intro v w h; simp at h) (by intro v h; simp at h) he v w h1 h2
    · intro l hl ht; exact hx l.2 (mem_numbered (i := l.1) (k := 0) hl) ht
    · intro i y n hm
      refine ⟨(fun v h => by cases h), fun v hd => ?_⟩
      rw [← reading_eq] at hd
      exact str_kind hs (mem_numbered hm) hd
    · intro v hv; rw [← reading_eq] at hv; exact hk 0 v hv
  | succ p =>
    have hp : assembling W true src (p + 1) = runLines W (p + 1) (numbered 0 src)
        { assembling W true src p with storeState := false, outs := [] } := by
      simp [assembling, onePass]
    have hview := C69_full_passes W src hs p (assembling_err he)
    rw [hp] at he
    refine equ_run (W := W) (p := p + 1) (x := x) (numbered 0 src)
      { assembling W true src p with storeState := false, outs := [] } { env := initEnv W src (p + 1) }
      (funext hview.2) rfl ?_ ?_ ⟨k, ?_⟩ (by intro v w h; simp at h) (by intro v h; simp at h) he v w h1 h2
    · intro l hl ht; exact hx l.2 (mem_numbered (i := l.1) (k := 0) hl) ht
    · intro i y n hm
      refine ⟨fun v h => init_kind (p := p + 1) hs (mem_numbered hm) h, fun v hd => ?_⟩
      rw [← reading_eq] at hd
      exact str_kind hs (mem_numbered hm) hd
    · intro v hv; rw [← reading_eq] at hv; exact hk (p + 1) v hv

end Verif.Equate
