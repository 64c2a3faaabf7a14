import Verif.Equate.Const
/-! # C70: variables may be changed, constants may be defined again with their value -/
namespace Verif.Equate
variable {E : Type}

/-- The expressions of the lines can be evaluated: only in the first pass, and not in an `EQU`, may a name have no value. -/
def Evaluates (W : World E) (p : Nat) : List (Nat × Line E) → Trace → Prop
  | [], _ => True
  | (i, l) :: r, t =>
    (match l with
      | .equ _ e => (W.ev p i e t.env).value ≠ none
      | .assign _ e => (W.ev p i e t.env).value ≠ none ∨ p = 0 ∧ W.ev p i e t.env = .undef
      | .use e => (W.ev p i e t.env).value ≠ none ∨ p = 0 ∧ W.ev p i e t.env = .undef
      | _ => True) ∧ Evaluates W p r (readLine W p i l t)

/-- A source whose names are either variables, or constants with one value in each pass, or labels defined once. -/
structure Proper (W : World E) (src : List (Line E)) : Prop where
  sort : ∀ l ∈ src, ∀ x, l.target = some x → OnlySet src x ∨ OnlyEqu src x ∨ l = .label x
  once : ∀ (i j : Nat) (x : Name) (l : Line E), src[i]? = some (.label x) → src[j]? = some l → l.target = some x → i = j
  const : ∀ x, OnlyEqu src x → ∀ p v w, (x, v) ∈ (reading W src p).defs → (x, w) ∈ (reading W src p).defs → v = w
  strs : ∀ x n, .strvar x n ∈ src → OneKind W src x
  evals : ∀ p, Evaluates W p (numbered 0 src) { env := match p with | 0 => fun _ => none | q + 1 => (reading W src q).env }

/-- What is known of the symbols while the lines `r` are still to be read. -/
structure Flags (src : List (Line E)) (p : Nat) (r : List (Nat × Line E)) (st : St E) (t : Trace) : Prop where
  set : ∀ x, OnlySet src x → ∀ s, st.syms x = some s → s.isvar = true ∧ s.isequate = true
  equ : ∀ x, OnlyEqu src x → ∀ s, st.syms x = some s → s.isequate = true ∧
    (s.asmpass = p % 256 ∧ (x, s.view) ∈ t.defs ∨
     0 < p ∧ s.asmpass = (p - 1) % 256 ∧ ∃ l ∈ r, l.2.target = some x)
  lab : p = 0 → ∀ l ∈ r, ∀ x, l.2 = .label x → st.syms x = none

theorem eq_sameValue {s : Sym} {r : Res} {v : Val} (hr : r.value = some v) (h : s.view = v) : sameValue s r = true := by
  unfold Sym.view at h
  cases r with
  | const w =>
    simp only [Res.value, Option.some.injEq] at hr; subst hr
    cases hg : s.segment with
    | some g => rw [hg] at h; cases h
    | none =>
      rw [hg] at h
      simp only [Val.const.injEq] at h
      simp only [sameValue, decide_eq_true_eq, ← h]
      constructor
      · apply BitVec.eq_of_toNat_eq
        have h1 := s.value.isLt
        simp only [BitVec.toNat_append, BitVec.toNat_setWidth]
        rw [← Nat.shiftLeft_add_eq_or_of_lt h1, Nat.shiftLeft_eq]
        omega
      · apply BitVec.eq_of_toNat_eq
        have h1 := s.value.isLt
        have h2 := s.hi.isLt
        simp only [BitVec.toNat_append, BitVec.toNat_setWidth, BitVec.toNat_ushiftRight, Nat.shiftRight_eq_div_pow]
        rw [← Nat.shiftLeft_add_eq_or_of_lt h1, Nat.shiftLeft_eq]
        omega
  | addr g b a =>
    simp only [Res.value, Option.some.injEq] at hr; subst hr
    cases hg : s.segment with
    | none => rw [hg] at h; cases h
    | some g' =>
      rw [hg] at h
      simp only [Val.addr.injEq] at h
      simp [sameValue, hg, h.1, h.2]
  | undef => cases hr
  | bad => cases hr

theorem setValue_flags (s : Sym) (r : Res) (v : Val) (h : r.value = some v) :
    (setValue s r).isvar = s.isvar ∧ (setValue s r).isequate = true := by
  cases r <;> first | exact ⟨rfl, rfl⟩ | cases h

/-- Setting a variable. -/
theorem assign_acc {x : Name} {r : Res} {v : Val} {st : St E} (hr : r.value = some v) (he : st.err = false)
    (hf : ∀ s, st.syms x = some s → s.isvar = true) :
    (assignVar x r st).err = false ∧ ∀ s, (assignVar x r st).syms x = some s → s.isvar = true ∧ s.isequate = true := by
  unfold assignVar
  cases hs : st.syms x with
  | none =>
    refine ⟨he, ?_⟩
    intro s h
    simp [St.setSym] at h
    subst h
    exact ⟨(setValue_flags _ _ _ hr).1, (setValue_flags _ _ _ hr).2⟩
  | some s =>
    simp only [hf s hs, Bool.true_eq_false, false_and, ↓reduceIte]
    split
    all_goals
      refine ⟨he, ?_⟩
      intro s' h
      simp [St.setSym, saveVar] at h
      subst h
      exact ⟨(setValue_flags _ _ _ hr).1, (setValue_flags _ _ _ hr).2⟩

theorem strvar_acc {x : Name} {n : BitVec 32} {st : St E} (he : st.err = false)
    (hf : ∀ s, st.syms x = some s → s.isequate = true) :
    (createVariable x n st).err = false ∧
      ∀ s, (createVariable x n st).syms x = some s → s.isvar = true ∧ s.isequate = true := by
  unfold createVariable
  cases hs : st.syms x with
  | none =>
    refine ⟨he, ?_⟩
    intro s h
    simp [St.setSym] at h
    subst h
    exact ⟨rfl, rfl⟩
  | some s =>
    simp only [hf s hs, Bool.true_eq_false, ↓reduceIte]
    split
    all_goals
      refine ⟨he, ?_⟩
      intro s' h
      simp [St.setSym, saveVar] at h
      subst h
      exact ⟨rfl, rfl⟩

/-- A line of a proper source is accepted. -/
theorem step_acc {W : World E} {src : List (Line E)} {p i : Nat} {l : Line E} {r : List (Nat × Line E)} {st : St E} {t : Trace}
    (hv : st.view = t.env) (he : st.err = false) (hf : Flags src p ((i, l) :: r) st t)
    (hsort : ∀ x, l.target = some x → OnlySet src x ∨ OnlyEqu src x ∨ l = .label x) (hl : l ∈ src)
    (hconst : ∀ x, OnlyEqu src x → ∀ v w, (x, v) ∈ (readLine W p i l t).defs → (x, w) ∈ (readLine W p i l t).defs → v = w)
    (hev : Evaluates W p ((i, l) :: r) t) : (step W p i l st).err = false ∧
      ∀ x, l.target = some x → OnlySet src x → ∀ s, (step W p i l st).syms x = some s → s.isvar = true ∧ s.isequate = true := by
  have hev := hev.1
  cases l with
  | assign x e =>
    have hos : OnlySet src x := by
      rcases hsort x rfl with h | h | h
      · exact h
      · obtain ⟨e', h'⟩ := h _ hl rfl; cases h'
      · cases h
    obtain ⟨s1, s2, s3, -, -⟩ := storeIf p i (.assign x e) st
    have s5 := storeIf_syms p i (.assign x e) st
    generalize hst' : (if st.storeState then storeLine p i (Line.assign x e) st else st) = st' at s1 s2 s3 s5
    simp only [step, hst']
    have hev' : W.ev p i e st'.view = W.ev p i e t.env := by rw [s1, hv]
    rw [hev']
    rcases hev with h | ⟨rfl, h⟩
    · cases hr : (W.ev p i e t.env).value with
      | none => exact absurd hr h
      | some v =>
        rw [handle_val hr]
        have := assign_acc hr (s3.trans he) (fun s hs => (hf.set x hos s (by rw [← s5]; exact hs)).1)
        refine ⟨this.1, ?_⟩
        intro y hy _ s hs
        simp only [Line.target, Option.some.injEq] at hy; subst hy
        exact this.2 s hs
    · rw [h]
      simp only [handle_undef, ↓reduceIte]
      refine ⟨?_, ?_⟩
      · split
        · exact s3.trans he
        · rw [storeLine_err]; exact s3.trans he
      · intro y hy _ s hs
        have : (if st'.storeState = true then st' else storeLine 0 i (Line.assign x e) st').syms = st.syms := by
          split
          · exact s5
          · rw [storeLine_syms]; exact s5
        rw [this] at hs
        simp only [Line.target, Option.some.injEq] at hy; subst hy
        exact hf.set _ hos s hs
  | equ x e =>
    have hoe : OnlyEqu src x := by
      rcases hsort x rfl with h | h | h
      · rcases h _ hl rfl with ⟨e', h'⟩ | ⟨n, h'⟩ <;> cases h'
      · exact h
      · cases h
    simp only [step]
    rw [hv]
    cases hr : (W.ev p i e t.env).value with
    | none => exact absurd hr hev
    | some v =>
      rw [handle_val hr]
      refine ⟨?_, ?_⟩
      · unfold createConstant
        cases hs : st.syms x with
        | none => simp only []; rw [(storeIf ..).2.2.1]; exact he
        | some s =>
          obtain ⟨f1, f2⟩ := hf.equ x hoe s hs
          have hn : ¬ (s.asmpass = p % 256 ∧ sameValue s (W.ev p i e t.env) = false) := by
            rintro ⟨ha, hb⟩
            rcases f2 with ⟨-, f2⟩ | ⟨f2, f3, -⟩
            · have : s.view = v := by
                refine hconst x hoe _ _ ?_ ?_
                · simp [readLine, hr, Trace.define, f2]
                · simp [readLine, hr, Trace.define]
              rw [eq_sameValue hr this] at hb
              cases hb
            · omega
          simp only [f1, Bool.true_eq_false, ↓reduceIte, hn]
          rw [(storeIf ..).2.2.1]; exact he
      · intro y hy hos
        simp only [Line.target, Option.some.injEq] at hy; subst hy
        rcases hos _ hl rfl with ⟨e', h'⟩ | ⟨n, h'⟩ <;> cases h'
  | strvar x n =>
    have hos : OnlySet src x := by
      rcases hsort x rfl with h | h | h
      · exact h
      · obtain ⟨e', h'⟩ := h _ hl rfl; cases h'
      · cases h
    have s5 := storeIf_syms p i (.strvar x n) st
    have s3 := (storeIf p i (.strvar x n) st).2.2.1
    simp only [step]
    have := strvar_acc (n := n) (s3.trans he) (fun s hs => (hf.set x hos s (by rw [← s5]; exact hs)).2)
    refine ⟨this.1, ?_⟩
    intro y hy _ s hs
    simp only [Line.target, Option.some.injEq] at hy; subst hy
    exact this.2 s hs
  | label x =>
    refine ⟨?_, ?_⟩
    · simp only [step]
      rw [storeLine_err]
      unfold createLabel
      cases hs : st.syms x with
      | none => exact he
      | some s =>
        have : p ≠ 0 := by
          intro h0
          rw [hf.lab h0 (i, .label x) (by simp) x rfl] at hs; cases hs
        simp only [this, ↓reduceIte]
        exact he
    · intro y hy hos
      simp only [Line.target, Option.some.injEq] at hy; subst hy
      rcases hos _ hl rfl with ⟨e', h'⟩ | ⟨n, h'⟩ <;> cases h'
  | use e =>
    refine ⟨?_, by intro y hy; cases hy⟩
    simp only [step]
    rw [storeLine_view, hv]
    rcases hev with h | ⟨rfl, h⟩
    · cases hr : (W.ev p i e t.env).value with
      | none => exact absurd hr h
      | some v =>
        rw [handle_val hr]
        show (storeLine p i (.use e) st).err = false
        rw [storeLine_err]; exact he
    · rw [h]
      simp only [handle_undef, ↓reduceIte]
      rw [storeLine_err]; exact he

theorem readLine_defs {W : World E} {p i : Nat} {l : Line E} {t : Trace} {x : Name} {v : Val}
    (h : (x, v) ∈ (readLine W p i l t).defs) : (x, v) ∈ t.defs ∨ l.target = some x := by
  cases l <;> simp only [Line.target, Option.some.injEq] <;> simp only [readLine, Trace.define] at h <;>
    (try split at h) <;>
    (try simp only [List.mem_append, List.mem_singleton, Prod.mk.injEq] at h) <;>
    first
      | exact .inl h
      | (rcases h with h | ⟨h, -⟩
         · exact .inl h
         · exact .inr h.symm)

theorem defs_target {W : World E} {p : Nat} {x : Name} {v : Val} (ls : List (Nat × Line E)) : ∀ (t : Trace),
    (x, v) ∈ (readLines W p ls t).defs → (x, v) ∈ t.defs ∨ ∃ l ∈ ls, l.2.target = some x := by
  induction ls with
  | nil => intro t h; exact .inl h
  | cons l r ih =>
    intro t h
    rcases ih _ h with h | ⟨l', h1, h2⟩
    · rcases readLine_defs h with h | h
      · exact .inl h
      · exact .inr ⟨l, by simp, h⟩
    · exact .inr ⟨l', by simp [h1], h2⟩

theorem numbered_ge {k : Nat} {src : List (Line E)} {l : Nat × Line E} (h : l ∈ numbered k src) : k ≤ l.1 := by
  induction src generalizing k with
  | nil => simp [numbered] at h
  | cons a r ih =>
    simp only [numbered, List.mem_cons] at h
    rcases h with rfl | h
    · exact Nat.le_refl _
    · have := ih h; omega

theorem numbered_get {k : Nat} {src : List (Line E)} {l : Nat × Line E} (h : l ∈ numbered k src) :
    src[l.1 - k]? = some l.2 := by
  induction src generalizing k with
  | nil => simp [numbered] at h
  | cons a r ih =>
    have hge := numbered_ge h
    simp only [numbered, List.mem_cons] at h
    rcases h with rfl | h
    · simp
    · have h1 := ih h
      have h2 := numbered_ge h
      rw [show l.1 - k = (l.1 - (k + 1)) + 1 by omega]
      simpa using h1

/-- The lines of a proper source are accepted. -/
theorem run_acc {W : World E} {src : List (Line E)} {p : Nat}
    (hsort : ∀ l ∈ src, ∀ x, l.target = some x → OnlySet src x ∨ OnlyEqu src x ∨ l = .label x)
    (r : List (Line E)) : ∀ (k : Nat) (st : St E) (t : Trace),
    st.view = t.env → st.outs = t.outs → st.err = false → Flags src p (numbered k r) st t →
    (∀ l ∈ r, l ∈ src) →
    (∀ a ∈ numbered k r, ∀ b ∈ numbered k r, ∀ x, a.2 = .label x → b.2.target = some x → a.1 = b.1) →
    (∀ i y n, (i, .strvar y n) ∈ numbered k r → (∀ v, t.env y = some v → v.seg = none) ∧
      ∀ v, (y, v) ∈ (readLines W p (numbered k r) t).defs → v.seg = none) →
    (∀ x, OnlyEqu src x → ∀ v w, (x, v) ∈ (readLines W p (numbered k r) t).defs →
      (x, w) ∈ (readLines W p (numbered k r) t).defs → v = w) →
    Evaluates W p (numbered k r) t →
    (runLines W p (numbered k r) st).err = false ∧ Flags src p [] (runLines W p (numbered k r) st) (readLines W p (numbered k r) t) := by
  induction r with
  | nil => intro k st t _ _ he hf _ _ _ _ _; exact ⟨he, hf⟩
  | cons l r ih =>
    intro k st t hv ho he hf hsrc honce hk hconst hev
    have hl : l ∈ src := hsrc l (by simp)
    have hrest : ∀ x v, (x, v) ∈ (readLine W p k l t).defs → (x, v) ∈ (readLines W p (numbered k (l :: r)) t).defs :=
      fun x v h => defs_mono (numbered (k + 1) r) _ h
    obtain ⟨a1, a2⟩ := step_acc (W := W) hv he hf (hsort l hl) hl
      (fun x hx v w h1 h2 => hconst x hx v w (hrest _ _ h1) (hrest _ _ h2)) hev
    have s := step_ok hv ho (fun x n hx v hx' => (hk k x n (by simp [numbered, hx])).1 v hx') a1
    refine ih (k + 1) (step W p k l st) (readLine W p k l t) s.1 s.2.1 a1 ⟨?_, ?_, ?_⟩ (fun l' h => hsrc l' (by simp [h])) ?_ ?_ hconst hev.2
    · intro x hx s' hs
      by_cases ht : l.target = some x
      · exact a2 x ht hx s' hs
      · rw [step_other ht] at hs
        exact hf.set x hx s' hs
    · intro x hx s' hs
      by_cases ht : l.target = some x
      · obtain ⟨e, he'⟩ := hx l hl ht
        subst he'
        obtain ⟨v, s0, hr, h1, h2, h3, -⟩ := step_equ a1
        rw [h1] at hs; cases hs
        refine ⟨?_, .inl ⟨h3, ?_⟩⟩
        · -- isequate
          have hh := step_equ_flag a1
          exact hh s' h1
        · rw [hv] at hr
          simp [readLine, hr, Trace.define, h2]
      · rw [step_other ht] at hs
        obtain ⟨f1, f2⟩ := hf.equ x hx s' hs
        refine ⟨f1, ?_⟩
        rcases f2 with ⟨g1, g2⟩ | ⟨g1, g2, l', g3, g4⟩
        · exact .inl ⟨g1, defs_mono [(k, l)] t g2⟩
        · refine .inr ⟨g1, g2, l', ?_, g4⟩
          simp only [numbered, List.mem_cons] at g3
          rcases g3 with rfl | g3
          · exact absurd g4 ht
          · exact g3
    · intro h0 l' hl' x hx
      have hne : l.target ≠ some x := by
        intro ht
        have := honce l' (by simp [numbered, hl']) (k, l) (by simp [numbered]) x hx ht
        have := numbered_ge hl'
        omega
      rw [step_other hne]
      exact hf.lab h0 l' (by simp [numbered, hl']) x hx
    · intro a ha b hb x
      exact honce a (by simp [numbered, ha]) b (by simp [numbered, hb]) x
    · intro j y n hm
      obtain ⟨a, b⟩ := hk j y n (by simp [numbered, hm])
      refine ⟨fun v hx => ?_, b⟩
      rcases env_from [(k, l)] t (x := y) (v := v) hx with h | h
      · exact a v h
      · exact b v (hrest _ _ h)
where
  step_equ_flag {W : World E} {p i : Nat} {x : Name} {e : E} {st : St E} (he : (step W p i (.equ x e) st).err = false) :
      ∀ s, (step W p i (.equ x e) st).syms x = some s → s.isequate = true := by
    simp only [step] at he ⊢
    obtain ⟨v, hr, hh⟩ := handle_fail he
    rw [hh] at he ⊢
    unfold createConstant at he ⊢
    intro s
    cases hs : st.syms x with
    | none =>
      simp only []
      rw [storeIf_syms]
      intro h
      simp [St.setSym] at h
      subst h
      exact (setValue_flags _ _ _ hr).2
    | some s0 =>
      simp only [hs] at he ⊢
      split at he
      · simp at he
      · rename_i h1
        rw [if_neg h1]
        split at he
        · simp at he
        · rename_i h2
          rw [if_neg h2, storeIf_syms]
          intro h
          simp [St.setSym] at h
          subst h
          exact (setValue_flags _ _ _ hr).2

/-- **C70, acceptance.**  A source whose names are variables (set by `=`, `SIZESTR` or `INSTR` as often as one likes, to
any values), constants (`EQU`, in each pass always the same value) or labels (defined once), and whose expressions can be
evaluated, is assembled without error in every pass (read again in each pass). -/
theorem C70_accepts (W : World E) (src : List (Line E)) (h : Proper W src) (p : Nat) :
    (assembling W true src p).err = false := by
  have key : (assembling W true src p).err = false ∧ Flags src p [] (assembling W true src p) (reading W src p) := by
    have honce : ∀ a ∈ numbered 0 src, ∀ b ∈ numbered 0 src, ∀ x, a.2 = .label x → b.2.target = some x → a.1 = b.1 := by
      intro a ha b hb x hx ht
      have h1 := numbered_get ha
      have h2 := numbered_get hb
      rw [hx] at h1
      exact h.once _ _ x _ h1 h2 ht
    induction p with
    | zero =>
      refine run_acc h.sort src 0 {} { env := fun _ => none } rfl rfl rfl
        ⟨(fun x _ s hs => by cases hs), (fun x _ s hs => by cases hs), (fun _ l _ x _ => rfl)⟩ (fun _ h => h) honce ?_ ?_ (h.evals 0)
      · intro i y n hm
        exact ⟨(fun v hv => by cases hv), fun v hd => str_kind h.strs (mem_numbered hm) (p := 0) hd⟩
      · intro x hx v w h1 h2
        exact h.const x hx 0 v w h1 h2
    | succ p ih =>
      have hview := (C69_full_passes W src h.strs p ih.1).2
      have hp : assembling W true src (p + 1) = runLines W (p + 1) (numbered 0 src)
          { assembling W true src p with storeState := false, outs := [] } := by
        simp [assembling, onePass]
      rw [hp]
      refine run_acc h.sort src 0 { assembling W true src p with storeState := false, outs := [] }
        { env := (reading W src p).env } (funext hview) rfl ih.1
        ⟨ih.2.set, ?_, (fun h0 => by cases h0)⟩ (fun _ h => h) honce ?_ ?_ (h.evals (p + 1))
      · intro x hx s hs
        obtain ⟨f1, f2⟩ := ih.2.equ x hx s hs
        refine ⟨f1, .inr ⟨by omega, ?_, ?_⟩⟩
        · rcases f2 with ⟨g, -⟩ | ⟨_, _, l, hl, _⟩
          · simpa using g
          · simp at hl
        · rcases f2 with ⟨-, g⟩ | ⟨_, _, l, hl, _⟩
          · rw [reading_eq] at g
            rcases defs_target _ _ g with g | g
            · simp at g
            · exact g
          · simp at hl
      · intro i y n hm
        refine ⟨fun v hv => init_kind (p := p + 1) h.strs (mem_numbered hm) hv, fun v hd => str_kind h.strs (mem_numbered hm) (p := p + 1) hd⟩
      · intro x hx v w h1 h2
        exact h.const x hx (p + 1) v w h1 h2
  exact key.1

end Verif.Equate
