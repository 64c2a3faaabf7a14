import Verif.Equate.First
/-! # All passes -/
namespace Verif.Equate
variable {E : Type}

theorem mem_numbered {k i : Nat} {l : Line E} {src : List (Line E)} (h : (i, l) ∈ numbered k src) : l ∈ src := by
  induction src generalizing k with
  | nil => simp [numbered] at h
  | cons a r ih =>
    simp only [numbered, List.mem_cons, Prod.mk.injEq] at h ⊢
    rcases h with ⟨-, h⟩ | h
    · exact .inl h
    · exact .inr (ih h)

theorem numbered_mem {k : Nat} {l : Line E} {src : List (Line E)} (h : l ∈ src) : ∃ i, (i, l) ∈ numbered k src := by
  induction src generalizing k with
  | nil => simp at h
  | cons a r ih =>
    rcases List.mem_cons.1 h with rfl | h
    · exact ⟨k, by simp [numbered]⟩
    · obtain ⟨i, hi⟩ := ih (k := k + 1) h
      exact ⟨i, by simp [numbered, hi]⟩

theorem run_below {W : World E} {src : List (Line E)} {env0 : Env}
    (hsmall : ∀ x n, .strvar x n ∈ src → ∀ v, env0 x = some v → v.small)
    (hmix : ∀ x, env0 x = none → ((∃ e, .equ x e ∈ src) ∨ .label x ∈ src) → NoSet src x)
    (rest : List (Nat × Line E)) : ∀ (st : St E) (t : Trace), Inv2 src env0 st → st.view = t.env → st.outs = t.outs →
    (∀ i l, (i, l) ∈ rest → l ∈ src) →
    (∀ i x n, (i, .strvar x n) ∈ rest → (∀ v, t.env x = some v → v.seg = none) ∧
      ∀ v, (x, v) ∈ (readLines W 0 rest t).defs → v.seg = none) →
    (∀ x, env0 x ≠ none → x ∉ (readLines W 0 rest t).skipped) →
    (∀ x, env0 x ≠ none → ∀ o v, (x, o, v) ∈ (readLines W 0 rest t).reequ → o = v) →
    (runLines W 0 rest st).err = false →
    Inv2 src env0 (runLines W 0 rest st) ∧ (runLines W 0 rest st).store = st.store ++ rest ∧
    (∀ d ∈ st.equs, d ∈ (runLines W 0 rest st).equs) ∧
    (∀ i x, ((∃ e, (i, .assign x e) ∈ rest) ∨ ∃ n, (i, .strvar x n) ∈ rest) → env0 x ≠ none →
      ∃ lo hi, (x, lo, hi) ∈ (runLines W 0 rest st).equs) ∧
    ∀ i x, (i, .label x) ∈ rest → env0 x = none := by
  induction rest with
  | nil =>
    intro st t h _ _ _ _ _ _ _
    refine ⟨h, by simp [runLines], fun _ hd => hd, ?_, ?_⟩
    · rintro i x (⟨e, h⟩ | ⟨e, h⟩) <;> simp at h
    · intro i x h; simp at h
  | cons l r ih =>
    obtain ⟨i, l⟩ := l
    intro st t h hv ho hmem hk hsk hsame he
    have s := step_ok hv ho (fun x n hl v hx => (hk i x n (by simp [hl])).1 v hx) (run_err he)
    have b : Below src env0 i l st (step W 0 i l st) := by
      refine step_below h hv (hmem i l (by simp)) ?_ ?_ ?_ hmix (run_err he)
      · intro x e hl h0 hn
        refine hsk x h0 ?_
        simp only [readLines]
        apply skipped_mono
        subst hl
        simp [readLine, hn]
      · intro x e hl h0 o v ho hr
        refine hsame x h0 o v ?_
        simp only [readLines]
        apply reequ_mono
        subst hl
        simp [readLine, hr, ho]
      · intro x n hl v h0
        exact hsmall x n (hmem i _ (by simp [hl])) v h0
    obtain ⟨i1, i2, i3, i4, i5⟩ := ih (step W 0 i l st) (readLine W 0 i l t) b.inv s.1 s.2.1
      (fun j l' hl' => hmem j l' (by simp [hl']))
      (by
        intro j x n hm
        obtain ⟨a, c⟩ := hk j x n (by simp [hm])
        refine ⟨fun v hx => ?_, c⟩
        rcases env_from [(i, l)] t (x := x) (v := v) hx with h | h
        · exact a v h
        · exact c v (defs_mono r _ h)) hsk hsame he
    refine ⟨i1, ?_, fun d hd => i3 d (b.mono d hd), ?_, ?_⟩
    · show (runLines W 0 r (step W 0 i l st)).store = _
      rw [i2, b.store, List.append_assoc]; rfl
    · intro j x hx h0
      have : ((∃ e, l = .assign x e) ∨ ∃ n, l = .strvar x n) ∨
          ((∃ e, (j, .assign x e) ∈ r) ∨ ∃ n, (j, .strvar x n) ∈ r) := by
        rcases hx with ⟨e, hx⟩ | ⟨n, hx⟩
        · rcases List.mem_cons.1 hx with hx | hx
          · left; left; exact ⟨e, (Prod.mk.inj hx).2.symm⟩
          · right; left; exact ⟨e, hx⟩
        · rcases List.mem_cons.1 hx with hx | hx
          · left; right; exact ⟨n, (Prod.mk.inj hx).2.symm⟩
          · right; right; exact ⟨n, hx⟩
      rcases this with hx | hx
      · obtain ⟨lo, hi, hq⟩ := b.saved x hx h0
        exact ⟨lo, hi, i3 _ hq⟩
      · exact i4 j x hx h0
    · intro j x hx
      rcases List.mem_cons.1 hx with hx | hx
      · exact b.label x (Prod.mk.inj hx).2.symm
      · exact i5 j x hx

/-- The line store, started. -/
def mark (st : St E) : St E := { st with storeState := true, useSaved := true }

theorem start_eq {W : World E} {i : Nat} {l : Line E} {r : List (Nat × Line E)} {st : St E} (h : HeadInv st)
    (hs : Starts W st.view ((i, l) :: r)) (he : (step W 0 i l st).err = false) :
    step W 0 i l st = step W 0 i l (mark st) := by
  have hst : ∀ (st : St E) l, st.storeState = false → st.equs = [] → storeLine 0 i l st = storeLine 0 i l (mark st) := by
    intro st l h1 h2
    simp [storeLine, h1, mark, h2]
  cases l with
  | assign x e =>
    simp only [Starts] at hs
    have hm : (storeLine 0 i (.assign x e) (mark st)).view = st.view := by rw [storeLine_view]; rfl
    have hss : (storeLine 0 i (.assign x e) (mark st)).storeState = true := by simp [storeLine, mark]
    simp only [step, h.ss, Bool.false_eq_true, if_false, if_true, show (mark st).storeState = true from rfl] at he ⊢
    rw [hm]
    rcases Res.value_cases (W.ev 0 i e st.view) with hr | hr | ⟨v, hr, -, -⟩
    · simp only [hr, handle_undef, hss, if_true]
      exact hst st _ h.ss h.eq
    · simp [hr] at he
    · rw [hr] at hs; cases hs
  | equ x e =>
    simp only [Starts] at hs
    simp only [step] at he
    rcases Res.value_cases (W.ev 0 i e st.view) with hr | hr | ⟨v, hr, -, -⟩
    · simp [hr] at he
    · simp [hr] at he
    · rw [hr] at hs; cases hs
  | strvar x n => exact absurd hs (by simp [Starts])
  | label x =>
    simp only [step] at he ⊢
    rw [storeLine_err] at he
    unfold createLabel at he ⊢
    cases hx : st.syms x with
    | none =>
      simp only [hx, show (mark st).syms x = st.syms x from rfl]
      rw [hst _ _ (by exact h.ss) (by exact h.eq)]
      rfl
    | some s => simp [hx] at he
  | use e =>
    simp only [step]
    rw [hst st _ h.ss h.eq]

theorem mark_inv2 {src : List (Line E)} {st : St E} (h : HeadInv st) : Inv2 src st.view (mark st) := by
  refine ⟨rfl, rfl, ?_, ?_, ?_⟩
  · intro x lo hi hm; simp [mark, h.eq] at hm
  · intro x v hx
    simp only [St.view] at hx
    cases hs : st.syms x with
    | none => simp [hs] at hx
    | some s =>
      simp only [hs, Option.map_some, Option.some.injEq] at hx
      exact ⟨s, hs, .inr ⟨h.sv x s hs, hx⟩⟩
  · intro x s hx hs
    simp only [St.view] at hx
    have hs' : st.syms x = some s := hs
    simp [hs'] at hx

/-- What the first pass leaves behind: lines, and saved values of the names defined in the head. -/
structure Saved (src : List (Line E)) (env0 : Env) (rest : List (Nat × Line E)) (st : St E) : Prop where
  store : st.store = rest
  A : ∀ x lo hi, (x, lo, hi) ∈ st.equs → ∃ v, env0 x = some v ∧ Holds v lo hi
  saved : ∀ i x, ((∃ e, (i, .assign x e) ∈ rest) ∨ ∃ n, (i, .strvar x n) ∈ rest) → env0 x ≠ none →
    ∃ lo hi, (x, lo, hi) ∈ st.equs
  label : ∀ i x, (i, .label x) ∈ rest → env0 x = none
  keep : ∀ x v, env0 x = some v → (∃ lo hi, (x, lo, hi) ∈ st.equs) ∨ st.view x = some v

/-! ## Later passes -/

/-- Nothing is stored or saved after the first pass. -/
structure Frozen (st st' : St E) : Prop where
  ss : st'.storeState = st.storeState
  us : st'.useSaved = st.useSaved
  so : st'.store = st.store
  eq : st'.equs = st.equs

theorem Frozen.refl (st : St E) : Frozen st st := ⟨rfl, rfl, rfl, rfl⟩

theorem step_frozen {W : World E} {p i : Nat} {l : Line E} {st : St E} (hs : st.storeState = false) :
    Frozen st (step W (p + 1) i l st) := by
  have hst : ∀ (st : St E) l, storeLine (p + 1) i l st = st := fun st l => by simp [storeLine]
  cases l with
  | assign x e =>
    simp only [step, hst, ite_self, Nat.add_eq_zero_iff, Nat.one_ne_zero, and_false, if_false]
    unfold Res.handle
    split
    · exact ⟨rfl, rfl, rfl, rfl⟩
    · split
      · exact ⟨rfl, rfl, rfl, rfl⟩
      · simp only []
        unfold assignVar
        split
        · exact ⟨rfl, rfl, rfl, rfl⟩
        · split
          · exact ⟨rfl, rfl, rfl, rfl⟩
          · rw [if_neg (by simp [hs])]; exact ⟨rfl, rfl, rfl, rfl⟩
  | equ x e =>
    simp only [step, createConstant, hst, ite_self]
    unfold Res.handle
    split
    · exact ⟨rfl, rfl, rfl, rfl⟩
    · split
      · exact ⟨rfl, rfl, rfl, rfl⟩
      · simp only []
        split
        · exact ⟨rfl, rfl, rfl, rfl⟩
        · split
          · exact ⟨rfl, rfl, rfl, rfl⟩
          · split <;> exact ⟨rfl, rfl, rfl, rfl⟩
  | strvar x n =>
    simp only [step, hst, ite_self]
    unfold createVariable
    split
    · exact ⟨rfl, rfl, rfl, rfl⟩
    · split
      · exact ⟨rfl, rfl, rfl, rfl⟩
      · rw [if_neg (by simp [hs])]; exact ⟨rfl, rfl, rfl, rfl⟩
  | label x =>
    simp only [step, hst]
    unfold createLabel
    split
    · exact ⟨rfl, rfl, rfl, rfl⟩
    · split <;> exact ⟨rfl, rfl, rfl, rfl⟩
  | use e =>
    simp only [step, hst]
    unfold Res.handle
    split
    · exact ⟨rfl, rfl, rfl, rfl⟩
    · split
      · split <;> exact ⟨rfl, rfl, rfl, rfl⟩
      · exact ⟨rfl, rfl, rfl, rfl⟩

theorem run_frozen {W : World E} {p : Nat} (ls : List (Nat × Line E)) : ∀ {st : St E}, st.storeState = false →
    Frozen st (runLines W (p + 1) ls st) := by
  induction ls with
  | nil => intro st _; exact .refl st
  | cons l r ih =>
    intro st hs
    obtain ⟨i, l⟩ := l
    have a := step_frozen (W := W) (p := p) (i := i) (l := l) hs
    have b := ih (st := step W (p + 1) i l st) (by rw [a.ss, hs])
    exact ⟨b.ss.trans a.ss, b.us.trans a.us, b.so.trans a.so, b.eq.trans a.eq⟩

theorem restore_frozen (q : List (Name × BitVec 32 × BitVec 32)) : ∀ st : St E, Frozen st (restore q st) ∧
    (restore q st).outs = st.outs ∧ (restore q st).err = st.err := by
  induction q with
  | nil => intro st; exact ⟨.refl st, rfl, rfl⟩
  | cons a r ih =>
    intro st
    obtain ⟨x, v, h⟩ := a
    simp only [restore]
    split
    · exact ih st
    · obtain ⟨b, c, d⟩ := ih (st.setSym x _)
      exact ⟨⟨b.ss, b.us, b.so, b.eq⟩, c, d⟩

theorem restore_other (q : List (Name × BitVec 32 × BitVec 32)) : ∀ (st : St E) (x : Name),
    (∀ lo hi, (x, lo, hi) ∉ q) → (restore q st).view x = st.view x := by
  induction q with
  | nil => intro st x _; rfl
  | cons a r ih =>
    intro st x hn
    obtain ⟨y, v, h⟩ := a
    simp only [restore]
    rw [ih _ x (fun lo hi hm => hn lo hi (by simp [hm]))]
    split
    · rfl
    · have : x ≠ y := by rintro rfl; exact hn v h (by simp)
      rw [view_setSym]; simp [Env.set, this]

theorem restore_view (q : List (Name × BitVec 32 × BitVec 32)) : ∀ (st : St E) (x : Name) (v : Val) (s : Sym),
    st.syms x = some s → s.segment = v.seg → (∀ lo hi, (x, lo, hi) ∈ q → Holds v lo hi) →
    ((∃ lo hi, (x, lo, hi) ∈ q) ∨ s.view = v) → (restore q st).view x = some v := by
  induction q with
  | nil =>
    intro st x v s hs _ _ h
    rcases h with ⟨lo, hi, h⟩ | h
    · simp at h
    · simp [restore, St.view, hs, h]
  | cons a r ih =>
    intro st x v s hs hseg hh h
    obtain ⟨y, lo, hi⟩ := a
    simp only [restore]
    by_cases hy : y = x
    · subst hy
      simp only [hs]
      refine ih _ y v { s with value := lo, hi := hi } (by simp [St.setSym]) hseg
        (fun lo hi hm => hh lo hi (by simp [hm])) (.inr ?_)
      have := hh lo hi (by simp)
      unfold Sym.view
      cases v with
      | const w => simp only [Holds] at this; simp only [hseg, Val.seg, this]
      | addr g o => simp only [Holds] at this; simp only [hseg, Val.seg, this]
    · have hx : (match st.syms y with | none => st | some s => st.setSym y { s with value := lo, hi := hi }).syms x = some s := by
        split
        · exact hs
        · simp [St.setSym, Ne.symm hy, hs]
      refine ih _ x v s hx hseg (fun lo hi hm => hh lo hi (by simp [hm])) ?_
      rcases h with ⟨lo', hi', h⟩ | h
      · rcases List.mem_cons.1 h with h | h
        · exact absurd (Prod.mk.inj h).1.symm hy
        · exact .inl ⟨lo', hi', h⟩
      · exact .inr h

end Verif.Equate
