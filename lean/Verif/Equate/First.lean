import Verif.Equate.Pass
/-! # The first pass: what is stored and what is saved -/
namespace Verif.Equate
variable {E : Type}

/-- The saved words stand for the value (the high word of an address does not matter). -/
def Holds : Val → BitVec 32 → BitVec 32 → Prop
  | .const v, lo, hi => v = hi ++ lo
  | .addr _ o, lo, _ => lo = o

theorem Holds.of_view {s : Sym} {v : Val} (h : s.view = v) : Holds v s.value s.hi := by
  unfold Sym.view at h
  subst h
  cases s.segment <;> simp [Holds]

/-- No `=`, `SIZESTR` or `INSTR` line for the name. -/
def NoSet (src : List (Line E)) (x : Name) : Prop := (∀ e, .assign x e ∉ src) ∧ ∀ n, .strvar x n ∉ src

/-- State in the head. -/
structure HeadInv (st : St E) : Prop where
  ss : st.storeState = false
  us : st.useSaved = false
  eq : st.equs = []
  so : st.store = []
  sv : ∀ x s, st.syms x = some s → s.issaved = false

theorem setValue_issaved (s : Sym) (r : Res) : (setValue s r).issaved = s.issaved := by cases r <;> rfl

theorem HeadInv.setSym {st : St E} (h : HeadInv st) (x : Name) {s : Sym} (hs : s.issaved = false) : HeadInv (st.setSym x s) := by
  refine ⟨h.ss, h.us, h.eq, h.so, ?_⟩
  intro y s' hy
  simp only [St.setSym] at hy
  split at hy
  · simp only [Option.some.injEq] at hy; subst hy; exact hs
  · exact h.sv y s' hy

theorem step_head {W : World E} {i : Nat} {l : Line E} {st : St E} (h : HeadInv st) (hl : HeadLine W st.view i l)
    (he : (step W 0 i l st).err = false) : HeadInv (step W 0 i l st) := by
  cases l with
  | assign x e =>
    simp only [step, h.ss, Bool.false_eq_true, if_false] at he ⊢
    simp only [HeadLine] at hl
    cases hw : (W.ev 0 i e st.view).value with
    | none => exact absurd hw hl
    | some v =>
      rw [handle_val hw] at he ⊢
      unfold assignVar at he ⊢
      cases hs : st.syms x with
      | none =>
        simp only
        exact h.setSym x (by rw [setValue_issaved]; exact h.ss)
      | some s =>
        simp only [hs] at he ⊢
        split at he
        · simp at he
        · rename_i h1
          rw [if_neg h1]
          rw [if_neg (by simp [h.ss])]
          exact h.setSym x (by rw [setValue_issaved]; exact h.sv x s hs)
  | equ x e =>
    simp only [step] at he ⊢
    simp only [HeadLine] at hl
    cases hw : (W.ev 0 i e st.view).value with
    | none => exact absurd hw hl
    | some v =>
      rw [handle_val hw] at he ⊢
      unfold createConstant at he ⊢
      cases hs : st.syms x with
      | none =>
        simp only
        have hn : HeadInv (st.setSym x (setValue { asmpass := 0 % 256 } (W.ev 0 i e st.view))) :=
          h.setSym x (by rw [setValue_issaved])
        rw [if_neg (by rw [hn.ss]; decide)]
        exact hn
      | some s =>
        simp only [hs] at he ⊢
        split at he
        · simp at he
        · rename_i h1
          rw [if_neg h1]
          split at he
          · simp at he
          · rename_i h2
            rw [if_neg h2]
            have hn : HeadInv (st.setSym x (setValue { s with asmpass := 0 % 256, isvar := false } (W.ev 0 i e st.view))) :=
              h.setSym x (by rw [setValue_issaved]; exact h.sv x s hs)
            rw [if_neg (by rw [hn.ss]; decide)]
            exact hn
  | strvar x n =>
    simp only [step, h.ss, Bool.false_eq_true, if_false] at he ⊢
    unfold createVariable at he ⊢
    cases hs : st.syms x with
    | none => simp only; exact h.setSym x h.ss
    | some s =>
      simp only [hs] at he ⊢
      split at he
      · simp at he
      · rename_i h1
        rw [if_neg h1, if_neg (by simp [h.ss])]
        exact h.setSym x (h.sv x s hs)
  | label x => exact absurd hl (by simp [HeadLine])
  | use e => exact absurd hl (by simp [HeadLine])

theorem run_head {W : World E} (ls : List (Nat × Line E)) (t : Trace) :
    ∀ st : St E, HeadInv st → st.view = t.env → st.outs = t.outs →
    (∀ i x n, (i, .strvar x n) ∈ head W ls t.env → (∀ v, t.env x = some v → v.seg = none) ∧
      ∀ v, (x, v) ∈ (readLines W 0 (head W ls t.env) t).defs → v.seg = none) →
    (runLines W 0 (head W ls t.env) st).err = false → HeadInv (runLines W 0 (head W ls t.env) st) := by
  refine head_induct (W := W) (P := fun hd t => ∀ st : St E, HeadInv st → st.view = t.env → st.outs = t.outs →
    (∀ i x n, (i, .strvar x n) ∈ hd → (∀ v, t.env x = some v → v.seg = none) ∧
      ∀ v, (x, v) ∈ (readLines W 0 hd t).defs → v.seg = none) →
    (runLines W 0 hd st).err = false → HeadInv (runLines W 0 hd st)) ?_ ?_ ls t
  · intro t st h _ _ _ _; exact h
  · intro i l r t hh ih st h hv ho hk he
    have s := step_ok hv ho (fun x n hl v hx => (hk i x n (by simp [hl])).1 v hx) (run_err he)
    refine ih _ (step_head h (by rw [hv]; exact hh) (run_err he)) s.1 s.2.1 ?_ he
    intro j x n hm
    obtain ⟨a, b⟩ := hk j x n (by simp [hm])
    refine ⟨fun v hx => ?_, b⟩
    rcases env_from [(i, l)] t (x := x) (v := v) hx with h | h
    · exact a v h
    · exact b v (defs_mono r _ h)

/-- State below the head: `env0` is what the names were when the line store was started. -/
structure Inv2 (src : List (Line E)) (env0 : Env) (st : St E) : Prop where
  ss : st.storeState = true
  us : st.useSaved = true
  A : ∀ x lo hi, (x, lo, hi) ∈ st.equs → ∃ v, env0 x = some v ∧ Holds v lo hi
  B : ∀ x v, env0 x = some v → ∃ s, st.syms x = some s ∧
    ((s.issaved = true ∧ ∃ lo hi, (x, lo, hi) ∈ st.equs) ∨ (s.issaved = false ∧ s.view = v))
  C : ∀ x s, env0 x = none → st.syms x = some s → s.issaved = true ∨ NoSet src x

theorem Inv2.stored {src : List (Line E)} {env0 : Env} {st : St E} (h : Inv2 src env0 st) (i : Nat) (l : Line E) :
    Inv2 src env0 (storeLine 0 i l st) ∧ (storeLine 0 i l st).store = st.store ++ [(i, l)] ∧
      (storeLine 0 i l st).equs = st.equs := by
  have he : storeLine 0 i l st = { st with store := st.store ++ [(i, l)] } := by
    unfold storeLine
    rw [if_pos rfl, if_pos h.ss]
  rw [he]
  exact ⟨⟨h.ss, h.us, h.A, h.B, h.C⟩, rfl, rfl⟩

/-- Setting a symbol that is not in the way. -/
theorem Inv2.setSym {src : List (Line E)} {env0 : Env} {st : St E} (h : Inv2 src env0 st) (x : Name) (s : Sym)
    (hb : ∀ v, env0 x = some v → (s.issaved = true ∧ ∃ lo hi, (x, lo, hi) ∈ st.equs) ∨ (s.issaved = false ∧ s.view = v))
    (hc : env0 x = none → s.issaved = true ∨ NoSet src x) : Inv2 src env0 (st.setSym x s) := by
  refine ⟨h.ss, h.us, h.A, ?_, ?_⟩
  · intro y v hy
    by_cases hyx : y = x
    · subst hyx; exact ⟨s, by simp [St.setSym], hb v hy⟩
    · obtain ⟨s', h1, h2⟩ := h.B y v hy
      exact ⟨s', by simp [St.setSym, hyx, h1], h2⟩
  · intro y s' hy hs'
    by_cases hyx : y = x
    · subst hyx
      simp only [St.setSym, if_true, Option.some.injEq] at hs'; subst hs'; exact hc hy
    · simp only [St.setSym, if_neg hyx] at hs'
      exact h.C y s' hy hs'

/-- Saving a symbol. -/
theorem Inv2.save {src : List (Line E)} {env0 : Env} {st : St E} (h : Inv2 src env0 st) (x : Name) (s s' : Sym) (v : Val)
    (hx : env0 x = some v) (hh : Holds v s.value s.hi) (hs' : s'.issaved = true) :
    Inv2 src env0 ((saveVar x s st).setSym x s') := by
  refine ⟨h.ss, h.us, ?_, ?_, ?_⟩
  · intro y lo hi hm
    simp only [St.setSym, saveVar, List.mem_append, List.mem_singleton] at hm
    rcases hm with hm | hm
    · exact h.A y lo hi hm
    · simp only [Prod.mk.injEq] at hm
      obtain ⟨rfl, rfl, rfl⟩ := hm
      exact ⟨v, hx, hh⟩
  · intro y w hy
    by_cases hyx : y = x
    · subst hyx
      exact ⟨s', by simp [St.setSym], .inl ⟨hs', s.value, s.hi, by simp [St.setSym, saveVar]⟩⟩
    · obtain ⟨s'', h1, h2⟩ := h.B y w hy
      refine ⟨s'', by simp [St.setSym, saveVar, hyx, h1], ?_⟩
      rcases h2 with ⟨h2, lo, hi, h3⟩ | h2
      · exact .inl ⟨h2, lo, hi, by simp [St.setSym, saveVar, h3]⟩
      · exact .inr h2
  · intro y s'' hy hs''
    by_cases hyx : y = x
    · subst hyx; rw [hx] at hy; cases hy
    · simp only [St.setSym, saveVar, if_neg hyx] at hs''
      exact h.C y s'' hy hs''

/-- What a line below the head does in the first pass. -/
structure Below (src : List (Line E)) (env0 : Env) (i : Nat) (l : Line E) (st st' : St E) : Prop where
  inv : Inv2 src env0 st'
  store : st'.store = st.store ++ [(i, l)]
  mono : ∀ d ∈ st.equs, d ∈ st'.equs
  saved : ∀ x, ((∃ e, l = .assign x e) ∨ ∃ n, l = .strvar x n) → env0 x ≠ none → ∃ lo hi, (x, lo, hi) ∈ st'.equs
  label : ∀ x, l = .label x → env0 x = none

theorem small_holds {s : Sym} {v : Val} (h : s.view = v) (hv : v.small) : Holds v s.value 0 := by
  have hh := Holds.of_view h
  cases v with
  | addr g o => exact absurd hv (by simp [Val.small])
  | const w =>
    simp only [Holds, Val.small] at hh hv ⊢
    rw [hh] at hv ⊢
    rw [BitVec.toNat_append, ← Nat.shiftLeft_add_eq_or_of_lt (by omega), Nat.shiftLeft_eq] at hv
    have : s.hi = 0 := by
      apply BitVec.eq_of_toNat_eq
      simp; omega
    rw [this]

theorem step_below {W : World E} {src : List (Line E)} {env0 : Env} {i : Nat} {l : Line E} {st : St E} {t : Trace}
    (h : Inv2 src env0 st) (hv : st.view = t.env) (hmem : l ∈ src)
    (hsk : ∀ x e, l = .assign x e → env0 x ≠ none → (W.ev 0 i e t.env).value ≠ none)
    (hsame : ∀ x e, l = .equ x e → env0 x ≠ none → ∀ o v, t.env x = some o → (W.ev 0 i e t.env).value = some v → o = v)
    (hsmall : ∀ x n, l = .strvar x n → ∀ v, env0 x = some v → v.small)
    (hmix : ∀ x, env0 x = none → ((∃ e, .equ x e ∈ src) ∨ .label x ∈ src) → NoSet src x)
    (he : (step W 0 i l st).err = false) : Below src env0 i l st (step W 0 i l st) := by
  cases l with
  | assign x e =>
    simp only [step, h.ss, if_true] at he ⊢
    obtain ⟨h', hst, heq⟩ := h.stored i (.assign x e)
    have hv' : (storeLine 0 i (.assign x e) st).view = t.env := by rw [storeLine_view, hv]
    generalize storeLine 0 i (.assign x e) st = st' at h' hst heq hv' he ⊢
    rw [hv'] at he ⊢
    rcases Res.value_cases (W.ev 0 i e t.env) with hr | hr | ⟨v, hr, hn, hb⟩
    · simp only [hr, handle_undef, h'.ss, if_true] at he ⊢
      refine ⟨h', hst, by rw [heq]; exact fun _ hd => hd, ?_, by intro y hy; cases hy⟩
      rintro y (⟨e', hy⟩ | ⟨n, hy⟩) h0
      · cases hy
        exact absurd (by simp [hr, Res.value]) (hsk x e rfl h0)
      · cases hy
    · simp [hr] at he
    · rw [handle_val hr] at he ⊢
      unfold assignVar at he ⊢
      cases hs : st'.syms x with
      | none =>
        simp only
        have h0 : env0 x = none := by
          cases h0 : env0 x with
          | none => rfl
          | some v => obtain ⟨s, h1, -⟩ := h'.B x v h0; rw [hs] at h1; cases h1
        refine ⟨h'.setSym x _ (by rw [h0]; intro v hv; cases hv) (fun _ => .inl (by rw [setValue_issaved]; exact h'.ss)),
          hst, by intro d hd; show d ∈ st'.equs; rw [heq]; exact hd, ?_, by intro y hy; cases hy⟩
        rintro y (⟨e', hy⟩ | ⟨n, hy⟩) h1
        · cases hy; exact absurd h0 h1
        · cases hy
      | some s =>
        simp only [hs] at he ⊢
        split at he
        · simp at he
        · rename_i h1
          rw [if_neg h1]
          by_cases hsv : s.issaved = false
          · rw [if_pos ⟨h'.ss, hsv⟩]
            have h0 : ∃ v0, env0 x = some v0 := by
              cases h0 : env0 x with
              | none =>
                rcases h'.C x s h0 hs with h2 | h2
                · rw [hsv] at h2; cases h2
                · exact absurd hmem (h2.1 e)
              | some v0 => exact ⟨v0, rfl⟩
            obtain ⟨v0, h0⟩ := h0
            obtain ⟨s2, hs2, hb2⟩ := h'.B x v0 h0
            rw [hs] at hs2; cases hs2
            rcases hb2 with ⟨h2, -⟩ | ⟨-, h2⟩
            · rw [hsv] at h2; cases h2
            · refine ⟨h'.save x s _ v0 h0 (Holds.of_view h2) (by rw [setValue_issaved]), hst, ?_, ?_, by intro y hy; cases hy⟩
              · intro d hd; rw [← heq] at hd; simp [St.setSym, saveVar, hd]
              · rintro y (⟨e', hy⟩ | ⟨n, hy⟩) h3
                · cases hy; exact ⟨s.value, s.hi, by simp [St.setSym, saveVar]⟩
                · cases hy
          · have hsv' : s.issaved = true := by simpa using hsv
            rw [if_neg (by simp [hsv'])]
            have hq : ∀ v, env0 x = some v → ∃ lo hi, (x, lo, hi) ∈ st'.equs := by
              intro v0 h0
              obtain ⟨s2, hs2, hb2⟩ := h'.B x v0 h0
              rw [hs] at hs2; cases hs2
              rcases hb2 with ⟨-, h2⟩ | ⟨h2, -⟩
              · exact h2
              · rw [hsv'] at h2; cases h2
            refine ⟨h'.setSym x _ (fun v0 h0 => .inl ⟨by rw [setValue_issaved]; exact hsv', hq v0 h0⟩)
              (fun _ => .inl (by rw [setValue_issaved]; exact hsv')), hst, ?_, ?_, by intro y hy; cases hy⟩
            · intro d hd; show d ∈ st'.equs; rw [heq]; exact hd
            · rintro y (⟨e', hy⟩ | ⟨n, hy⟩) h3
              · cases hy
                cases h0 : env0 x with
                | none => exact absurd h0 h3
                | some v0 => exact hq v0 h0
              · cases hy
  | equ x e =>
    simp only [step] at he ⊢
    rw [hv] at he ⊢
    rcases Res.value_cases (W.ev 0 i e t.env) with hr | hr | ⟨v, hr, hn, hb⟩
    · simp [hr] at he
    · simp [hr] at he
    · rw [handle_val hr] at he ⊢
      have fin : ∀ st' : St E, Inv2 src env0 st' → st'.store = st.store → st'.equs = st.equs →
          Below src env0 i (.equ x e) st (if st'.storeState then storeLine 0 i (.equ x e) st' else st') := by
        intro st' hi hst heq
        rw [if_pos hi.ss]
        obtain ⟨a, b, c⟩ := hi.stored i (.equ x e)
        refine ⟨a, by rw [b, hst], by rw [c, heq]; exact fun _ hd => hd, ?_, by intro y hy; cases hy⟩
        rintro y (⟨e', hy⟩ | ⟨n, hy⟩) h3 <;> cases hy
      unfold createConstant at he ⊢
      cases hs : st.syms x with
      | none =>
        simp only
        have h0 : env0 x = none := by
          cases h0 : env0 x with
          | none => rfl
          | some v => obtain ⟨s, h1, -⟩ := h.B x v h0; rw [hs] at h1; cases h1
        refine fin _ (h.setSym x _ (by rw [h0]; intro v hv; cases hv) (fun _ => .inr (hmix x h0 (.inl ⟨e, hmem⟩)))) rfl rfl
      | some s =>
        simp only [hs] at he ⊢
        split at he
        · simp at he
        · rename_i h1
          rw [if_neg h1]
          split at he
          · simp at he
          · rename_i h2
            rw [if_neg h2]
            refine fin _ (h.setSym x _ ?_ ?_) rfl rfl
            · intro v0 h0
              obtain ⟨s2, hs2, hb2⟩ := h.B x v0 h0
              rw [hs] at hs2; cases hs2
              rcases hb2 with h2 | ⟨h2, h3⟩
              · exact .inl (by rw [setValue_issaved]; exact h2)
              · refine .inr ⟨by rw [setValue_issaved]; exact h2, ?_⟩
                rw [view_setValue _ _ _ hr]
                refine (hsame x e rfl (by rw [h0]; simp) v0 v ?_ hr).symm
                rw [← hv]; simp [St.view, hs, h3]
            · intro h0; exact .inr (hmix x h0 (.inl ⟨e, hmem⟩))
  | strvar x n =>
    simp only [step, h.ss, if_true] at he ⊢
    obtain ⟨h', hst, heq⟩ := h.stored i (.strvar x n)
    generalize storeLine 0 i (.strvar x n) st = st' at h' hst heq he ⊢
    unfold createVariable at he ⊢
    cases hs : st'.syms x with
    | none =>
      simp only
      have h0 : env0 x = none := by
        cases h0 : env0 x with
        | none => rfl
        | some v => obtain ⟨s, h1, -⟩ := h'.B x v h0; rw [hs] at h1; cases h1
      refine ⟨h'.setSym x _ (by rw [h0]; intro v hv; cases hv) (fun _ => .inl h'.ss),
        hst, by intro d hd; show d ∈ st'.equs; rw [heq]; exact hd, ?_, by intro y hy; cases hy⟩
      rintro y (⟨e', hy⟩ | ⟨n, hy⟩) h1
      · cases hy
      · cases hy; exact absurd h0 h1
    | some s =>
      simp only [hs] at he ⊢
      split at he
      · simp at he
      · rename_i h1
        rw [if_neg h1]
        by_cases hsv : s.issaved = false
        · rw [if_pos ⟨h'.ss, hsv⟩]
          have h0 : ∃ v0, env0 x = some v0 := by
            cases h0 : env0 x with
            | none =>
              rcases h'.C x s h0 hs with h2 | h2
              · rw [hsv] at h2; cases h2
              · exact absurd hmem (h2.2 n)
            | some v0 => exact ⟨v0, rfl⟩
          obtain ⟨v0, h0⟩ := h0
          obtain ⟨s2, hs2, hb2⟩ := h'.B x v0 h0
          rw [hs] at hs2; cases hs2
          rcases hb2 with ⟨h2, -⟩ | ⟨-, h2⟩
          · rw [hsv] at h2; cases h2
          · refine ⟨h'.save x _ _ v0 h0 (small_holds (s := s) h2 (hsmall x n rfl v0 h0)) rfl, hst, ?_, ?_, by intro y hy; cases hy⟩
            · intro d hd; rw [← heq] at hd; simp [St.setSym, saveVar, hd]
            · rintro y (⟨e', hy⟩ | ⟨n', hy⟩) h3
              · cases hy
              · cases hy; exact ⟨s.value, 0, by simp [St.setSym, saveVar]⟩
        · have hsv' : s.issaved = true := by simpa using hsv
          rw [if_neg (by simp [hsv'])]
          have hq : ∀ v, env0 x = some v → ∃ lo hi, (x, lo, hi) ∈ st'.equs := by
            intro v0 h0
            obtain ⟨s2, hs2, hb2⟩ := h'.B x v0 h0
            rw [hs] at hs2; cases hs2
            rcases hb2 with ⟨-, h2⟩ | ⟨h2, -⟩
            · exact h2
            · rw [hsv'] at h2; cases h2
          refine ⟨h'.setSym x _ (fun v0 h0 => .inl ⟨hsv', hq v0 h0⟩)
            (fun _ => .inl hsv'), hst, ?_, ?_, by intro y hy; cases hy⟩
          · intro d hd; show d ∈ st'.equs; rw [heq]; exact hd
          · rintro y (⟨e', hy⟩ | ⟨n', hy⟩) h3
            · cases hy
            · cases hy
              cases h0 : env0 x with
              | none => exact absurd h0 h3
              | some v0 => exact hq v0 h0
  | label x =>
    simp only [step] at he ⊢
    rw [storeLine_err] at he
    unfold createLabel at he ⊢
    cases hs : st.syms x with
    | none =>
      simp only
      have h0 : env0 x = none := by
        cases h0 : env0 x with
        | none => rfl
        | some v => obtain ⟨s, h1, -⟩ := h.B x v h0; rw [hs] at h1; cases h1
      have hi := h.setSym x { value := (W.loc 0 i).2, segment := some (W.loc 0 i).1, asmpass := 0 % 256 }
        (by rw [h0]; intro v hv; cases hv) (fun _ => .inr (hmix x h0 (.inr hmem)))
      obtain ⟨a, b, c⟩ := hi.stored i (.label x)
      refine ⟨a, by rw [b]; rfl, by rw [c]; exact fun _ hd => hd, ?_, ?_⟩
      · rintro y (⟨e', hy⟩ | ⟨n', hy⟩) h3 <;> cases hy
      · intro y hy; cases hy; exact h0
    | some s => simp [hs] at he
  | use e =>
    simp only [step] at he ⊢
    obtain ⟨h', hst, heq⟩ := h.stored i (.use e)
    generalize storeLine 0 i (.use e) st = st' at h' hst heq he ⊢
    have fin : ∀ o, Below src env0 i (.use e) st { st' with outs := o } := by
      intro o
      refine ⟨⟨h'.ss, h'.us, h'.A, h'.B, h'.C⟩, hst, by intro d hd; show d ∈ st'.equs; rw [heq]; exact hd, ?_, by intro y hy; cases hy⟩
      rintro y (⟨e', hy⟩ | ⟨n', hy⟩) h3 <;> cases hy
    rcases Res.value_cases (W.ev 0 i e st'.view) with hr | hr | ⟨v, hr, hn, hb⟩
    · simp only [hr, handle_undef, if_true] at he ⊢
      exact fin _
    · simp [hr] at he
    · rw [handle_val hr] at he ⊢
      exact fin _

end Verif.Equate
