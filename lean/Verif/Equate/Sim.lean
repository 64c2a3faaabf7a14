import Verif.Equate.Model
/-! # A line does to the symbol table what the specification says -/
namespace Verif.Equate
variable {E : Type}

theorem words (v : BitVec 64) : ((v >>> 32).setWidth 32 : BitVec 32) ++ (v.setWidth 32 : BitVec 32) = v := by
  apply BitVec.eq_of_toNat_eq
  have h := v.isLt
  simp only [BitVec.toNat_append, BitVec.toNat_setWidth, BitVec.toNat_ushiftRight, Nat.shiftRight_eq_div_pow]
  rw [← Nat.shiftLeft_add_eq_or_of_lt (by omega), Nat.shiftLeft_eq]
  omega

theorem view_setValue (s : Sym) (r : Res) (v : Val) (h : r.value = some v) : (setValue s r).view = v := by
  cases r with
  | const w => simp only [Res.value, Option.some.injEq] at h; subst h; simp [setValue, Sym.view, words]
  | addr g b a => simp only [Res.value, Option.some.injEq] at h; subst h; simp [setValue, Sym.view]
  | undef => cases h
  | bad => cases h

theorem view_setSym (st : St E) (x : Name) (s : Sym) : (st.setSym x s).view = st.view.set x s.view := by
  funext y
  simp only [St.view, St.setSym, Env.set]
  by_cases hy : y = x <;> simp [hy]

theorem view_small (n : BitVec 32) : ((0 : BitVec 32) ++ n) = (n.setWidth 64 : BitVec 64) := by
  apply BitVec.eq_of_toNat_eq
  have h := n.isLt
  rw [BitVec.toNat_append, BitVec.toNat_setWidth]
  simp
  omega

theorem storeLine_view (p i : Nat) (l : Line E) (st : St E) : (storeLine p i l st).view = st.view := by
  unfold storeLine; split
  · split <;> rfl
  · rfl

theorem storeLine_err (p i : Nat) (l : Line E) (st : St E) : (storeLine p i l st).err = st.err := by
  unfold storeLine; split
  · split <;> rfl
  · rfl

theorem storeLine_outs (p i : Nat) (l : Line E) (st : St E) : (storeLine p i l st).outs = st.outs := by
  unfold storeLine; split
  · split <;> rfl
  · rfl

theorem storeLine_syms (p i : Nat) (l : Line E) (st : St E) : (storeLine p i l st).syms = st.syms := by
  unfold storeLine; split
  · split <;> rfl
  · rfl

@[simp] theorem fail_err (st : St E) : st.fail.err = true := rfl
@[simp] theorem setSym_err (st : St E) (x : Name) (s : Sym) : (st.setSym x s).err = st.err := rfl
@[simp] theorem setSym_outs (st : St E) (x : Name) (s : Sym) : (st.setSym x s).outs = st.outs := rfl
@[simp] theorem saveVar_err (st : St E) (x : Name) (s : Sym) : (saveVar x s st).err = st.err := rfl
@[simp] theorem saveVar_outs (st : St E) (x : Name) (s : Sym) : (saveVar x s st).outs = st.outs := rfl

/-- Result of a directive: the symbol has its value, nothing is put out, and an error stays an error. -/
structure Defined (st st' : St E) (x : Name) (v : Val) : Prop where
  view : st'.view = st.view.set x v
  outs : st'.outs = st.outs
  err : st.err = false

theorem set_set (env : Env) (x : Name) (u v : Val) : (env.set x u).set x v = env.set x v := by
  funext y; simp only [Env.set]; split <;> rfl

theorem view_equs (st : St E) (l : List (Name × BitVec 32 × BitVec 32)) : ({ st with equs := l } : St E).view = st.view := rfl

theorem assignVar_ok {x : Name} {r : Res} {v : Val} {st : St E} (hr : r.value = some v)
    (he : (assignVar x r st).err = false) : Defined st (assignVar x r st) x v := by
  unfold assignVar at he ⊢
  cases hs : st.syms x with
  | none =>
    simp only [hs] at he ⊢
    exact ⟨by rw [view_setSym, view_setValue _ _ _ hr], rfl, he⟩
  | some s =>
    simp only [hs] at he ⊢
    split at he
    · simp at he
    · rename_i h1
      rw [if_neg h1]
      split at he
      · rename_i h2
        rw [if_pos h2]
        refine ⟨?_, rfl, he⟩
        rw [view_setSym, view_setValue _ _ _ hr]
        show Env.set (St.view { (st.setSym x _) with equs := _ }) x v = _
        rw [view_equs, view_setSym, set_set]
      · rename_i h2
        rw [if_neg h2]
        exact ⟨by rw [view_setSym, view_setValue _ _ _ hr], rfl, he⟩

theorem createVariable_ok {x : Name} {n : BitVec 32} {st : St E}
    (hk : ∀ v, st.view x = some v → v.seg = none)
    (he : (createVariable x n st).err = false) : Defined st (createVariable x n st) x (.const (n.setWidth 64)) := by
  unfold createVariable at he ⊢
  cases hs : st.syms x with
  | none =>
    simp only [hs] at he ⊢
    exact ⟨by rw [view_setSym]; simp only [Sym.view, view_small], rfl, he⟩
  | some s =>
    have hseg : s.segment = none := by
      have := hk s.view (by simp [St.view, hs])
      unfold Sym.view at this
      cases h : s.segment <;> simp_all [Val.seg]
    simp only [hs] at he ⊢
    split at he
    · simp at he
    · rename_i h1
      rw [if_neg h1]
      split at he
      · rename_i h2
        rw [if_pos h2]
        refine ⟨?_, rfl, he⟩
        rw [view_setSym]
        simp only [Sym.view, hseg, view_small]
        show Env.set (St.view { (st.setSym x _) with equs := _ }) x _ = _
        rw [view_equs, view_setSym, set_set]
      · rename_i h2
        rw [if_neg h2]
        exact ⟨by rw [view_setSym]; simp only [Sym.view, hseg, view_small], rfl, he⟩

theorem createConstant_ok {p i : Nat} {l : Line E} {x : Name} {r : Res} {v : Val} {st : St E} (hr : r.value = some v)
    (he : (createConstant p i l x r st).err = false) : Defined st (createConstant p i l x r st) x v := by
  have hst : ∀ st' : St E, (if st'.storeState then storeLine p i l st' else st').view = st'.view ∧
      (if st'.storeState then storeLine p i l st' else st').outs = st'.outs ∧
      (if st'.storeState then storeLine p i l st' else st').err = st'.err := by
    intro st'
    split
    · exact ⟨storeLine_view .., storeLine_outs .., storeLine_err ..⟩
    · exact ⟨rfl, rfl, rfl⟩
  unfold createConstant at he ⊢
  cases hs : st.syms x with
  | none =>
    simp only [hs] at he ⊢
    rw [(hst _).2.2] at he
    exact ⟨by rw [(hst _).1, view_setSym, view_setValue _ _ _ hr], by rw [(hst _).2.1]; rfl, he⟩
  | some s =>
    simp only [hs] at he ⊢
    split at he
    · simp at he
    · rename_i h1
      rw [if_neg h1]
      split at he
      · simp at he
      · rename_i h2
        rw [if_neg h2]
        rw [(hst _).2.2] at he
        exact ⟨by rw [(hst _).1, view_setSym, view_setValue _ _ _ hr], by rw [(hst _).2.1]; rfl, he⟩

theorem createLabel_ok {p : Nat} {x : Name} {g : Nat} {o : BitVec 32} {st : St E}
    (he : (createLabel p x g o st).err = false) : Defined st (createLabel p x g o st) x (.addr g o) := by
  unfold createLabel at he ⊢
  cases hs : st.syms x with
  | none =>
    simp only [hs] at he ⊢
    exact ⟨by rw [view_setSym]; rfl, rfl, he⟩
  | some s =>
    simp only [hs] at he ⊢
    split at he
    · simp at he
    · rename_i h1
      rw [if_neg h1]
      exact ⟨by rw [view_setSym]; rfl, rfl, he⟩

theorem Res.value_cases (r : Res) : r = .undef ∨ r = .bad ∨ ∃ v, r.value = some v ∧ r ≠ .undef ∧ r ≠ .bad := by
  cases r
  · exact .inr (.inr ⟨_, rfl, by simp, by simp⟩)
  · exact .inr (.inr ⟨_, rfl, by simp, by simp⟩)
  · exact .inl rfl
  · exact .inr (.inl rfl)

theorem handle_val {α : Type} {r : Res} {v : Val} (h : r.value = some v) (a b : α) (f : Res → α) :
    r.handle a b f = f r := by
  cases r <;> simp_all [Res.handle, Res.value]

@[simp] theorem handle_undef {α : Type} (a b : α) (f : Res → α) : Res.undef.handle a b f = b := by simp [Res.handle]

@[simp] theorem handle_bad {α : Type} (a b : α) (f : Res → α) : Res.bad.handle a b f = a := by simp [Res.handle]

theorem storeIf (p i : Nat) (l : Line E) (st : St E) :
    (if st.storeState then storeLine p i l st else st).view = st.view ∧
    (if st.storeState then storeLine p i l st else st).outs = st.outs ∧
    (if st.storeState then storeLine p i l st else st).err = st.err ∧
    (if st.storeState then storeLine p i l st else st).storeState = st.storeState ∧
    (if st.storeState then storeLine p i l st else st).syms = st.syms := by
  split
  · rename_i h
    refine ⟨storeLine_view .., storeLine_outs .., storeLine_err .., ?_, storeLine_syms ..⟩
    unfold storeLine; rw [if_pos h]; split
    · exact h.symm ▸ rfl
    · rfl
  · exact ⟨rfl, rfl, rfl, rfl, rfl⟩

/-- A step of the assembler without error is the step of the specification. -/
theorem step_ok {W : World E} {p i : Nat} {l : Line E} {st : St E} {t : Trace} (hv : st.view = t.env)
    (ho : st.outs = t.outs)
    (hk : ∀ x n, l = .strvar x n → ∀ v, t.env x = some v → v.seg = none)
    (he : (step W p i l st).err = false) :
    (step W p i l st).view = (readLine W p i l t).env ∧ (step W p i l st).outs = (readLine W p i l t).outs ∧
      st.err = false := by
  cases l with
  | assign x e =>
    obtain ⟨s1, s2, s3, -, -⟩ := storeIf p i (.assign x e) st
    generalize hst' : (if st.storeState then storeLine p i (Line.assign x e) st else st) = st' at s1 s2 s3
    simp only [step, hst'] at he ⊢
    have hev : W.ev p i e st'.view = W.ev p i e t.env := by rw [s1, hv]
    rcases Res.value_cases (W.ev p i e t.env) with h | h | ⟨v, h, hn, hb⟩
    · rw [hev] at he ⊢
      simp only [h, handle_undef] at he ⊢
      have : (readLine W p i (.assign x e) t).env = t.env ∧ (readLine W p i (.assign x e) t).outs = t.outs := by
        simp [readLine, h, Res.value]
      rw [this.1, this.2]
      split at he
      · rename_i h0
        rw [if_pos h0]
        split at he
        · rename_i hs; rw [if_pos hs]
          exact ⟨by rw [s1, hv], by rw [s2, ho], by rw [← s3]; exact he⟩
        · rename_i hs; rw [if_neg hs]
          rw [storeLine_err] at he
          exact ⟨by rw [storeLine_view, s1, hv], by rw [storeLine_outs, s2, ho], by rw [← s3]; exact he⟩
      · simp at he
    · rw [hev] at he
      simp [h] at he
    · have hr : (readLine W p i (.assign x e) t) = t.define x v := by simp [readLine, h]
      rw [hev] at he ⊢
      rw [handle_val h] at he ⊢
      have d := assignVar_ok h he
      rw [hr]
      exact ⟨by rw [d.view, s1, hv]; rfl, by rw [d.outs, s2, ho]; rfl, by rw [← s3]; exact d.err⟩
  | equ x e =>
    simp only [step] at he ⊢
    rcases Res.value_cases (W.ev p i e t.env) with h | h | ⟨v, h, hn, hb⟩
    · rw [hv] at he; simp [h] at he
    · rw [hv] at he; simp [h] at he
    · rw [hv] at he ⊢
      rw [handle_val h] at he ⊢
      have d := createConstant_ok h he
      have hr : (readLine W p i (.equ x e) t).env = t.env.set x v ∧ (readLine W p i (.equ x e) t).outs = t.outs := by
        simp [readLine, h, Trace.define]
      rw [hr.1, hr.2]
      exact ⟨by rw [d.view, hv], by rw [d.outs, ho], d.err⟩
  | strvar x n =>
    simp only [step] at he ⊢
    obtain ⟨s1, s2, s3, -, -⟩ := storeIf p i (.strvar x n) st
    have d := createVariable_ok (by rw [s1, hv]; exact hk x n rfl) he
    exact ⟨by rw [d.view, s1, hv]; rfl, by rw [d.outs, s2, ho]; rfl, by rw [← s3]; exact d.err⟩
  | label x =>
    simp only [step] at he ⊢
    rw [storeLine_err] at he
    have d := createLabel_ok he
    exact ⟨by rw [storeLine_view, d.view, hv]; rfl, by rw [storeLine_outs, d.outs, ho]; rfl, d.err⟩
  | use e =>
    simp only [step] at he ⊢
    rw [storeLine_view, hv] at he ⊢
    rcases Res.value_cases (W.ev p i e t.env) with h | h | ⟨v, h, hn, hb⟩
    · simp only [h, handle_undef] at he ⊢
      split at he
      · rename_i h0
        rw [if_pos h0]
        refine ⟨?_, ?_, ?_⟩
        · show (storeLine p i (.use e) st).view = _
          rw [storeLine_view, hv]; rfl
        · simp only [readLine, h, Res.value, storeLine_outs, ho]
        · rw [← storeLine_err p i (.use e) st]; exact he
      · simp at he
    · simp [h] at he
    · rw [handle_val h] at he ⊢
      refine ⟨?_, ?_, ?_⟩
      · show (storeLine p i (.use e) st).view = _
        rw [storeLine_view, hv]; rfl
      · simp only [readLine, h, storeLine_outs, ho]
      · rw [← storeLine_err p i (.use e) st]; exact he

/-- Errors are not forgotten. -/
theorem runLines_err {W : World E} {p : Nat} {ls : List (Nat × Line E)} {st : St E}
    (hs : ∀ i l st, (step W p i l st).err = false → st.err = false)
    (he : (runLines W p ls st).err = false) : st.err = false := by
  induction ls generalizing st with
  | nil => exact he
  | cons l r ih => exact hs _ _ _ (ih he)

end Verif.Equate
