import Verif.Equate.Sim
/-! # Reading lines, the head of the source, and the line store in the first pass -/
namespace Verif.Equate
variable {E : Type}

theorem readLines_append (W : World E) (p : Nat) (a b : List (Nat × Line E)) (t : Trace) :
    readLines W p (a ++ b) t = readLines W p b (readLines W p a t) := by
  induction a generalizing t with
  | nil => rfl
  | cons l r ih => exact ih _

theorem runLines_append (W : World E) (p : Nat) (a b : List (Nat × Line E)) (st : St E) :
    runLines W p (a ++ b) st = runLines W p b (runLines W p a st) := by
  induction a generalizing st with
  | nil => rfl
  | cons l r ih => exact ih _

theorem step_err {W : World E} {p i : Nat} {l : Line E} {st : St E} (he : (step W p i l st).err = false) :
    st.err = false := by
  cases l with
  | assign x e =>
    obtain ⟨s1, s2, s3, -, -⟩ := storeIf p i (.assign x e) st
    generalize hst' : (if st.storeState then storeLine p i (Line.assign x e) st else st) = st' at s1 s2 s3
    simp only [step, hst'] at he
    rw [← s3]
    rcases Res.value_cases (W.ev p i e st'.view) with h | h | ⟨v, h, hn, hb⟩
    · simp only [h, handle_undef] at he
      split at he
      · split at he
        · exact he
        · rwa [storeLine_err] at he
      · simp at he
    · simp [h] at he
    · rw [handle_val h] at he
      exact (assignVar_ok h he).err
  | equ x e =>
    simp only [step] at he
    rcases Res.value_cases (W.ev p i e st.view) with h | h | ⟨v, h, hn, hb⟩
    · simp [h] at he
    · simp [h] at he
    · rw [handle_val h] at he
      exact (createConstant_ok h he).err
  | strvar x n =>
    simp only [step] at he
    obtain ⟨s1, s2, s3, -, -⟩ := storeIf p i (.strvar x n) st
    rw [← s3]
    generalize (if st.storeState then storeLine p i (Line.strvar x n) st else st) = st' at he
    unfold createVariable at he
    split at he
    · exact he
    · split at he
      · simp at he
      · split at he <;> exact he
  | label x =>
    simp only [step] at he
    rw [storeLine_err] at he
    exact (createLabel_ok he).err
  | use e =>
    simp only [step] at he
    rw [← storeLine_err p i (.use e) st]
    rcases Res.value_cases (W.ev p i e (storeLine p i (.use e) st).view) with h | h | ⟨v, h, hn, hb⟩
    · simp only [h, handle_undef] at he
      split at he
      · exact he
      · simp at he
    · simp [h] at he
    · rw [handle_val h] at he
      exact he

theorem run_err {W : World E} {p : Nat} {ls : List (Nat × Line E)} {st : St E} (he : (runLines W p ls st).err = false) :
    st.err = false :=
  runLines_err (fun _ _ _ h => step_err h) he

/-! ## What reading leaves alone -/

theorem defs_mono {W : World E} {p : Nat} (ls : List (Nat × Line E)) (t : Trace) {d : Name × Val} (h : d ∈ t.defs) :
    d ∈ (readLines W p ls t).defs := by
  induction ls generalizing t with
  | nil => exact h
  | cons l r ih =>
    obtain ⟨i, l⟩ := l
    refine ih _ ?_
    cases l <;> simp only [readLine, Trace.define] <;> (try split) <;> simp [h]

theorem reequ_mono {W : World E} {p : Nat} (ls : List (Nat × Line E)) (t : Trace) {d : Name × Val × Val}
    (h : d ∈ t.reequ) : d ∈ (readLines W p ls t).reequ := by
  induction ls generalizing t with
  | nil => exact h
  | cons l r ih =>
    obtain ⟨i, l⟩ := l
    refine ih _ ?_
    cases l <;> simp only [readLine, Trace.define] <;> (try split) <;> simp [h]

theorem skipped_mono {W : World E} {p : Nat} (ls : List (Nat × Line E)) (t : Trace) {x : Name}
    (h : x ∈ t.skipped) : x ∈ (readLines W p ls t).skipped := by
  induction ls generalizing t with
  | nil => exact h
  | cons l r ih =>
    obtain ⟨i, l⟩ := l
    refine ih _ ?_
    cases l <;> simp only [readLine, Trace.define] <;> (try split) <;> simp [h]

/-- A value comes from before the lines, or from one of the definitions in them. -/
theorem env_from {W : World E} {p : Nat} (ls : List (Nat × Line E)) (t : Trace) {x : Name} {v : Val}
    (h : (readLines W p ls t).env x = some v) : t.env x = some v ∨ (x, v) ∈ (readLines W p ls t).defs := by
  induction ls generalizing t with
  | nil => exact .inl h
  | cons l r ih =>
    rcases ih _ h with h1 | h1
    · obtain ⟨i, l⟩ := l
      have key : t.env x = some v ∨ (x, v) ∈ (readLine W p i l t).defs := by
        have setc : ∀ y u, (t.env.set y u) x = some v → t.env x = some v ∨ (x, v) = (y, u) := by
          intro y u hh
          simp only [Env.set] at hh
          split at hh
          · rename_i he; right; rw [he]; simp_all
          · exact .inl hh
        cases l <;> simp only [readLine, Trace.define] at h1 ⊢
        · split at h1
          · rcases setc _ _ h1 with hh | hh
            · exact .inl hh
            · right; rename_i hu; simp [hu, hh]
          · exact .inl h1
        · split at h1
          · rcases setc _ _ h1 with hh | hh
            · exact .inl hh
            · right; rename_i hu; simp [hu, hh]
          · exact .inl h1
        · rcases setc _ _ h1 with hh | hh
          · exact .inl hh
          · right; simp [hh]
        · rcases setc _ _ h1 with hh | hh
          · exact .inl hh
          · right; simp [hh]
        · exact .inl h1
      rcases key with h2 | h2
      · exact .inl h2
      · exact .inr (defs_mono r _ h2)
    · exact .inr h1

/-- A line leaves the names alone it does not define. -/
theorem env_other {W : World E} {p i : Nat} {l : Line E} {t : Trace} {x : Name} (h : l.target ≠ some x) :
    (readLine W p i l t).env x = t.env x := by
  cases l <;> simp only [Line.target, ne_eq, Option.some.injEq] at h <;> simp only [readLine]
  · split
    · simp [Trace.define, Env.set, Ne.symm h]
    · rfl
  · split
    · simp [Trace.define, Env.set, Ne.symm h]
    · rfl
  · simp [Trace.define, Env.set, Ne.symm h]
  · simp [Trace.define, Env.set, Ne.symm h]

theorem envs_other {W : World E} {p : Nat} {ls : List (Nat × Line E)} {t : Trace} {x : Name}
    (h : ∀ l ∈ ls, l.2.target ≠ some x) : (readLines W p ls t).env x = t.env x := by
  induction ls generalizing t with
  | nil => rfl
  | cons l r ih =>
    obtain ⟨i, l⟩ := l
    rw [readLines, ih (fun l' hl' => h l' (by simp [hl'])), env_other (h (i, l) (by simp))]

/-- Once a name has a value it keeps one. -/
theorem env_some {W : World E} {p : Nat} (ls : List (Nat × Line E)) (t : Trace) {x : Name} (h : t.env x ≠ none) :
    (readLines W p ls t).env x ≠ none := by
  induction ls generalizing t with
  | nil => exact h
  | cons l r ih =>
    obtain ⟨i, l⟩ := l
    refine ih _ ?_
    cases l <;> simp only [readLine, Trace.define] <;> (try split) <;>
      (try simp only [Env.set]) <;> (try split) <;> first | exact h | simp

/-- A name that only gets values it already has keeps its value. -/
theorem env_keep {W : World E} {p : Nat} (ls : List (Nat × Line E)) (t : Trace) {x : Name} {v : Val}
    (hv : t.env x = some v)
    (h1 : ∀ i e, (i, .assign x e) ∉ ls) (h2 : ∀ i n, (i, .strvar x n) ∉ ls) (h3 : ∀ i, (i, .label x) ∉ ls)
    (h4 : ∀ o w, (x, o, w) ∈ (readLines W p ls t).reequ → o = w) : (readLines W p ls t).env x = some v := by
  induction ls generalizing t with
  | nil => exact hv
  | cons l r ih =>
    obtain ⟨i, l⟩ := l
    refine ih _ ?_ (fun i e hh => h1 i e (by simp [hh])) (fun i e hh => h2 i e (by simp [hh]))
      (fun i hh => h3 i (by simp [hh])) h4
    by_cases ht : l.target = some x
    · cases l with
      | assign y e => simp only [Line.target, Option.some.injEq] at ht; subst ht; exact absurd (by simp) (h1 i e)
      | strvar y n => simp only [Line.target, Option.some.injEq] at ht; subst ht; exact absurd (by simp) (h2 i n)
      | label y => simp only [Line.target, Option.some.injEq] at ht; subst ht; exact absurd (by simp) (h3 i)
      | use e => simp [Line.target] at ht
      | equ y e =>
        simp only [Line.target, Option.some.injEq] at ht; subst ht
        simp only [readLine]
        cases hw : (W.ev p i e t.env).value with
        | none => exact hv
        | some w =>
          have := h4 v w (by
            simp only [readLines]
            apply reequ_mono
            simp [readLine, hw, hv])
          subst this
          simp [Trace.define, Env.set]
    · rw [env_other ht, hv]

/-! ## A run without errors -/

theorem run_ok {W : World E} {p : Nat} (ls : List (Nat × Line E)) {st : St E} {t : Trace} (hv : st.view = t.env)
    (ho : st.outs = t.outs)
    (hk : ∀ i x n, (i, .strvar x n) ∈ ls → (∀ v, t.env x = some v → v.seg = none) ∧
      ∀ v, (x, v) ∈ (readLines W p ls t).defs → v.seg = none)
    (he : (runLines W p ls st).err = false) :
    (runLines W p ls st).view = (readLines W p ls t).env ∧ (runLines W p ls st).outs = (readLines W p ls t).outs := by
  induction ls generalizing st t with
  | nil => exact ⟨hv, ho⟩
  | cons l r ih =>
    obtain ⟨i, l⟩ := l
    have s := step_ok hv ho (fun x n hl v hx => (hk i x n (by simp [hl])).1 v hx) (run_err he)
    refine ih s.1 s.2.1 ?_ he
    intro j x n hm
    obtain ⟨a, b⟩ := hk j x n (by simp [hm])
    refine ⟨fun v hx => ?_, b⟩
    rcases env_from [(i, l)] t (x := x) (v := v) hx with h | h
    · exact a v h
    · exact b v (defs_mono r _ h)

/-! ## The head of the source -/

/-- What is left below the head. -/
def Starts (W : World E) (env : Env) : List (Nat × Line E) → Prop
  | [] => True
  | (i, .assign _ e) :: _ => (W.ev 0 i e env).value = none
  | (i, .equ _ e) :: _ => (W.ev 0 i e env).value = none
  | (_, .strvar _ _) :: _ => False
  | (_, .label _) :: _ => True
  | (_, .use _) :: _ => True

theorem head_split (W : World E) (ls : List (Nat × Line E)) (t : Trace) :
    ∃ rest, ls = head W ls t.env ++ rest ∧ Starts W (readLines W 0 (head W ls t.env) t).env rest := by
  induction ls generalizing t with
  | nil => exact ⟨[], rfl, trivial⟩
  | cons l r ih =>
    obtain ⟨i, l⟩ := l
    cases l with
    | assign x e =>
      simp only [head]
      cases hw : (W.ev 0 i e t.env).value with
      | none => exact ⟨(i, .assign x e) :: r, rfl, by simpa [readLines, Starts] using hw⟩
      | some v =>
        obtain ⟨rest, h1, h2⟩ := ih (t.define x v)
        refine ⟨rest, ?_, ?_⟩
        · simp only [List.cons_append, List.cons.injEq, true_and]; exact h1
        · simp only [readLines, readLine, hw]; exact h2
    | equ x e =>
      simp only [head]
      cases hw : (W.ev 0 i e t.env).value with
      | none => exact ⟨(i, .equ x e) :: r, rfl, by simpa [readLines, Starts] using hw⟩
      | some v =>
        obtain ⟨rest, h1, h2⟩ := ih { t.define x v with reequ := t.reequ ++ (match t.env x with | some o => [(x, o, v)] | none => []) }
        refine ⟨rest, ?_, ?_⟩
        · simp only [List.cons_append, List.cons.injEq, true_and]; exact h1
        · simp only [readLines, readLine, hw]; exact h2
    | strvar x n =>
      obtain ⟨rest, h1, h2⟩ := ih (t.define x (.const (n.setWidth 64)))
      refine ⟨rest, ?_, ?_⟩
      · simp only [head, List.cons_append, List.cons.injEq, true_and]; exact h1
      · simp only [head, readLines, readLine]; exact h2
    | label x => exact ⟨_, rfl, trivial⟩
    | use e => exact ⟨_, rfl, trivial⟩

/-- Lines of the head that have a value. -/
def HeadLine (W : World E) (env : Env) (i : Nat) : Line E → Prop
  | .assign _ e => (W.ev 0 i e env).value ≠ none
  | .equ _ e => (W.ev 0 i e env).value ≠ none
  | .strvar _ _ => True
  | _ => False

/-- A property that holds before the head and is kept by its lines holds behind it. -/
theorem head_induct {W : World E} {P : List (Nat × Line E) → Trace → Prop}
    (h0 : ∀ t, P [] t)
    (hs : ∀ i l r t, HeadLine W t.env i l → P r (readLine W 0 i l t) → P ((i, l) :: r) t) :
    ∀ (ls : List (Nat × Line E)) (t : Trace), P (head W ls t.env) t := by
  intro ls
  induction ls with
  | nil => exact fun t => h0 t
  | cons l r ih =>
    intro t
    obtain ⟨i, l⟩ := l
    cases l with
    | assign x e =>
      simp only [head]
      cases hw : (W.ev 0 i e t.env).value with
      | none => exact h0 t
      | some v =>
        refine hs _ _ _ _ (by simp [HeadLine, hw]) ?_
        have := ih (readLine W 0 i (.assign x e) t)
        simpa [readLine, hw, Trace.define] using this
    | equ x e =>
      simp only [head]
      cases hw : (W.ev 0 i e t.env).value with
      | none => exact h0 t
      | some v =>
        refine hs _ _ _ _ (by simp [HeadLine, hw]) ?_
        have := ih (readLine W 0 i (.equ x e) t)
        simpa [readLine, hw, Trace.define] using this
    | strvar x n =>
      simp only [head]
      refine hs _ _ _ _ trivial ?_
      exact ih (readLine W 0 i (.strvar x n) t)
    | label x => exact h0 t
    | use e => exact h0 t

theorem readLine_target {W : World E} {i : Nat} {l : Line E} {t : Trace} {x : Name} (h : HeadLine W t.env i l)
    (hx : l.target = some x) : (readLine W 0 i l t).env x ≠ none := by
  cases l with
  | assign y e =>
    simp only [Line.target, Option.some.injEq] at hx; subst hx
    simp only [HeadLine] at h
    cases hw : (W.ev 0 i e t.env).value with
    | none => exact absurd hw h
    | some v => simp [readLine, hw, Trace.define, Env.set]
  | equ y e =>
    simp only [Line.target, Option.some.injEq] at hx; subst hx
    simp only [HeadLine] at h
    cases hw : (W.ev 0 i e t.env).value with
    | none => exact absurd hw h
    | some v => simp [readLine, hw, Trace.define, Env.set]
  | strvar y n =>
    simp only [Line.target, Option.some.injEq] at hx; subst hx
    simp [readLine, Trace.define, Env.set]
  | label y => exact absurd h (by simp [HeadLine])
  | use e => simp [Line.target] at hx

/-- Names defined in the head have a value behind it. -/
theorem head_defines (W : World E) (ls : List (Nat × Line E)) (t : Trace) :
    ∀ l ∈ head W ls t.env, ∀ x, l.2.target = some x → (readLines W 0 (head W ls t.env) t).env x ≠ none := by
  refine head_induct (W := W) (P := fun hd t => ∀ l ∈ hd, ∀ x, l.2.target = some x → (readLines W 0 hd t).env x ≠ none)
    ?_ ?_ ls t
  · intro t l hl; simp at hl
  · intro i l r t hh ih l' hl' x hx
    simp only [readLines]
    rcases List.mem_cons.1 hl' with h | h
    · subst h
      exact env_some _ _ (readLine_target hh hx)
    · exact ih l' h x hx

/-- The head puts nothing out. -/
theorem head_outs (W : World E) (p : Nat) (ls : List (Nat × Line E)) (env : Env) (t : Trace) :
    (readLines W p (head W ls env) t).outs = t.outs := by
  have key : ∀ hd : List (Nat × Line E), (∀ l ∈ hd, ∀ e, l.2 ≠ .use e) → ∀ t, (readLines W p hd t).outs = t.outs := by
    intro hd
    induction hd with
    | nil => intro _ t; rfl
    | cons l r ih =>
      intro h t
      obtain ⟨i, l⟩ := l
      rw [readLines, ih (fun l' hl' => h l' (by simp [hl']))]
      cases l <;> simp only [readLine, Trace.define] <;> (try split) <;> (try rfl)
      rename_i e; exact absurd rfl (h (i, .use e) (by simp) e)
  refine key _ ?_ t
  have := head_induct (W := W) (P := fun hd _ => ∀ l ∈ hd, ∀ e, l.2 ≠ Line.use e) (by intro t l hl; simp at hl)
    (by
      intro i l r t hh ih l' hl' e
      rcases List.mem_cons.1 hl' with h | h
      · subst h; intro he; simp only at he; subst he; exact hh
      · exact ih l' h e) ls { env := env }
  exact this

/-- Reading the head again gives the same values to the names it defines, and leaves the others alone. -/
theorem head_again {W : World E} {p : Nat} (ls : List (Nat × Line E)) (t : Trace)
    (hc : ∀ l ∈ head W ls t.env, ∀ x e, (l.2 = .assign x e ∨ l.2 = .equ x e) → ∀ (env env' : Env) v,
      (W.ev 0 l.1 e env).value = some v → (∀ y u, env y = some u → env' y = some u) →
      (W.ev p l.1 e env').value = some v) :
    ∀ t' : Trace, (∀ y u, t.env y = some u → t'.env y = some u) →
      (∀ y u, (readLines W 0 (head W ls t.env) t).env y = some u →
        (readLines W p (head W ls t.env) t').env y = some u) ∧
      ∀ y, (readLines W 0 (head W ls t.env) t).env y = none →
        (readLines W p (head W ls t.env) t').env y = t'.env y := by
  revert hc
  refine head_induct (W := W) (P := fun hd t => (∀ l ∈ hd, ∀ x e, (l.2 = .assign x e ∨ l.2 = .equ x e) →
      ∀ (env env' : Env) v, (W.ev 0 l.1 e env).value = some v → (∀ y u, env y = some u → env' y = some u) →
      (W.ev p l.1 e env').value = some v) → ∀ t' : Trace, (∀ y u, t.env y = some u → t'.env y = some u) →
      (∀ y u, (readLines W 0 hd t).env y = some u → (readLines W p hd t').env y = some u) ∧
      ∀ y, (readLines W 0 hd t).env y = none → (readLines W p hd t').env y = t'.env y) ?_ ?_ ls t
  · intro t _ t' h
    exact ⟨h, fun y _ => rfl⟩
  · intro i l r t hh ih hc t' hsub
    have hline : ∃ x v, (readLine W 0 i l t).env = t.env.set x v ∧ (readLine W p i l t').env = t'.env.set x v := by
      cases l with
      | assign x e =>
        simp only [HeadLine] at hh
        cases hw : (W.ev 0 i e t.env).value with
        | none => exact absurd hw hh
        | some v =>
          have := hc (i, .assign x e) (by simp) x e (.inl rfl) t.env t'.env v hw hsub
          exact ⟨x, v, by simp [readLine, hw, Trace.define], by simp only at this; simp [readLine, this, Trace.define]⟩
      | equ x e =>
        simp only [HeadLine] at hh
        cases hw : (W.ev 0 i e t.env).value with
        | none => exact absurd hw hh
        | some v =>
          have := hc (i, .equ x e) (by simp) x e (.inr rfl) t.env t'.env v hw hsub
          exact ⟨x, v, by simp [readLine, hw, Trace.define], by simp only at this; simp [readLine, this, Trace.define]⟩
      | strvar x n => exact ⟨x, _, rfl, rfl⟩
      | label y => exact absurd hh (by simp [HeadLine])
      | use e => exact absurd hh (by simp [HeadLine])
    obtain ⟨x, v, e1, e2⟩ := hline
    have hsub' : ∀ y u, (readLine W 0 i l t).env y = some u → (readLine W p i l t').env y = some u := by
      intro y u hy
      rw [e1] at hy; rw [e2]
      simp only [Env.set] at hy ⊢
      split at hy
      · rename_i hyx; rw [if_pos hyx]; exact hy
      · rename_i hyx; rw [if_neg hyx]; exact hsub y u hy
    obtain ⟨a, b⟩ := ih (fun l' hl' => hc l' (by simp [hl'])) _ hsub'
    refine ⟨a, ?_⟩
    intro y hy
    rw [readLines, b y hy, e2]
    simp only [Env.set]
    split
    · rename_i hyx
      exfalso
      refine env_some r (readLine W 0 i l t) (x := y) ?_ hy
      rw [e1]; simp [Env.set, hyx]
    · rfl

end Verif.Equate
