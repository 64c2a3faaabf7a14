import Verif.Switch.Dispatch
namespace Verif.Switch

variable {σ : Type} {env : Env} {m : Mode} {prog : List (Line σ)}

/-- the label does not occur in the lines -/
def NoLab (l : Lbl) (a : List (Line σ)) : Prop := ∀ x ∈ a, x ≠ .lab l

theorem after_app (l : Lbl) (a b : List (Line σ)) (h : NoLab l a) : after l (a ++ b) = after l b := by
  induction a with
  | nil => rfl
  | cons x xs ih =>
    have hx := ih (fun y hy => h y (by simp [hy]))
    cases x with
    | lab k =>
      have : k ≠ l := fun e => h (.lab k) (by simp) (by rw [e])
      simp only [List.cons_append, after, if_neg this, hx]
    | _ => simpa [after] using hx

theorem after_hit (l : Lbl) (a b : List (Line σ)) (h : NoLab l a) : after l (a ++ .lab l :: b) = some b := by
  rw [after_app l a _ h]; simp [after]

def OnlyLabs (a : List (Line σ)) : Prop := ∀ x ∈ a, ∃ l, x = .lab l

theorem strip_labs (a b : List (Line σ)) (h : OnlyLabs a) : strip (a ++ b) = strip b := by
  induction a with
  | nil => rfl
  | cons x xs ih =>
    obtain ⟨l, rfl⟩ := h x (by simp)
    exact ih (fun y hy => h y (by simp [hy]))

/-- the operand as a signed number, and the constants -/
theorem same_iff (v : BitVec 64) (c : Int) : same m v c = true ↔ caseVal m c = sgn (opW m) v := by
  cases m <;> simp only [same, caseVal, opW, sgn, wrap32, wrap64, beq_iff_eq]
  · exact ⟨fun h => by rw [h], fun h => (BitVec.eq_of_toInt_eq h).symm⟩
  · exact ⟨fun h => by rw [h], fun h => (BitVec.eq_of_toInt_eq h).symm⟩
  · exact ⟨fun h => by rw [h], fun h => (BitVec.eq_of_toInt_eq h).symm⟩

theorem addCases_spec (lab : Nat) (vs : List Int) (cs cs' : List (Int × Nat)) (h : addCases m lab vs cs = some cs') :
    cs' = cs ++ vs.map (fun v => (caseVal m v, lab)) ∧ ((cs.map (·.1)).Nodup → (cs'.map (·.1)).Nodup) := by
  induction vs generalizing cs with
  | nil => simp only [addCases, Option.some.injEq] at h; subst h; simp
  | cons v vs ih =>
    simp only [addCases] at h
    split at h
    · simp at h
    · rename_i hn
      obtain ⟨a, b⟩ := ih _ h
      refine ⟨by rw [a]; simp, fun hc => b ?_⟩
      simp only [List.any_eq_true, beq_iff_eq, not_exists, not_and] at hn
      rw [List.map_append, List.nodup_append]
      refine ⟨hc, by simp, ?_⟩
      intro x hx y hy
      simp only [List.map_cons, List.map_nil, List.mem_cons, List.not_mem_nil, or_false] at hy
      subst hy
      simp only [List.mem_map] at hx
      obtain ⟨z, hz, rfl⟩ := hx
      exact hn z hz

theorem dirs_cons {d d' : DSt} {x : Dir σ} {xs : List (Dir σ)} {b : List (Line σ)} (h : dirs m d (x :: xs) = some (d', b)) :
    ∃ d1 l1 l2, dirStep m d x = some (d1, l1) ∧ dirs m d1 xs = some (d', l2) ∧ b = l1 ++ l2 := by
  simp only [dirs] at h
  cases h1 : dirStep m d x with
  | none => simp [h1] at h
  | some p =>
    obtain ⟨d1, l1⟩ := p
    simp only [h1] at h
    cases h2 : dirs m d1 xs with
    | none => simp [h2] at h
    | some q =>
      obtain ⟨d2, l2⟩ := q
      simp only [h2, Option.some.injEq, Prod.mk.injEq] at h
      obtain ⟨rfl, rfl⟩ := h
      exact ⟨d1, l1, l2, rfl, h2, rfl⟩

/-- the cases collected -/
theorem dirs_cases (ds : List (Dir σ)) (d d' : DSt) (b : List (Line σ)) (h : dirs m d ds = some (d', b)) :
    d'.cases.map (·.1) = d.cases.map (·.1) ++ (consts ds).map (caseVal m) ∧
    ((d.cases.map (·.1)).Nodup → (d'.cases.map (·.1)).Nodup) := by
  induction ds generalizing d b with
  | nil => simp only [dirs, Option.some.injEq, Prod.mk.injEq] at h; rw [← h.1]; simp [consts]
  | cons x xs ih =>
    obtain ⟨d1, l1, l2, h1, h2, rfl⟩ := dirs_cons h
    obtain ⟨i1, i2⟩ := ih d1 l2 h2
    cases x with
    | case vs =>
      simp only [dirStep] at h1
      split at h1
      · simp at h1
      · simp only [Option.map_eq_some_iff, Prod.mk.injEq] at h1
        obtain ⟨cs, hcs, rfl, rfl⟩ := h1
        obtain ⟨a1, a2⟩ := addCases_spec _ _ _ _ hcs
        simp only at i1 i2
        refine ⟨?_, fun hh => i2 (a2 hh)⟩
        rw [i1, a1]; simp [consts, Function.comp_def]
    | dflt =>
      simp only [dirStep] at h1
      split at h1
      · simp at h1
      · simp only [Option.some.injEq, Prod.mk.injEq] at h1
        obtain ⟨rfl, rfl⟩ := h1
        exact ⟨i1, i2⟩
    | brk =>
      simp only [dirStep, Option.some.injEq, Prod.mk.injEq] at h1
      obtain ⟨rfl, rfl⟩ := h1
      exact ⟨i1, i2⟩
    | brkIf p =>
      simp only [dirStep, Option.some.injEq, Prod.mk.injEq] at h1
      obtain ⟨rfl, rfl⟩ := h1
      exact ⟨i1, i2⟩
    | stm f =>
      simp only [dirStep, Option.some.injEq, Prod.mk.injEq] at h1
      obtain ⟨rfl, rfl⟩ := h1
      exact ⟨i1, i2⟩

/-- only labels of cases and of the default are in the body -/
theorem dirs_labs (ds : List (Dir σ)) (d d' : DSt) (b : List (Line σ)) (h : dirs m d ds = some (d', b)) :
    ∀ x ∈ b, ∀ l, x = .lab l → (∃ n, l = .case n ∧ d.cnt < n) ∨ (l = .dflt ∧ d.dflt = false ∧ d'.dflt = true) := by
  induction ds generalizing d b with
  | nil => simp only [dirs, Option.some.injEq, Prod.mk.injEq] at h; rw [← h.2]; simp
  | cons x xs ih =>
    obtain ⟨d1, l1, l2, h1, h2, rfl⟩ := dirs_cons h
    have i := ih d1 l2 h2
    intro y hy l hl
    rw [List.mem_append] at hy
    cases x with
    | case vs =>
      simp only [dirStep] at h1
      split at h1
      · simp at h1
      · simp only [Option.map_eq_some_iff, Prod.mk.injEq] at h1
        obtain ⟨cs, hcs, rfl, rfl⟩ := h1
        rcases hy with hy | hy
        · split at hy
          · simp only [List.mem_cons, List.not_mem_nil, or_false] at hy
            rw [hl] at hy; cases hy
            exact .inl ⟨_, rfl, by omega⟩
          · simp at hy
        · rcases i y hy l hl with ⟨n, a, b⟩ | h
          · refine .inl ⟨n, a, ?_⟩
            simp only at b; split at b <;> omega
          · exact .inr h
    | dflt =>
      simp only [dirStep] at h1
      split at h1
      · simp at h1
      · rename_i hdf
        simp only [Option.some.injEq, Prod.mk.injEq] at h1
        obtain ⟨rfl, rfl⟩ := h1
        rcases hy with hy | hy
        · simp only [List.mem_cons, List.not_mem_nil, or_false] at hy
          rw [hl] at hy; cases hy
          refine .inr ⟨rfl, by simpa using hdf, ?_⟩
          clear i ih
          exact dflt_keeps xs _ _ _ h2 rfl
        · rcases i y hy l hl with h | h
          · exact .inl h
          · simp at h
    | brk =>
      simp only [dirStep, Option.some.injEq, Prod.mk.injEq] at h1
      obtain ⟨rfl, rfl⟩ := h1
      rcases hy with hy | hy
      · simp only [List.mem_cons, List.not_mem_nil, or_false] at hy; rw [hl] at hy; cases hy
      · exact i y hy l hl
    | brkIf p =>
      simp only [dirStep, Option.some.injEq, Prod.mk.injEq] at h1
      obtain ⟨rfl, rfl⟩ := h1
      rcases hy with hy | hy
      · simp only [List.mem_cons, List.not_mem_nil, or_false] at hy; rw [hl] at hy; cases hy
      · exact i y hy l hl
    | stm f =>
      simp only [dirStep, Option.some.injEq, Prod.mk.injEq] at h1
      obtain ⟨rfl, rfl⟩ := h1
      rcases hy with hy | hy
      · simp only [List.mem_cons, List.not_mem_nil, or_false] at hy; rw [hl] at hy; cases hy
      · exact i y hy l hl
where
  dflt_keeps (ds : List (Dir σ)) (d d' : DSt) (b : List (Line σ)) (h : dirs m d ds = some (d', b)) (hd : d.dflt = true) :
      d'.dflt = true := by
    induction ds generalizing d b with
    | nil => simp only [dirs, Option.some.injEq, Prod.mk.injEq] at h; rw [← h.1]; exact hd
    | cons x xs ih =>
      obtain ⟨d1, l1, l2, h1, h2, rfl⟩ := dirs_cons h
      refine ih d1 l2 h2 ?_
      cases x with
      | case vs =>
        simp only [dirStep] at h1
        split at h1
        · simp at h1
        · simp only [Option.map_eq_some_iff, Prod.mk.injEq] at h1
          obtain ⟨cs, hcs, rfl, rfl⟩ := h1
          exact hd
      | dflt => simp [dirStep, hd] at h1
      | _ =>
        simp only [dirStep, Option.some.injEq, Prod.mk.injEq] at h1
        obtain ⟨rfl, rfl⟩ := h1
        exact hd

/-- `.DEFAULT` is where the label is -/
theorem dirs_dflt (ds : List (Dir σ)) (d d' : DSt) (b : List (Line σ)) (h : dirs m d ds = some (d', b))
    (hd : d.dflt = false) :
    (d'.dflt = false ∧ seekDflt ds = none) ∨
    (d'.dflt = true ∧ ∃ r d1 p b1, seekDflt ds = some r ∧ dirs m d1 r = some (d', b1) ∧ b = p ++ .lab .dflt :: b1 ∧
      NoLab .dflt p) := by
  induction ds generalizing d b with
  | nil =>
    simp only [dirs, Option.some.injEq, Prod.mk.injEq] at h; rw [← h.1]; exact .inl ⟨hd, rfl⟩
  | cons x xs ih =>
    obtain ⟨d1, l1, l2, h1, h2, rfl⟩ := dirs_cons h
    have go : d1.dflt = false → NoLab .dflt l1 → seekDflt (x :: xs) = seekDflt xs →
        (d'.dflt = false ∧ seekDflt (x :: xs) = none) ∨
        (d'.dflt = true ∧ ∃ r d1 p b1, seekDflt (x :: xs) = some r ∧ dirs m d1 r = some (d', b1) ∧ l1 ++ l2 = p ++ .lab .dflt :: b1 ∧
          NoLab .dflt p) := by
      intro a1 a2 a3
      rw [a3]
      rcases ih d1 l2 h2 a1 with ⟨e1, e2⟩ | ⟨e1, r, d2, p, b1, e2, e3, e4, e5⟩
      · exact .inl ⟨e1, e2⟩
      · refine .inr ⟨e1, r, d2, l1 ++ p, b1, e2, e3, by rw [e4]; simp, ?_⟩
        intro y hy
        rw [List.mem_append] at hy
        rcases hy with hy | hy
        · exact a2 y hy
        · exact e5 y hy
    cases x with
    | case vs =>
      simp only [dirStep] at h1
      split at h1
      · simp at h1
      · simp only [Option.map_eq_some_iff, Prod.mk.injEq] at h1
        obtain ⟨cs, hcs, rfl, rfl⟩ := h1
        refine go hd ?_ rfl
        intro y hy
        split at hy
        · simp only [List.mem_cons, List.not_mem_nil, or_false] at hy; rw [hy]; simp
        · simp at hy
    | dflt =>
      simp only [dirStep, hd, Bool.false_eq_true, ↓reduceIte, Option.some.injEq, Prod.mk.injEq] at h1
      obtain ⟨rfl, rfl⟩ := h1
      exact .inr ⟨dirs_labs.dflt_keeps xs _ _ _ h2 rfl, xs, _, [], l2, rfl, h2, rfl, by intro y hy; simp at hy⟩
    | brk =>
      simp only [dirStep, Option.some.injEq, Prod.mk.injEq] at h1
      obtain ⟨rfl, rfl⟩ := h1
      exact go hd (by intro y hy; simp at hy; rw [hy]; simp) rfl
    | brkIf p =>
      simp only [dirStep, Option.some.injEq, Prod.mk.injEq] at h1
      obtain ⟨rfl, rfl⟩ := h1
      exact go hd (by intro y hy; simp at hy; rw [hy]; simp) rfl
    | stm f =>
      simp only [dirStep, Option.some.injEq, Prod.mk.injEq] at h1
      obtain ⟨rfl, rfl⟩ := h1
      exact go hd (by intro y hy; simp at hy; rw [hy]; simp) rfl

/-- a value's label is in front of the statements of its `.CASE` -/
def Lands (m : Mode) (prog post : List (Line σ)) (d' : DSt) (l : Nat) (r : List (Dir σ)) : Prop :=
  ∃ labs b1 d1, after (.case l) prog = some (labs ++ b1 ++ post) ∧ OnlyLabs labs ∧ dirs m d1 r = some (d', b1)

theorem dirs_hit (post : List (Line σ)) (v : BitVec 64) (ds : List (Dir σ)) (d d' : DSt) (b : List (Line σ)) (h : dirs m d ds = some (d', b))
    (stm : Bool) (hsep : sepFrom stm d.brk ds = true) (hcnt : d.cnt + ds.length < 65536)
    (P : List (Line σ)) (hprog : prog = P ++ b ++ post) (hP : ∀ n, d.cnt < n → NoLab (.case n) P)
    (hsv : d.brk = false → d.savedlab ≠ 0 ∧ (∃ r, after (.case d.savedlab) prog = some r) ∧
      (stm = false → ∃ labs, OnlyLabs labs ∧ after (.case d.savedlab) prog = some (labs ++ b ++ post))) :
    (∀ c ∈ d'.cases, c ∈ d.cases ∨ (c.2 ≠ 0 ∧ ∃ r, after (.case c.2) prog = some r)) ∧
    (∀ r, seekCase m v ds = some r → ∃ l, (sgn (opW m) v, l) ∈ d'.cases ∧ Lands m prog post d' l r) ∧
    (seekCase m v ds = none → ∀ c ∈ d'.cases, c ∈ d.cases ∨ c.1 ≠ sgn (opW m) v) ∧
    (∀ c ∈ d.cases, c ∈ d'.cases) := by
  induction ds generalizing d b P stm with
  | nil =>
    simp only [dirs, Option.some.injEq, Prod.mk.injEq] at h
    rw [← h.1]
    exact ⟨fun c hc => .inl hc, by simp [seekCase], fun _ c hc => .inl hc, fun c hc => hc⟩
  | cons x xs ih =>
    obtain ⟨d1, l1, l2, h1, h2, rfl⟩ := dirs_cons h
    simp only [List.length_cons] at hcnt
    have hprog' : prog = (P ++ l1) ++ l2 ++ post := by rw [hprog]; simp
    cases x with
    | case vs =>
      simp only [dirStep] at h1
      split at h1
      · simp at h1
      · simp only [Option.map_eq_some_iff, Prod.mk.injEq] at h1
        obtain ⟨cs, hcs, rfl, rfl⟩ := h1
        obtain ⟨a1, a2⟩ := addCases_spec _ _ _ _ hcs
        simp only [sepFrom, Bool.and_eq_true, Bool.or_eq_true, Bool.not_eq_true'] at hsep
        -- the label of this case
        have hland : ∃ lab labs, lab = (if d.brk then (d.cnt + 1) % 65536 else d.savedlab) ∧ lab ≠ 0 ∧
            OnlyLabs labs ∧ after (.case lab) prog = some (labs ++ l2 ++ post) := by
          by_cases hb : d.brk = true
          · refine ⟨d.cnt + 1, [], by rw [if_pos hb]; omega, by omega, by intro y hy; simp at hy, ?_⟩
            rw [hprog, if_pos hb]
            rw [show P ++ ([Line.lab (Lbl.case (d.cnt + 1))] ++ l2) ++ post =
              P ++ .lab (.case (d.cnt + 1)) :: (l2 ++ post) from by simp]
            rw [after_hit _ _ _ (hP _ (by omega))]; simp
          · have hb : d.brk = false := by simpa using hb
            have hst : stm = false := by
              rcases hsep.1 with h | h
              · exact h
              · rw [hb] at h; cases h
            obtain ⟨s1, _, s3⟩ := hsv hb
            obtain ⟨labs, o1, o2⟩ := s3 hst
            refine ⟨d.savedlab, labs, by rw [if_neg (by simp [hb])], s1, o1, ?_⟩
            rw [o2]; simp [hb]
        obtain ⟨lab, labs, hlab, hlab0, hol, haft⟩ := hland
        rw [← hlab] at h2 a1
        have hi := ih _ l2 h2 false (by simpa using hsep.2) (by simp only; split <;> omega) (P ++ _) hprog'
          (by
            intro n hn
            simp only at hn
            intro y hy
            rw [List.mem_append] at hy
            rcases hy with hy | hy
            · exact hP n (by split at hn <;> omega) y hy
            · split at hy
              · rename_i hb
                rw [if_pos hb] at hn
                simp only [List.mem_cons, List.not_mem_nil, or_false] at hy
                rw [hy]; intro e; cases e; omega
              · simp at hy)
          (fun _ => ⟨hlab0, ⟨_, haft⟩, fun _ => ⟨labs, hol, haft⟩⟩)
        obtain ⟨i1, i2, i3, i4⟩ := hi
        simp only at i1 i2 i3 i4
        have hmem : ∀ c ∈ cs, c ∈ d.cases ∨ ∃ w ∈ vs, c = (caseVal m w, lab) := by
          intro c hc
          rw [a1, List.mem_append] at hc
          rcases hc with hc | hc
          · exact .inl hc
          · simp only [List.mem_map] at hc
            obtain ⟨w, hw, rfl⟩ := hc
            exact .inr ⟨w, hw, rfl⟩
        refine ⟨?_, ?_, ?_, ?_⟩
        · intro c hc
          rcases i1 c hc with hc | hc
          · rcases hmem c hc with hc | ⟨w, hw, rfl⟩
            · exact .inl hc
            · exact .inr ⟨hlab0, _, haft⟩
          · exact .inr hc
        · intro r hr
          simp only [seekCase] at hr
          split at hr
          · rename_i hany
            simp only [Option.some.injEq] at hr; subst hr
            simp only [List.any_eq_true] at hany
            obtain ⟨w, hw, hs⟩ := hany
            rw [same_iff] at hs
            refine ⟨lab, ?_, labs, l2, _, haft, hol, h2⟩
            apply i4
            rw [a1, ← hs, List.mem_append]
            exact .inr (List.mem_map.mpr ⟨w, hw, rfl⟩)
          · exact i2 r hr
        · intro hr c hc
          simp only [seekCase] at hr
          split at hr
          · simp at hr
          · rename_i hany
            rcases i3 hr c hc with hc | hc
            · rcases hmem c hc with hc | ⟨w, hw, rfl⟩
              · exact .inl hc
              · refine .inr fun e => hany ?_
                rw [List.any_eq_true]
                exact ⟨w, hw, (same_iff v w).mpr e⟩
            · exact .inr hc
        · intro c hc
          apply i4
          rw [a1, List.mem_append]; exact .inl hc
    | dflt =>
      simp only [dirStep] at h1
      split at h1
      · simp at h1
      · simp only [Option.some.injEq, Prod.mk.injEq] at h1
        obtain ⟨rfl, rfl⟩ := h1
        refine ih { d with dflt := true } l2 h2 stm hsep (by show d.cnt + _ < _; omega) _ hprog' ?_ ?_
        · intro n hn y hy
          rw [List.mem_append] at hy
          rcases hy with hy | hy
          · exact hP n hn y hy
          · simp at hy; rw [hy]; simp
        · intro hb
          obtain ⟨s1, s2, s3⟩ := hsv hb
          refine ⟨s1, s2, fun hst => ?_⟩
          obtain ⟨labs, o1, o2⟩ := s3 hst
          refine ⟨labs ++ [.lab .dflt], ?_, by show after (.case d.savedlab) prog = _; rw [o2]; simp⟩
          intro y hy
          rw [List.mem_append] at hy
          rcases hy with hy | hy
          · exact o1 y hy
          · simp at hy; exact ⟨_, hy⟩
    | brk =>
      simp only [dirStep, Option.some.injEq, Prod.mk.injEq] at h1
      obtain ⟨rfl, rfl⟩ := h1
      refine ih { d with brk := true } l2 h2 stm hsep (by show d.cnt + _ < _; omega) _ hprog' ?_ (by simp)
      intro n hn y hy
      rw [List.mem_append] at hy
      rcases hy with hy | hy
      · exact hP n hn y hy
      · simp at hy; rw [hy]; simp
    | brkIf p =>
      simp only [dirStep, Option.some.injEq, Prod.mk.injEq] at h1
      obtain ⟨rfl, rfl⟩ := h1
      refine ih { d with brk := true } l2 h2 stm hsep (by show d.cnt + _ < _; omega) _ hprog' ?_ (by simp)
      intro n hn y hy
      rw [List.mem_append] at hy
      rcases hy with hy | hy
      · exact hP n hn y hy
      · simp at hy; rw [hy]; simp
    | stm f =>
      simp only [dirStep, Option.some.injEq, Prod.mk.injEq] at h1
      obtain ⟨rfl, rfl⟩ := h1
      refine ih _ l2 h2 true hsep (by omega) _ hprog' ?_ ?_
      · intro n hn y hy
        rw [List.mem_append] at hy
        rcases hy with hy | hy
        · exact hP n hn y hy
        · simp at hy; rw [hy]; simp
      · intro hb
        obtain ⟨s1, s2, s3⟩ := hsv hb
        exact ⟨s1, s2, by simp⟩

theorem ends_tail (x : Dir σ) (r : List (Dir σ)) (hr : r ≠ []) (h : EndsWithBreak (x :: r)) : EndsWithBreak r := by
  obtain ⟨p, hp⟩ := h
  cases p with
  | nil => simp at hp; exact absurd hp.2 hr
  | cons y ys => simp at hp; exact ⟨ys, hp.2⟩

/-- execution of the statements -/
theorem body_run (rex : List (Line σ)) (hex : after .exit prog = some rex) (r : List (Dir σ)) (hend : EndsWithBreak r)
    (d d' : DSt) (b tail : List (Line σ)) (h : dirs m d r = some (d', b)) (s : St σ) :
    Reach env m prog (b ++ tail, s)
      (rex, { s with r := (run r (s.r, s.u)).1, u := (run r (s.r, s.u)).2 }) := by
  induction r generalizing d b s with
  | nil => obtain ⟨p, hp⟩ := hend; simp at hp
  | cons x xs ih =>
    obtain ⟨d1, l1, l2, h1, h2, rfl⟩ := dirs_cons h
    by_cases hx : xs = []
    · have hxb : x = .brk := by
        obtain ⟨p, hp⟩ := hend
        subst hx
        cases p with
        | nil => simp at hp; exact hp
        | cons y ys => simp at hp
      subst hxb
      simp only [dirStep, Option.some.injEq, Prod.mk.injEq] at h1
      obtain ⟨rfl, rfl⟩ := h1
      exact Reach.one (step_jmp hex)
    · have he := ends_tail x xs hx hend
      cases x with
      | case vs =>
        simp only [dirStep] at h1
        split at h1
        · simp at h1
        · simp only [Option.map_eq_some_iff, Prod.mk.injEq] at h1
          obtain ⟨cs, hcs, rfl, rfl⟩ := h1
          have := ih he _ l2 h2 s
          split
          · exact Reach.head rfl this
          · exact this
      | dflt =>
        simp only [dirStep] at h1
        split at h1
        · simp at h1
        · simp only [Option.some.injEq, Prod.mk.injEq] at h1
          obtain ⟨rfl, rfl⟩ := h1
          exact Reach.head rfl (ih he _ l2 h2 s)
      | brk =>
        simp only [dirStep, Option.some.injEq, Prod.mk.injEq] at h1
        obtain ⟨rfl, rfl⟩ := h1
        exact Reach.one (step_jmp hex)
      | brkIf p =>
        simp only [dirStep, Option.some.injEq, Prod.mk.injEq] at h1
        obtain ⟨rfl, rfl⟩ := h1
        by_cases hp : p (s.r, s.u) = true
        · simp only [run, hp, ↓reduceIte]
          exact Reach.one (by simp [step, hp, hex])
        · simp only [run, hp]
          exact Reach.head (by simp [step, hp]) (ih he _ l2 h2 s)
      | stm f =>
        simp only [dirStep, Option.some.injEq, Prod.mk.injEq] at h1
        obtain ⟨rfl, rfl⟩ := h1
        exact Reach.head rfl (ih he _ l2 h2 { s with r := (f (s.r, s.u)).1, u := (f (s.r, s.u)).2 })

end Verif.Switch
