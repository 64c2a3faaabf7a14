import Verif.Hll.Gen
/-! The loops over && and ||. -/
namespace Verif.Hll

/-- `g` is evaluated if `f` is `m`. -/
def comb (m : Bool) (f g : Sem) : Sem := fun σ => if (f σ).1 = m then g (f σ).2 else f σ
/-- `g` is evaluated if `f` is not `m`. -/
def comb' (m : Bool) (f g : Sem) : Sem := fun σ => if (f σ).1 = m then f σ else g (f σ).2

theorem comb_assoc (m : Bool) (f g h : Sem) : comb m (comb m f g) h = comb m f (comb m g h) := by
  funext σ
  unfold comb
  by_cases h1 : (f σ).1 = m
  · simp only [if_pos h1]
  · simp only [if_neg h1]

theorem comb'_assoc (m : Bool) (f g h : Sem) : comb' m (comb' m f g) h = comb' m f (comb' m g h) := by
  funext σ
  unfold comb'
  by_cases h1 : (f σ).1 = m
  · simp only [if_pos h1]
  · simp only [if_neg h1]

section
variable {α : Type} (env : Env α)

theorem and_eval_t (s : Simple α) (r : AndE α) : (AndE.cons s r).eval env = comb true (s.eval env) (r.eval env) := by
  funext σ
  simp only [AndE.eval, comb]
  split
  · rfl
  · next h => ext <;> simp_all
theorem and_eval_f (s : Simple α) (r : AndE α) : (AndE.cons s r).eval env = comb' false (s.eval env) (r.eval env) := by
  funext σ
  simp only [AndE.eval, comb']
  cases h : (s.eval env σ).1 with
  | true => simp
  | false => simp; rw [← h]
theorem or_eval_f (s : AndE α) (r : OrE α) : (OrE.cons s r).eval env = comb false (s.eval env) (r.eval env) := by
  funext σ
  simp only [OrE.eval, comb]
  cases h : (s.eval env σ).1 with
  | true => simp; rw [← h]
  | false => simp
theorem or_eval_t (s : AndE α) (r : OrE α) : (OrE.cons s r).eval env = comb' true (s.eval env) (r.eval env) := by
  funext σ
  simp only [OrE.eval, comb']
  cases h : (s.eval env σ).1 with
  | true => simp; rw [← h]
  | false => simp

/-! ### Concatenation without edit -/

theorem cat_lj {L : Nat} {m : Bool} {f g : Sem} {S' pre J : List (Line α)} {c : Flags → Bool} {T : Nat}
    (hf : Inv env S' L m [] f) (hg : LJ env pre J c L m [] g T) (hd : ∀ x ∈ pre, dfn x ≠ some L) :
    LJ env (S' ++ pre) J c L m [] (comb' m f g) T where
  last := hg.last
  sem := fun σ => by
    obtain ⟨r, hr, h⟩ := hf σ
    rw [ex_append, hr]
    by_cases hm : (f σ).1 = m
    · rw [if_pos hm] at h
      subst h
      have : comb' m f g σ = f σ := by simp [comb', hm]
      rw [this]
      refine ⟨some L, ex_skip env _ _ _ hd, by simp, ?_⟩
      intro l hl
      rw [if_pos hm]; simpa using hl.symm
    · rw [if_neg hm] at h
      have : comb' m f g σ = g (f σ).2 := by simp [comb', hm]
      rw [this]
      simp only [List.not_mem_nil, false_and, exists_false, or_false] at h
      rw [h]
      exact hg.sem _

theorem cat_inv {L : Nat} {m : Bool} {f g : Sem} {S' D : List (Line α)}
    (hf : Inv env S' L m [] f) (hg : Inv env D L m [] g) (hd : ∀ x ∈ D, dfn x ≠ some L) :
    Inv env (S' ++ D) L m [] (comb' m f g) := fun σ => by
  obtain ⟨r, hr, h⟩ := hf σ
  rw [ex_append, hr]
  by_cases hm : (f σ).1 = m
  · rw [if_pos hm] at h
    subst h
    have : comb' m f g σ = f σ := by simp [comb', hm]
    rw [this]
    exact ⟨some L, ex_skip env _ _ _ hd, by rw [if_pos hm]⟩
  · rw [if_neg hm] at h
    have : comb' m f g σ = g (f σ).2 := by simp [comb', hm]
    rw [this]
    simp only [List.not_mem_nil, false_and, exists_false, or_false] at h
    rw [h]
    exact hg _

theorem cat_tail {L : Nat} {m : Bool} {f g : Sem} {S' D : List (Line α)} {base : Nat} {lj : Option Nat} {T : Nat} {t : Tail}
    (hf : Inv env S' L m [] f) (hg : TailOk env L m [] g D (base + S'.length) lj T t) (hd : ∀ x ∈ D, dfn x ≠ some L) :
    TailOk env L m [] (comb' m f g) (S' ++ D) base lj T t := by
  have key : ∀ e, Live env L m [] g D (base + S'.length) lj T e → Live env L m [] (comb' m f g) (S' ++ D) base lj T e := by
    rintro e ⟨pre, J, c, rfl, hlj, h, h1, h2⟩
    refine ⟨S' ++ pre, J, c, by simp, by rw [hlj]; simp [Nat.add_assoc], cat_lj env hf h ?_, h1, h2⟩
    intro x hx; exact hd x (by simp [hx])
  cases t with
  | none => exact hg
  | jump => exact key _ hg
  | empty => exact key _ hg
  | dead => trivial

/-! ### Concatenation behind an edited piece -/

theorem fix_lj {L t : Nat} {m : Bool} {f g : Sem} {S' pre J : List (Line α)} {c : Flags → Bool} {T : Nat}
    (hf : Cont env S' m t f) (hg : LJ env pre J c L m [] g T) (hd : ∀ x ∈ pre, dfn x ≠ some t) :
    LJ env (S' ++ pre) J c L m [t] (comb m f g) T where
  last := hg.last
  sem := fun σ => by
    rw [ex_append, hf σ]
    by_cases hm : (f σ).1 = m
    · rw [if_pos hm]
      have : comb m f g σ = g (f σ).2 := by simp [comb, hm]
      rw [this]
      obtain ⟨r, hr, h1, h2⟩ := hg.sem (f σ).2
      refine ⟨r, hr, h1, fun l hl => ?_⟩
      have := h2 l hl
      split
      · next h => rw [if_pos h] at this; exact this
      · next h => rw [if_neg h] at this; simpa using .inl (this.resolve_right (by simp))
    · rw [if_neg hm]
      have : comb m f g σ = f σ := by simp [comb, hm]
      rw [this]
      refine ⟨some t, ex_skip env _ _ _ hd, by simp, ?_⟩
      intro l hl
      rw [if_neg hm]; right; simpa using hl.symm

theorem fix_inv {L t : Nat} {m : Bool} {f g : Sem} {S' D : List (Line α)}
    (hf : Cont env S' m t f) (hg : Inv env D L m [] g) (hd : ∀ x ∈ D, dfn x ≠ some t) :
    Inv env (S' ++ D) L m [t] (comb m f g) := fun σ => by
  rw [ex_append, hf σ]
  by_cases hm : (f σ).1 = m
  · rw [if_pos hm]
    have : comb m f g σ = g (f σ).2 := by simp [comb, hm]
    rw [this]
    obtain ⟨r, hr, h⟩ := hg (f σ).2
    refine ⟨r, hr, ?_⟩
    split
    · next h' => rw [if_pos h'] at h; exact h
    · next h' => rw [if_neg h'] at h; exact .inl (h.resolve_right (by simp))
  · rw [if_neg hm]
    have : comb m f g σ = f σ := by simp [comb, hm]
    rw [this]
    exact ⟨some t, ex_skip env _ _ _ hd, by rw [if_neg hm]; exact .inr ⟨t, by simp, rfl⟩⟩

theorem fix_tail {L t : Nat} {m : Bool} {f g : Sem} {S' D : List (Line α)} {base : Nat} {lj : Option Nat} {T : Nat} {tl : Tail}
    (hf : Cont env S' m t f) (hg : TailOk env L m [] g D (base + S'.length) lj T tl) (hd : ∀ x ∈ D, dfn x ≠ some t) :
    TailOk env L m [t] (comb m f g) (S' ++ D) base lj T tl := by
  have key : ∀ e, Live env L m [] g D (base + S'.length) lj T e → Live env L m [t] (comb m f g) (S' ++ D) base lj T e := by
    rintro e ⟨pre, J, c, rfl, hlj, h, h1, h2⟩
    refine ⟨S' ++ pre, J, c, by simp, by rw [hlj]; simp [Nat.add_assoc], fix_lj env hf h ?_, h1, h2⟩
    intro x hx; exact hd x (by simp [hx])
  cases tl with
  | none => exact hg
  | jump => exact key _ hg
  | empty => exact key _ hg
  | dead => trivial

/-- The label at the end. -/
theorem end_inv {L t : Nat} {m : Bool} {f : Sem} {S' : List (Line α)} (hf : Inv env S' L m [t] f) (hLt : L ≠ t) :
    Inv env (S' ++ [.label t]) L m [] f := fun σ => by
  obtain ⟨r, hr, h⟩ := hf σ
  rw [ex_append, hr]
  by_cases hm : (f σ).1 = m
  · rw [if_pos hm] at h
    subst h
    refine ⟨some L, ?_, by rw [if_pos hm]⟩
    simp only [ex_cons, ex_nil, lineEx]; rw [if_neg hLt]
  · rw [if_neg hm] at h
    refine ⟨none, ?_, by rw [if_neg hm]; exact .inl rfl⟩
    rcases h with rfl | ⟨x, hx, rfl⟩
    · rfl
    · have : x = t := by simpa using hx
      simp [lineEx, this]

/-! ### The edits of the model -/

theorem retarget_eq {L : Nat} (B pre J : List (Line α)) {c : Flags → Bool} (T t : Nat) (hl : Last L J c)
    (he : J = [] → T = 0) :
    retarget (B ++ (pre ++ J ++ postOf T)) (B.length + pre.length) t = B ++ (pre ++ invLine J t) := by
  have htake : (B ++ (pre ++ J ++ postOf T)).take (B.length + pre.length) = B ++ pre := by
    have : B ++ (pre ++ J ++ postOf T) = (B ++ pre) ++ (J ++ postOf T) := by simp
    rw [this, ← List.length_append, List.take_left]
  have hget : (B ++ (pre ++ J ++ postOf T))[B.length + pre.length]? = (J ++ postOf T)[0]? := by
    have : B ++ (pre ++ J ++ postOf T) = (B ++ pre) ++ (J ++ postOf T) := by simp
    rw [this, ← List.length_append, List.getElem?_append_right (by simp)]; simp
  unfold retarget
  rw [hget, htake]
  cases hl with
  | jump hc hi =>
    simp only [List.cons_append, List.getElem?_cons_zero, invLine]
    rcases hi with ⟨mn', hi, _⟩ | ⟨hi, _⟩
    · simp only [hi]; simp
    · simp only [hi]; simp
  | empty =>
    have := he rfl
    subst this
    simp [postOf, invLine]

theorem replaceLabel_eq (B R : List (Line α)) (o n : Nat) :
    replaceLabel (B ++ R) B.length o n = B ++ R.map (replLine o n) := by
  simp [replaceLabel]

theorem repl_notment {x : Line α} {o n : Nat} (h : ment x ≠ some o) : replLine o n x = x := by
  cases x <;> simp_all [ment, replLine]

/-- Replacing from a later position. -/
theorem replaceLabel_from (B R1 R2 : List (Line α)) (o n : Nat) (h : ∀ x ∈ R1, ment x ≠ some o) :
    replaceLabel (B ++ (R1 ++ R2)) (B.length + R1.length) o n = B ++ (R1 ++ R2).map (replLine o n) := by
  have e : B ++ (R1 ++ R2) = (B ++ R1) ++ R2 := by simp
  rw [e, ← List.length_append, replaceLabel_eq, List.map_append]
  have : R1.map (replLine o n) = R1 := by
    exact (List.map_congr_left (g := id) (fun x hx => repl_notment (h x hx))).trans (List.map_id _)
  rw [this]; simp

/-- State of a loop that edits. -/
structure LoopSt (L : Nat) (m : Bool) (lo : Nat) (B : List (Line α)) (st : St α) (tl : Nat) (f : Sem)
    (S' : List (Line α)) (t : Tail) : Prop where
  buf : st.buf = B ++ S'
  cnt : lo ≤ st.cnt
  seg : Seg S' lo st.cnt L
  inv : Inv env S' L m (if tl = 0 then [] else [tl]) f
  tlOk : tl ≠ 0 → lo < tl ∧ tl ≤ st.cnt ∧ ∀ x ∈ S', dfn x ≠ some tl
  tail : TailOk env L m (if tl = 0 then [] else [tl]) f S' B.length st.lastjmp st.lasttrue t

/-- State after an edit. -/
structure FixSt (m : Bool) (L lo : Nat) (B : List (Line α)) (st : St α) (t : Nat) (f : Sem) (S' : List (Line α)) :
    Prop where
  buf : st.buf = B ++ S'
  cnt : lo ≤ st.cnt
  seg : Seg S' lo st.cnt L
  cont : Cont env S' m t f
  t0 : lo < t ∧ t ≤ st.cnt ∧ ∀ x ∈ S', dfn x ≠ some t

theorem fixed_eq (B pre J : List (Line α)) (L T t n : Nat) :
    replaceLabel (B ++ ((pre ++ invLine J t).map (fun x => if T = 0 then x else replLine T t x)) ++ [.label L]) B.length L n
      = B ++ fixed pre J L T t n := by
  rw [List.append_assoc, replaceLabel_eq, List.map_append, List.map_map]
  simp only [fixed, List.map_cons, List.map_nil, replLine, if_true]
  rfl

theorem fixed_eq_rep (B pre J : List (Line α)) (L T t n : Nat) :
    replaceLabel (B ++ ((pre ++ invLine J t).map (fun x => if T = 0 then x else replLine T t x))) B.length L n ++ [.label n]
      = B ++ fixed pre J L T t n := by
  rw [replaceLabel_eq, List.map_map]
  simp only [fixed, List.append_assoc]
  rfl

theorem fix_state (cfg : Cfg) (m : Bool) (lo : Nat) (B : List (Line α)) (st : St α) (tl : Nat) (f : Sem)
    (S' : List (Line α)) (t : Tail) (h : LoopSt env cfg.lbl m lo B st tl f S' t) (hlive : t.live = true)
    (hL : cfg.lbl ≤ lo) :
    ∃ pre J T, S' = pre ++ J ++ postOf T ∧ st.lastjmp = some (B.length + pre.length) ∧ st.lasttrue = T ∧ (J = [] → T = 0) ∧
      (∃ c, Last cfg.lbl J c) ∧ (T ≠ 0 → lo < T) ∧
      ∀ t1 hi1, (if tl = 0 then (st.cnt + 1, st.cnt + 1) else (tl, st.cnt)) = (t1, hi1) →
      ∀ lt, FixSt env m cfg.lbl lo B ⟨B ++ fixed pre J cfg.lbl T t1 (hi1 + 1), hi1 + 1, none, lt⟩ t1 f
        (fixed pre J cfg.lbl T t1 (hi1 + 1)) := by
  obtain ⟨e, pre, J, c, hS, hlj, hLJ, h1, h2⟩ := h.tail.live env hlive
  refine ⟨pre, J, st.lasttrue, hS, hlj, rfl, ?_, ⟨c, hLJ.last⟩, ?_, ?_⟩
  · intro hJ
    cases e with
    | true => exact (h1 rfl).2
    | false => exact (h2 rfl hJ).elim
  · intro hT
    have := h.seg.dfn (.label st.lasttrue) (by rw [hS]; simp [postOf, hT]) _ rfl
    exact this.1
  · intro t1 hi1 he lt
    have hcnt := h.cnt
    have hseg := h.seg
    rw [hS] at hseg
    have key : hi1 ≥ st.cnt ∧ lo < t1 ∧ t1 ≤ hi1 ∧ (∀ x ∈ (if tl = 0 then [] else [tl]), x = t1) ∧
        (∀ x ∈ pre ++ J ++ postOf st.lasttrue, dfn x ≠ some t1) := by
      by_cases h0 : tl = 0
      · rw [if_pos h0] at he
        obtain ⟨rfl, rfl⟩ := Prod.mk.inj he
        refine ⟨by omega, by omega, by omega, by simp [h0], ?_⟩
        intro x hx hd
        have := hseg.dfn x hx _ hd; omega
      · rw [if_neg h0] at he
        obtain ⟨rfl, rfl⟩ := Prod.mk.inj he
        obtain ⟨h3, h4, h5⟩ := h.tlOk h0
        rw [hS] at h5
        exact ⟨by omega, h3, h4, by simp [h0], h5⟩
    obtain ⟨k1, k2, k3, k4, k5⟩ := key
    obtain ⟨r1, r2, r3⟩ := fix_ok env hLJ hseg hL k1 ⟨k2, k3⟩ k4 k5
    exact ⟨rfl, by show lo ≤ hi1 + 1; omega, r1, r2, k2, by show t1 ≤ hi1 + 1; omega, r3⟩

theorem andFix_ok (cfg : Cfg) (m : Bool) (lo : Nat) (B : List (Line α)) (st : St α) (tl : Nat) (f : Sem)
    (S' : List (Line α)) (t : Tail) (h : LoopSt env cfg.lbl m lo B st tl f S' t) (hlive : t.live = true)
    (hL : cfg.lbl ≤ lo) :
    ∃ t1 st1 S1, andFix cfg B.length tl st = (t1, st1) ∧ st.cnt ≤ st1.cnt ∧ FixSt env m cfg.lbl lo B st1 t1 f S1 := by
  obtain ⟨pre, J, T, hS, hlj, hlt, hJT, ⟨c, hlast⟩, hT, hk⟩ := fix_state env cfg m lo B st tl f S' t h hlive hL
  obtain ⟨t1, hi1, he⟩ : ∃ t1 hi1, (if tl = 0 then (st.cnt + 1, st.cnt + 1) else (tl, st.cnt)) = (t1, hi1) := ⟨_, _, rfl⟩
  refine ⟨t1, ⟨B ++ fixed pre J cfg.lbl T t1 (hi1 + 1), hi1 + 1, none, st.lasttrue⟩, _, ?_, ?_, hk t1 hi1 he st.lasttrue⟩
  · unfold andFix
    simp only [hlj, he]
    rw [h.buf, hS, retarget_eq B pre J T t1 hlast hJT, hlt]
    have : (if T ≠ 0 then replaceLabel (B ++ (pre ++ invLine J t1)) B.length T t1 else B ++ (pre ++ invLine J t1)) =
        B ++ ((pre ++ invLine J t1).map (fun x => if T = 0 then x else replLine T t1 x)) := by
      by_cases h0 : T = 0
      · simp [h0]
      · simp only [h0, ne_eq, not_false_eq_true, if_true, if_false]; rw [replaceLabel_eq]
    rw [this, fixed_eq]
  · show st.cnt ≤ hi1 + 1
    split at he <;> (obtain ⟨rfl, rfl⟩ := Prod.mk.inj he; omega)

theorem orFix_ok (cfg : Cfg) (m : Bool) (lo : Nat) (B : List (Line α)) (st : St α) (tl : Nat) (f : Sem)
    (S' S0 D : List (Line α)) (t : Tail) (h : LoopSt env cfg.lbl m lo B st tl f S' t) (hlive : t.live = true)
    (hL : cfg.lbl ≤ lo) (hSD : S' = S0 ++ D)
    (hS0 : ∀ x ∈ S0, st.lasttrue ≠ 0 → ment x ≠ some st.lasttrue)
    (hpre : ∀ k, st.lastjmp = some (B.length + k) → S0.length ≤ k) :
    ∃ t1 st1 S1, orFix cfg B.length (B.length + S0.length) tl st = (t1, st1) ∧ st.cnt ≤ st1.cnt ∧
      FixSt env m cfg.lbl lo B st1 t1 f S1 := by
  obtain ⟨pre, J, T, hS, hlj, hlt, hJT, ⟨c, hlast⟩, hT, hk⟩ := fix_state env cfg m lo B st tl f S' t h hlive hL
  obtain ⟨t1, hi1, he⟩ : ∃ t1 hi1, (if tl = 0 then (st.cnt + 1, st.cnt + 1) else (tl, st.cnt)) = (t1, hi1) := ⟨_, _, rfl⟩
  refine ⟨t1, ⟨B ++ fixed pre J cfg.lbl T t1 (hi1 + 1), hi1 + 1, none, st.lasttrue⟩, _, ?_, ?_, hk t1 hi1 he st.lasttrue⟩
  · unfold orFix
    simp only [hlj, he]
    rw [h.buf, hS, retarget_eq B pre J T t1 hlast hJT, hlt]
    -- `pre` begins with `S0`
    have hp := hpre pre.length hlj
    obtain ⟨pre', hpre'⟩ : ∃ pre', pre = S0 ++ pre' := by
      have e : S0 ++ D = pre ++ (J ++ postOf T) := by rw [← hSD, hS]; simp
      refine ⟨pre.drop S0.length, ?_⟩
      have h1 : pre.take S0.length = S0 := by
        have := congrArg (List.take S0.length) e
        rw [List.take_left, List.take_append_of_le_length hp] at this
        exact this.symm
      have h2 := List.take_append_drop S0.length pre
      rw [h1] at h2; exact h2.symm
    have : (if T ≠ 0 then replaceLabel (B ++ (pre ++ invLine J t1)) (B.length + S0.length) T t1
          else B ++ (pre ++ invLine J t1)) =
        B ++ ((pre ++ invLine J t1).map (fun x => if T = 0 then x else replLine T t1 x)) := by
      by_cases h0 : T = 0
      · simp [h0]
      · simp only [h0, ne_eq, not_false_eq_true, if_true, if_false]
        rw [hpre', List.append_assoc, replaceLabel_from]
        intro x hx
        have := hS0 x hx
        rw [hlt] at this
        exact this h0
    rw [this]
    have e2 : (if cfg.isRepeat = true then
          replaceLabel (B ++ ((pre ++ invLine J t1).map (fun x => if T = 0 then x else replLine T t1 x))) B.length cfg.lbl
            (hi1 + 1) ++ [.label (hi1 + 1)]
        else replaceLabel (B ++ ((pre ++ invLine J t1).map (fun x => if T = 0 then x else replLine T t1 x)) ++
            [.label cfg.lbl]) B.length cfg.lbl (hi1 + 1)) = B ++ fixed pre J cfg.lbl T t1 (hi1 + 1) := by
      split
      · exact fixed_eq_rep B pre J cfg.lbl T t1 (hi1 + 1)
      · exact fixed_eq B pre J cfg.lbl T t1 (hi1 + 1)
    rw [e2]
  · show st.cnt ≤ hi1 + 1
    split at he <;> (obtain ⟨rfl, rfl⟩ := Prod.mk.inj he; omega)

/-- The next operand behind an edit. -/
theorem next_loop {L : Nat} {m : Bool} {lo : Nat} {B : List (Line α)} {st1 st2 : St α} {t1 : Nat} {f g : Sem}
    {S1 D : List (Line α)} {t : Tail} (h : FixSt env m L lo B st1 t1 f S1) (hg : Gen env L m g t (B ++ S1) st1.cnt st2 D)
    (hL : L ≤ lo) : LoopSt env L m lo B st2 t1 (comb m f g) (S1 ++ D) t := by
  have hc := h.cnt
  have hc2 := hg.cnt
  have ht := h.t0
  have hD : ∀ x ∈ D, dfn x ≠ some t1 := by
    intro x hx hd
    have := hg.seg.dfn x hx _ hd; omega
  have h0 : ¬ t1 = 0 := by omega
  refine ⟨?_, by omega, h.seg.append hg.seg hL h.cnt hg.cnt, ?_, ?_, ?_⟩
  · rw [hg.buf]; simp
  · rw [if_neg h0]; exact fix_inv env h.cont hg.inv hD
  · intro _
    refine ⟨ht.1, by omega, ?_⟩
    intro x hx
    rcases List.mem_append.1 hx with hx | hx
    · exact ht.2.2 x hx
    · exact hD x hx
  · rw [if_neg h0]
    exact fix_tail env h.cont (by have := hg.tail; rwa [List.length_append] at this) hD

theorem loop_of_gen {L : Nat} {m : Bool} {lo : Nat} {B : List (Line α)} {st : St α} {f : Sem}
    {D : List (Line α)} {t : Tail} (hg : Gen env L m f t B lo st D) : LoopSt env L m lo B st 0 f D t where
  buf := hg.buf
  cnt := hg.cnt
  seg := hg.seg
  inv := hg.inv
  tlOk := fun h => (h rfl).elim
  tail := hg.tail

/-- Concatenation without edit. -/
theorem next_cat {L : Nat} {m : Bool} {lo : Nat} {B : List (Line α)} {st1 st2 : St α} {f g : Sem}
    {S1 D : List (Line α)} {t t' : Tail} (h : Gen env L m f t B lo st1 S1) (hg : Gen env L m g t' (B ++ S1) st1.cnt st2 D)
    (hL : L ≤ lo) : Gen env L m (comb' m f g) t' B lo st2 (S1 ++ D) := by
  have hc := h.cnt
  have hc2 := hg.cnt
  have hD : ∀ x ∈ D, dfn x ≠ some L := by
    intro x hx hd
    have := hg.seg.dfn x hx _ hd; omega
  refine ⟨?_, by omega, h.seg.append hg.seg hL h.cnt hg.cnt, cat_inv env h.inv hg.inv hD, ?_⟩
  · rw [hg.buf]; simp
  · exact cat_tail env h.inv (by have := hg.tail; rwa [List.length_append] at this) hD

/-- The end of GetAndExpression after edits. -/
theorem andEnd_ok {L : Nat} {m : Bool} {lo : Nat} {B : List (Line α)} {st : St α} {tl : Nat} {f : Sem}
    {S' : List (Line α)} {t : Tail} (h : LoopSt env L m lo B st tl f S' t) (h0 : tl ≠ 0) (hL : L ≤ lo) :
    Gen env L m f .none B lo (andEnd tl st) (S' ++ [.label tl]) := by
  have ht := h.tlOk h0
  have e : andEnd tl st = { st with buf := st.buf ++ [.label tl], lastjmp := none } := by
    unfold andEnd; rw [if_pos (by omega)]
  have hinv := h.inv
  rw [if_neg h0] at hinv
  rw [e]
  exact ⟨by simp [h.buf], h.cnt, h.seg.snocLabel ⟨ht.1, ht.2.1⟩ ht.2.2, end_inv env hinv (by omega), rfl⟩

/-- A last jump survives the label at the end. -/
theorem end_lj {L t : Nat} {m : Bool} {f : Sem} {pre J : List (Line α)} {c : Flags → Bool}
    (h : LJ env pre J c L m [t] f 0) (ht : t ≠ 0) : LJ env pre J c L m [] f t where
  last := h.last
  sem := fun σ => by
    obtain ⟨r, hr, h1, h2⟩ := h.sem σ
    refine ⟨r, hr, h1, fun l hl => ?_⟩
    have := h2 l hl
    split
    · next hm => rw [if_pos hm] at this; exact this
    · next hm =>
      rw [if_neg hm] at this
      left
      rcases this with h | h
      · exact (h.2 rfl).elim
      · exact ⟨by simpa using h, ht⟩

/-- The end of GetExpression after edits. -/
theorem orEnd_ok {L : Nat} {m : Bool} {lo : Nat} {B : List (Line α)} {st : St α} {tl : Nat} {f : Sem}
    {S' S0 D : List (Line α)} {t : Tail} (h : LoopSt env L m lo B st tl f S' t) (h0 : tl ≠ 0) (hL : L ≤ lo) (hL0 : 0 < L)
    (hd : t ≠ .dead) (hSD : S' = S0 ++ D)
    (hS0 : t.live = true → ∀ x ∈ S0, st.lasttrue ≠ 0 → ment x ≠ some st.lasttrue)
    (hpre : t.live = true → ∀ k, st.lastjmp = some (B.length + k) → S0.length ≤ k) :
    ∃ st' D', orEnd (B.length + S0.length) tl st = .ok st' ∧ Gen env L m f t.orEnd B lo st' D' := by
  have ht := h.tlOk h0
  have hinv := h.inv
  rw [if_neg h0] at hinv
  have hpos : tl > 0 := by omega
  -- the simple case
  have simple : ∀ st', st' = { st with buf := st.buf ++ [.label tl], lasttrue := tl } →
      (st.lastjmp = none → t.live = false) →
      ((∃ k, st.lastjmp = some k) → st.lasttrue = 0) → Gen env L m f t.orEnd B lo st' (S' ++ [.label tl]) := by
    rintro st' rfl hn hz
    refine ⟨by simp [h.buf], h.cnt, h.seg.snocLabel ⟨ht.1, ht.2.1⟩ ht.2.2, end_inv env hinv (by omega), ?_⟩
    have htail := h.tail
    rw [if_neg h0] at htail
    cases t with
    | none => exact htail
    | dead => trivial
    | empty => trivial
    | jump =>
      obtain ⟨pre, J, c, hS, hlj, hLJ, h1, h2⟩ := htail
      have hz := hz ⟨_, hlj⟩
      rw [hz] at hLJ hS
      refine ⟨pre, J, c, ?_, hlj, end_lj env hLJ h0, by simp, h2⟩
      rw [hS]; simp [postOf, h0]
  unfold orEnd
  rw [if_pos hpos]
  cases hlj : st.lastjmp with
  | none =>
    refine ⟨_, _, rfl, simple _ (by rw [hlj]) ?_ ?_⟩
    · intro _
      have htail := h.tail
      cases t with
      | none => rfl
      | dead => rfl
      | empty => obtain ⟨pre, J, c, hS, hlj', _⟩ := htail; rw [hlj] at hlj'; cases hlj'
      | jump => obtain ⟨pre, J, c, hS, hlj', _⟩ := htail; rw [hlj] at hlj'; cases hlj'
    · rintro ⟨k, hk⟩; rw [hlj] at hk; cases hk
  | some k =>
    simp only []
    by_cases hT : st.lasttrue = 0
    · simp only [hT, ne_eq, not_true_eq_false, if_false]
      exact ⟨_, _, rfl, simple _ (by rw [hlj]) (fun h' => by rw [hlj] at h'; cases h') (fun _ => hT)⟩
    · rw [if_pos hT]
      have htail := h.tail
      rw [if_neg h0] at htail
      cases t with
      | none => rw [show st.lastjmp = none from htail] at hlj; cases hlj
      | dead => exact (hd rfl).elim
      | empty => obtain ⟨pre, J, c, hS, hlj', _, h1, _⟩ := htail; exact (hT (h1 rfl).2).elim
      | jump =>
        obtain ⟨pre, J, c, hS, hlj', hLJ, h1, h2⟩ := htail
        rw [hlj] at hlj'
        obtain rfl : k = B.length + pre.length := by simpa using hlj'
        have hJ := hLJ.last
        have hJlen : ∃ j, J = [j] := by
          cases hJ with
          | jump => exact ⟨_, rfl⟩
          | empty => exact (h2 rfl rfl).elim
        obtain ⟨j, rfl⟩ := hJlen
        -- facts on T
        have hTr := h.seg.dfn (.label st.lasttrue) (by rw [hS]; simp [postOf, hT]) _ rfl
        have hTt : st.lasttrue ≠ tl := fun e => ht.2.2 (.label st.lasttrue) (by rw [hS]; simp [postOf, hT]) (by simp [dfn, e])
        have hjm : ment j = some L ∧ dfn j = none := by
          cases hJ with
          | jump => exact ⟨rfl, rfl⟩
        have hpd : ∀ x ∈ pre, ∀ l, dfn x = some l → l ≠ st.lasttrue ∧ l ≠ tl := by
          intro x hx l hdx
          refine ⟨fun e => ?_, fun e => ht.2.2 x (by rw [hS]; simp [hx]) (e ▸ hdx)⟩
          have hf := h.seg.fwd
          rw [hS] at hf
          unfold Fwd at hf
          rw [List.pairwise_append] at hf
          exact hf.2.2 x (by simp [hx]) (.label st.lasttrue) (by simp [postOf, hT]) l hdx (by simp [ment, e])
        have hp := hpre rfl pre.length hlj
        obtain ⟨pre', hpre'⟩ : ∃ pre', pre = S0 ++ pre' := by
          have e : S0 ++ D = pre ++ ([j] ++ postOf st.lasttrue) := by rw [← hSD, hS]; simp
          refine ⟨pre.drop S0.length, ?_⟩
          have h1 : pre.take S0.length = S0 := by
            have := congrArg (List.take S0.length) e
            rw [List.take_left, List.take_append_of_le_length hp] at this
            exact this.symm
          have h2 := List.take_append_drop S0.length pre
          rw [h1] at h2; exact h2.symm
        have hlt : B.length + pre.length < st.buf.length := by rw [h.buf, hS]; simp
        rw [if_pos hlt]
        have hbuf : (replaceLabel st.buf (B.length + S0.length) st.lasttrue tl).take (B.length + pre.length + 1) =
            B ++ (pre.map (replLine st.lasttrue tl) ++ [j]) := by
          have e1 : st.buf = B ++ (S0 ++ (pre' ++ [j] ++ postOf st.lasttrue)) := by rw [h.buf, hS, hpre']; simp
          rw [e1, replaceLabel_from _ _ _ _ _ (fun x hx => hS0 rfl x hx hT)]
          have e2 : S0 ++ (pre' ++ [j] ++ postOf st.lasttrue) = (pre ++ [j]) ++ postOf st.lasttrue := by rw [hpre']; simp
          rw [e2, List.map_append, List.map_append, List.map_singleton, repl_notment (x := j) (by rw [hjm.1]; simp; omega)]
          have e3 : B ++ (List.map (replLine st.lasttrue tl) pre ++ [j] ++ List.map (replLine st.lasttrue tl) (postOf st.lasttrue))
              = (B ++ (List.map (replLine st.lasttrue tl) pre ++ [j])) ++ List.map (replLine st.lasttrue tl) (postOf st.lasttrue) := by
            simp
          rw [e3]
          have e4 : B.length + pre.length + 1 = (B ++ (List.map (replLine st.lasttrue tl) pre ++ [j])).length := by
            simp; omega
          rw [e4, List.take_left]
        simp only [hbuf]
        have hLJ' : LJ env (pre.map (replLine st.lasttrue tl)) [j] c L m [] f tl := by
          refine ⟨hLJ.last, fun σ => ?_⟩
          obtain ⟨r, hr, g1, g2⟩ := hLJ.sem σ
          have := ex_ren env st.lasttrue tl pre (none, σ) hpd
          simp only [renS, Option.map_none] at this
          rw [this, hr]
          refine ⟨r.map (renL st.lasttrue tl), rfl, ?_, ?_⟩
          · intro hn; exact g1 (by simpa using hn)
          · intro l hl
            rw [Option.map_eq_some_iff] at hl
            obtain ⟨l', hl', rfl⟩ := hl
            have g2 := g2 l' hl'
            by_cases hm : (f σ).1 = m
            · rw [if_pos hm] at g2 ⊢
              unfold renL; rw [if_neg (by omega)]; exact g2
            · rw [if_neg hm] at g2 ⊢
              left
              refine ⟨?_, h0⟩
              unfold renL
              rcases g2 with g2 | g2
              · rw [if_pos g2.1]
              · have : l' = tl := by simpa using g2
                rw [if_neg (by omega), this]
        refine ⟨_, pre.map (replLine st.lasttrue tl) ++ [j] ++ [.label tl], rfl, ⟨by simp, h.cnt, ?_, ?_, ?_⟩⟩
        · -- labels
          have hsub : Seg (pre.map (replLine st.lasttrue tl) ++ [j]) lo st.cnt L := by
            have hseg := h.seg
            rw [hS] at hseg
            have hpj : Fwd (pre ++ [j]) := by
              have := hseg.fwd
              unfold Fwd at this ⊢
              rw [List.pairwise_append] at this
              exact this.1
            have e5 : pre.map (replLine st.lasttrue tl) ++ [j] = (pre ++ [j]).map (replLine st.lasttrue tl) := by
              rw [List.map_append, List.map_singleton, repl_notment (x := j) (by rw [hjm.1]; simp; omega)]
            have hpjd : ∀ x ∈ pre ++ [j], ∀ l, dfn x = some l → l ≠ st.lasttrue ∧ l ≠ tl := by
              intro x hx l hdx
              rcases List.mem_append.1 hx with hx | hx
              · exact hpd x hx l hdx
              · rw [List.mem_singleton.1 hx, hjm.2] at hdx; cases hdx
            rw [e5]
            refine ⟨?_, ?_, ?_, fwd_ren hpj hpjd⟩
            · intro x hx
              obtain ⟨y, hy, rfl⟩ := List.mem_map.1 hx
              exact clean_repl (hseg.clean y (List.mem_append_left _ hy))
            · intro x hx l hl
              obtain ⟨y, hy, rfl⟩ := List.mem_map.1 hx
              obtain ⟨l', hl', rfl⟩ := ment_repl.1 hl
              have := hseg.ment y (List.mem_append_left _ hy) l' hl'
              unfold renL
              split <;> omega
            · intro x hx l hl
              obtain ⟨y, hy, rfl⟩ := List.mem_map.1 hx
              obtain ⟨l', hl', rfl⟩ := dfn_repl.1 hl
              have := hseg.dfn y (List.mem_append_left _ hy) l' hl'
              unfold renL
              split <;> omega
          refine hsub.snocLabel ⟨ht.1, ht.2.1⟩ ?_
          intro x hx hdx
          rcases List.mem_append.1 hx with hx | hx
          · obtain ⟨y, hy, rfl⟩ := List.mem_map.1 hx
            obtain ⟨l', hl', e⟩ := dfn_repl.1 hdx
            have := hpd y hy l' hl'
            unfold renL at e; rw [if_neg this.1] at e; exact this.2 e.symm
          · rw [List.mem_singleton.1 hx, hjm.2] at hdx; cases hdx
        · have := hLJ'.inv env (by omega)
          rw [postOf, if_neg h0] at this
          exact this
        · refine ⟨pre.map (replLine st.lasttrue tl), [j], c, by simp [postOf, h0], by simp [hlj], hLJ', by simp, by simp⟩

end
end Verif.Hll
