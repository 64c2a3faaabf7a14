import Verif.Hll.Loops
/-! The generator on a whole condition. -/
namespace Verif.Hll

section
variable {α : Type} (env : Env α)

def negS (f : Sem) : Sem := fun σ => (!(f σ).1, (f σ).2)

theorem not_iff (x m : Bool) : ((!x) = m) ↔ x = !m := by cases x <;> cases m <;> simp

theorem Inv.neg {code : List (Line α)} {L : Nat} {m : Bool} {X : List Nat} {f : Sem} (h : Inv env code L (!m) X f) :
    Inv env code L m X (negS f) := fun σ => by
  obtain ⟨r, h1, h2⟩ := h σ
  refine ⟨r, h1, ?_⟩
  simp only [negS, not_iff]
  exact h2

theorem LJ.neg {pre J : List (Line α)} {c : Flags → Bool} {L : Nat} {m : Bool} {X : List Nat} {f : Sem} {T : Nat}
    (h : LJ env pre J c L (!m) X f T) : LJ env pre J c L m X (negS f) T where
  last := h.last
  sem := fun σ => by
    obtain ⟨r, h1, h2, h3⟩ := h.sem σ
    refine ⟨r, h1, ?_, ?_⟩
    · intro hr
      simp only [negS]
      rw [h2 hr]
      cases (f σ).1 <;> cases m <;> rfl
    · intro l hl
      simp only [negS, not_iff]
      exact h3 l hl

theorem Gen.neg {L : Nat} {m : Bool} {f : Sem} {t : Tail} {B : List (Line α)} {lo : Nat} {st' : St α} {D : List (Line α)}
    (h : Gen env L (!m) f t B lo st' D) : Gen env L m (negS f) t B lo st' D := by
  refine ⟨h.buf, h.cnt, h.seg, h.inv.neg env, ?_⟩
  have := h.tail
  have key : ∀ e, Live env L (!m) [] f D B.length st'.lastjmp st'.lasttrue e →
      Live env L m [] (negS f) D B.length st'.lastjmp st'.lasttrue e := by
    rintro e ⟨pre, J, c, h1, h2, h3, h4, h5⟩
    exact ⟨pre, J, c, h1, h2, h3.neg env, h4, h5⟩
  cases t with
  | none => exact this
  | jump => exact key _ this
  | empty => exact key _ this
  | dead => trivial

theorem loop_of_gen' {L : Nat} {m : Bool} {lo : Nat} {B : List (Line α)} {st : St α} {f : Sem}
    {D : List (Line α)} {t : Tail} (hg : Gen env L m f t B lo st D) : LoopSt env L m lo B st 0 f D t :=
  loop_of_gen env hg

/-- The labels of the new piece are not mentioned in the old one. -/
theorem next_fresh {L : Nat} {m : Bool} {lo : Nat} {B S1 D : List (Line α)} {st1 st2 : St α} {t1 : Nat} {f g : Sem} {t : Tail}
    (h : FixSt env m L lo B st1 t1 f S1) (hg : Gen env L m g t (B ++ S1) st1.cnt st2 D) (hL : L ≤ lo) :
    (t.live = true → ∀ x ∈ S1, st2.lasttrue ≠ 0 → ment x ≠ some st2.lasttrue) ∧
    (t.live = true → ∀ k, st2.lastjmp = some (B.length + k) → S1.length ≤ k) := by
  refine ⟨fun ht x hx hT hm => ?_, fun ht k hk => ?_⟩
  · obtain ⟨e, pre, J, c, hD, hlj, _⟩ := hg.tail.live env ht
    have h1 := hg.seg.dfn (.label st2.lasttrue) (by rw [hD]; simp [postOf, hT]) _ rfl
    have h2 := h.seg.ment x hx _ hm
    have := h.cnt
    omega
  · obtain ⟨e, pre, J, c, hD, hlj, _⟩ := hg.tail.live env ht
    rw [hlj] at hk
    simp at hk
    omega

theorem andLoop_stop (cfg : Cfg) (k : List (Tok α)) (hk : stop 1 k = true) (m : Bool) (b tl : Nat) (st : St α) :
    andLoop cfg k m b tl st = some (.ok (k, andEnd tl st)) := by
  rw [andLoop.eq_def]
  match k, hk with
  | [], _ => rfl
  | .rpar :: _, _ => rfl
  | .cop .and :: _, h => simp [stop] at h
  | .cop .or :: _, _ => rfl
  | .cop (.cmp _) :: _, ht => simp [stop] at ht
  | .cop .andb :: _, ht => simp [stop] at ht
  | .cop .neg :: _, ht => simp [stop] at ht
  | .cop (.flag _) :: _, ht => simp [stop] at ht
  | .lpar :: _, ht => simp [stop] at ht
  | .opnd _ :: _, ht => simp [stop] at ht

theorem orLoop_stop (cfg : Cfg) (k : List (Tok α)) (hk : stop 2 k = true) (m : Bool) (b p tl : Nat) (st st' : St α)
    (h : orEnd p tl st = .ok st') : orLoop cfg k m b p tl st = some (.ok (k, st')) := by
  rw [orLoop.eq_def]
  match k, hk with
  | [], _ => simp only [h]; rfl
  | .rpar :: _, _ => simp only [h]; rfl
  | .cop .and :: _, h => simp [stop] at h
  | .cop .or :: _, h => simp [stop] at h
  | .cop (.cmp _) :: _, ht => simp [stop] at ht
  | .cop .andb :: _, ht => simp [stop] at ht
  | .cop .neg :: _, ht => simp [stop] at ht
  | .cop (.flag _) :: _, ht => simp [stop] at ht
  | .lpar :: _, ht => simp [stop] at ht
  | .opnd _ :: _, ht => simp [stop] at ht

theorem stop_mono {n n' : Nat} (h : n ≤ n') {k : List (Tok α)} (hk : stop n' k = true) : stop n k = true := by
  match k, hk with
  | [], _ => rfl
  | .rpar :: _, _ => rfl
  | .cop .and :: _, hk => simp [stop] at hk ⊢; omega
  | .cop .or :: _, hk => simp [stop] at hk ⊢; omega
  | .cop (.cmp _) :: _, ht => simp [stop] at ht
  | .cop .andb :: _, ht => simp [stop] at ht
  | .cop .neg :: _, ht => simp [stop] at ht
  | .cop (.flag _) :: _, ht => simp [stop] at ht
  | .lpar :: _, ht => simp [stop] at ht
  | .opnd _ :: _, ht => simp [stop] at ht

theorem orEnd_zero (p : Nat) (st : St α) : orEnd p 0 st = .ok st := by simp [orEnd]
theorem andEnd_zero (st : St α) : andEnd 0 st = st := by simp [andEnd]

/-- What the functions do with one operand. -/
def SimpleOk (cfg : Cfg) (s : Simple α) : Prop :=
  ∀ m (st : St α) k, s.ok env → s.good m → st.lasttrue = 0 → cfg.lbl ≤ st.cnt → stop 0 k = true →
    ∃ st' D, getSimple cfg (s.print ++ k) m st = some (.ok (k, st')) ∧
      Gen env cfg.lbl m (s.eval env) (s.tail m) st.buf st.cnt st' D
def AndOk (cfg : Cfg) (s : AndE α) : Prop :=
  ∀ m (st : St α) k, s.ok env → s.good m → st.lasttrue = 0 → cfg.lbl ≤ st.cnt → stop 1 k = true →
    ∃ st' D, getAnd cfg (s.print ++ k) m st = some (.ok (k, st')) ∧
      Gen env cfg.lbl m (s.eval env) (s.tail m) st.buf st.cnt st' D
def OrOk (cfg : Cfg) (s : OrE α) : Prop :=
  ∀ m (st : St α) k, s.ok env → s.good m → st.lasttrue = 0 → cfg.lbl ≤ st.cnt → stop 2 k = true →
    ∃ st' D, getExpr cfg (s.print ++ k) m st = some (.ok (k, st')) ∧
      Gen env cfg.lbl m (s.eval env) (s.tail m) st.buf st.cnt st' D

def AndE.hd : AndE α → Simple α
  | .one s => s
  | .cons s _ => s

/-- The loop of GetAndExpression. -/
def AndLoopT (cfg : Cfg) (r : AndE α) : Prop :=
  ∀ (lo : Nat) (B : List (Line α)) (st : St α) tl f S' t k, r.ok env → r.good true → cfg.lbl ≤ lo → stop 1 k = true →
    LoopSt env cfg.lbl true lo B st tl f S' t → t.live = true →
    ∃ st' D, andLoop cfg (.cop .and :: (r.print ++ k)) true B.length tl st = some (.ok (k, st')) ∧
      Gen env cfg.lbl true (comb true f (r.eval env)) .none B lo st' D
def AndLoopF (cfg : Cfg) (r : AndE α) : Prop :=
  ∀ (lo : Nat) (B : List (Line α)) (st : St α) b f S' t k, r.ok env → r.good false → cfg.lbl ≤ lo → stop 1 k = true →
    Gen env cfg.lbl false f t B lo st S' →
    ∃ st' D, andLoop cfg (.cop .and :: (r.print ++ k)) false b 0 st = some (.ok (k, st')) ∧
      Gen env cfg.lbl false (comb' false f (r.eval env)) (r.tail false) B lo st' D

def OrLoopF (cfg : Cfg) (r : OrE α) : Prop :=
  ∀ (lo : Nat) (B : List (Line α)) (st : St α) tl f S' S0 D t k, r.ok env → r.good false → r.lastTail false ≠ .dead →
    cfg.lbl ≤ lo → stop 2 k = true →
    LoopSt env cfg.lbl false lo B st tl f S' t → t.live = true → S' = S0 ++ D →
    (t.live = true → ∀ x ∈ S0, st.lasttrue ≠ 0 → ment x ≠ some st.lasttrue) →
    (t.live = true → ∀ k, st.lastjmp = some (B.length + k) → S0.length ≤ k) →
    ∃ st' D, orLoop cfg (.cop .or :: (r.print ++ k)) false B.length (B.length + S0.length) tl st = some (.ok (k, st')) ∧
      Gen env cfg.lbl false (comb false f (r.eval env)) (r.lastTail false).orEnd B lo st' D
def OrLoopT (cfg : Cfg) (r : OrE α) : Prop :=
  ∀ (lo : Nat) (B : List (Line α)) (st : St α) b p f S' t k, r.ok env → r.good true → cfg.lbl ≤ lo → stop 2 k = true →
    Gen env cfg.lbl true f t B lo st S' →
    ∃ st' D, orLoop cfg (.cop .or :: (r.print ++ k)) true b p 0 st = some (.ok (k, st')) ∧
      Gen env cfg.lbl true (comb' true f (r.eval env)) (r.lastTail true) B lo st' D

/-- One turn of the loop with edit. -/
theorem and_turn (cfg : Cfg) {s : Simple α} (hs : SimpleOk env cfg s) {lo : Nat} {B : List (Line α)} {st : St α} {tl : Nat}
    {f : Sem} {S' : List (Line α)} {t : Tail} {k : List (Tok α)} (hok : s.ok env) (hg : s.good true) (hL : cfg.lbl ≤ lo)
    (hk : stop 0 k = true) (h : LoopSt env cfg.lbl true lo B st tl f S' t) (ht : t.live = true) :
    ∃ t1 st2 S2, LoopSt env cfg.lbl true lo B st2 t1 (comb true f (s.eval env)) S2 (s.tail true) ∧ t1 ≠ 0 ∧
      andLoop cfg (.cop .and :: (s.print ++ k)) true B.length tl st = andLoop cfg k true B.length t1 st2 := by
  obtain ⟨t1, st1, S1, e, h1, h2⟩ := andFix_ok env cfg true lo B st tl f S' t h ht hL
  have hc := h2.cnt
  obtain ⟨st2, D, e2, hg2⟩ := hs true { st1 with lasttrue := 0 } k hok hg rfl (by show cfg.lbl ≤ st1.cnt; omega) hk
  have hb := h2.buf
  rw [show ({ st1 with lasttrue := 0 } : St α).buf = B ++ S1 from hb] at hg2
  refine ⟨t1, st2, S1 ++ D, next_loop env h2 hg2 hL, by have := h2.t0; omega, ?_⟩
  conv => lhs; rw [andLoop.eq_def]
  simp only [if_true, e, e2, bind, Option.bind]

theorem or_turn (cfg : Cfg) {s : AndE α} (hs : AndOk env cfg s) {lo : Nat} {B : List (Line α)} {st : St α} {tl : Nat}
    {f : Sem} {S' S0 D : List (Line α)} {t : Tail} {k : List (Tok α)} (hok : s.ok env) (hg : s.good false) (hL : cfg.lbl ≤ lo)
    (hk : stop 1 k = true) (h : LoopSt env cfg.lbl false lo B st tl f S' t) (ht : t.live = true) (hSD : S' = S0 ++ D)
    (hS0 : t.live = true → ∀ x ∈ S0, st.lasttrue ≠ 0 → ment x ≠ some st.lasttrue)
    (hpre : t.live = true → ∀ k, st.lastjmp = some (B.length + k) → S0.length ≤ k) :
    ∃ t1 st2 S1 D2, LoopSt env cfg.lbl false lo B st2 t1 (comb false f (s.eval env)) (S1 ++ D2) (s.tail false) ∧ t1 ≠ 0 ∧
      ((s.tail false).live = true → ∀ x ∈ S1, st2.lasttrue ≠ 0 → ment x ≠ some st2.lasttrue) ∧
      ((s.tail false).live = true → ∀ k, st2.lastjmp = some (B.length + k) → S1.length ≤ k) ∧
      orLoop cfg (.cop .or :: (s.print ++ k)) false B.length (B.length + S0.length) tl st =
        orLoop cfg k false B.length (B.length + S1.length) t1 st2 := by
  obtain ⟨t1, st1, S1, e, h1, h2⟩ := orFix_ok env cfg false lo B st tl f S' S0 D t h ht hL hSD (hS0 ht) (hpre ht)
  have hc := h2.cnt
  obtain ⟨st2, D, e2, hg2⟩ := hs false { st1 with lasttrue := 0 } k hok hg rfl (by show cfg.lbl ≤ st1.cnt; omega) hk
  have hb := h2.buf
  rw [show ({ st1 with lasttrue := 0 } : St α).buf = B ++ S1 from hb] at hg2
  have hf := next_fresh env h2 hg2 hL
  refine ⟨t1, st2, S1, D, next_loop env h2 hg2 hL, by have := h2.t0; omega, hf.1, hf.2, ?_⟩
  conv => lhs; rw [orLoop.eq_def]
  simp only [Bool.false_eq_true, if_false, e, e2, bind, Option.bind]
  rw [hb, List.length_append]

mutual
theorem simple_gen (cfg : Cfg) (hL0 : 0 < cfg.lbl) (s : Simple α) : SimpleOk env cfg s := by
  intro m st k hok hg hst hL hk
  cases s with
  | atom a =>
    simp only [Simple.print, Simple.tail]
    exact atom_gen env cfg a m st k hok hst hL hL0 hk
  | not s =>
    simp only [Simple.ok] at hok
    simp only [Simple.good] at hg
    obtain ⟨st', D, h1, h2⟩ := simple_gen cfg hL0 s (!m) st k hok hg hst hL hk
    refine ⟨st', D, ?_, ?_⟩
    · simp only [Simple.print, List.cons_append]
      rw [getSimple.eq_def]
      simp only [h1]
    · simp only [Simple.tail]
      exact h2.neg env
  | paren e =>
    simp only [Simple.ok] at hok
    simp only [Simple.good] at hg
    obtain ⟨st', D, h1, h2⟩ := or_gen cfg hL0 e m st (.rpar :: k) hok.2 hg hst hL rfl
    refine ⟨st', D, ?_, by simpa only [Simple.tail, Simple.eval] using h2⟩
    simp only [Simple.print, List.cons_append, List.append_assoc, List.nil_append]
    rw [getSimple.eq_def]
    have : isHll 1 (e.print ++ .rpar :: k) = true := by rw [isHll_or e 1 (by omega), hok.1]; rfl
    simp only [this, if_true, h1]
    rfl
theorem and_gen (cfg : Cfg) (hL0 : 0 < cfg.lbl) (s : AndE α) : AndOk env cfg s := by
  intro m st k hok hg hst hL hk
  cases s with
  | one s =>
    simp only [AndE.ok] at hok
    simp only [AndE.good] at hg
    obtain ⟨st', D, h1, h2⟩ := simple_gen cfg hL0 s m st k hok hg hst hL (stop_mono (by omega) hk)
    refine ⟨st', D, ?_, by simpa only [AndE.tail, AndE.eval] using h2⟩
    simp only [AndE.print]
    rw [getAnd.eq_def]
    simp only [h1, bind, Option.bind, andLoop_stop cfg k hk, andEnd_zero]
  | cons s r =>
    simp only [AndE.ok] at hok
    simp only [AndE.good] at hg
    obtain ⟨st1, D, h1, h2⟩ := simple_gen cfg hL0 s m st (.cop .and :: (r.print ++ k)) hok.1 hg.1 hst hL rfl
    have : ∃ st' D, andLoop cfg (.cop .and :: (r.print ++ k)) m st.buf.length 0 st1 = some (.ok (k, st')) ∧
        Gen env cfg.lbl m ((AndE.cons s r).eval env) ((AndE.cons s r).tail m) st.buf st.cnt st' D := by
      cases m with
      | true =>
        obtain ⟨st', D', h3, h4⟩ := and_loop_t cfg hL0 r st.cnt st.buf st1 0 _ _ _ k hok.2 hg.2.1 hL hk (loop_of_gen env h2)
          (hg.2.2 rfl)
        exact ⟨st', D', h3, by rw [and_eval_t]; simpa [AndE.tail] using h4⟩
      | false =>
        obtain ⟨st', D', h3, h4⟩ := and_loop_f cfg hL0 r st.cnt st.buf st1 st.buf.length _ _ _ k hok.2 hg.2.1 hL hk h2
        exact ⟨st', D', h3, by rw [and_eval_f]; simpa [AndE.tail] using h4⟩
    obtain ⟨st', D', h3, h4⟩ := this
    refine ⟨st', D', ?_, h4⟩
    simp only [AndE.print, List.append_assoc, List.cons_append]
    rw [getAnd.eq_def]
    simp only [h1, bind, Option.bind, h3]
theorem or_gen (cfg : Cfg) (hL0 : 0 < cfg.lbl) (s : OrE α) : OrOk env cfg s := by
  intro m st k hok hg hst hL hk
  cases s with
  | one s =>
    simp only [OrE.ok] at hok
    simp only [OrE.good] at hg
    obtain ⟨st', D, h1, h2⟩ := and_gen cfg hL0 s m st k hok hg hst hL (stop_mono (by omega) hk)
    refine ⟨st', D, ?_, by simpa only [OrE.tail, OrE.eval] using h2⟩
    simp only [OrE.print]
    rw [getExpr.eq_def]
    simp only [h1, bind, Option.bind, orLoop_stop cfg k hk m _ _ 0 st' st' (orEnd_zero _ _)]
  | cons s r =>
    simp only [OrE.ok] at hok
    simp only [OrE.good] at hg
    obtain ⟨st1, D, h1, h2⟩ := and_gen cfg hL0 s m st (.cop .or :: (r.print ++ k)) hok.1 hg.1 hst hL rfl
    have : ∃ st' D, orLoop cfg (.cop .or :: (r.print ++ k)) m st.buf.length st.buf.length 0 st1 = some (.ok (k, st')) ∧
        Gen env cfg.lbl m ((OrE.cons s r).eval env) ((OrE.cons s r).tail m) st.buf st.cnt st' D := by
      cases m with
      | true =>
        obtain ⟨st', D', h3, h4⟩ := or_loop_t cfg hL0 r st.cnt st.buf st1 st.buf.length st.buf.length _ _ _ k hok.2 hg.2.1
          hL hk h2
        exact ⟨st', D', h3, by rw [or_eval_t]; simpa [OrE.tail] using h4⟩
      | false =>
        obtain ⟨st', D', h3, h4⟩ := or_loop_f cfg hL0 r st.cnt st.buf st1 0 _ _ [] D _ k hok.2 hg.2.1 (hg.2.2 rfl).2
          hL hk (loop_of_gen env h2) (hg.2.2 rfl).1 rfl (by simp) (by simp)
        exact ⟨st', D', h3, by rw [or_eval_f]; simpa [OrE.tail] using h4⟩
    obtain ⟨st', D', h3, h4⟩ := this
    refine ⟨st', D', ?_, h4⟩
    simp only [OrE.print, List.append_assoc, List.cons_append]
    rw [getExpr.eq_def]
    simp only [h1, bind, Option.bind, h3]
theorem and_loop_t (cfg : Cfg) (hL0 : 0 < cfg.lbl) (r : AndE α) : AndLoopT env cfg r := by
  intro lo B st tl f S' t k hok hg hL hk h ht
  cases r with
  | one s =>
    simp only [AndE.ok] at hok
    simp only [AndE.good] at hg
    obtain ⟨t1, st2, S2, h1, h0, e⟩ := and_turn env cfg (simple_gen cfg hL0 s) hok hg hL (stop_mono (by omega) hk) h ht
    refine ⟨_, _, ?_, andEnd_ok env h1 h0 hL⟩
    simp only [AndE.print]
    rw [e, andLoop_stop cfg k hk]
  | cons s r =>
    simp only [AndE.ok] at hok
    simp only [AndE.good] at hg
    obtain ⟨t1, st2, S2, h1, h0, e⟩ := and_turn env cfg (k := .cop .and :: (r.print ++ k)) (simple_gen cfg hL0 s) hok.1 hg.1 hL
      rfl h ht
    obtain ⟨st', D', h3, h4⟩ := and_loop_t cfg hL0 r lo B st2 t1 _ _ _ k hok.2 hg.2.1 hL hk h1 (hg.2.2 trivial)
    refine ⟨st', D', ?_, by rw [and_eval_t, ← comb_assoc]; exact h4⟩
    simp only [AndE.print, List.append_assoc, List.cons_append]
    rw [e, h3]
theorem and_loop_f (cfg : Cfg) (hL0 : 0 < cfg.lbl) (r : AndE α) : AndLoopF env cfg r := by
  intro lo B st b f S' t k hok hg hL hk h
  have hc := h.cnt
  have turn : ∀ (s : Simple α) k, SimpleOk env cfg s → s.ok env → s.good false → stop 0 k = true →
      ∃ st2 D2, Gen env cfg.lbl false (comb' false f (s.eval env)) (s.tail false) B lo st2 (S' ++ D2) ∧
        andLoop cfg (.cop .and :: (s.print ++ k)) false b 0 st = andLoop cfg k false b 0 st2 := by
    intro s k hs hok hg hk
    obtain ⟨st2, D2, e2, hg2⟩ := hs false { st with lasttrue := 0 } k hok hg rfl (by show cfg.lbl ≤ st.cnt; omega) hk
    rw [show ({ st with lasttrue := 0 } : St α).buf = B ++ S' from h.buf] at hg2
    refine ⟨st2, D2, next_cat env h hg2 hL, ?_⟩
    conv => lhs; rw [andLoop.eq_def]
    simp only [Bool.false_eq_true, if_false, e2, bind, Option.bind]
  cases r with
  | one s =>
    simp only [AndE.ok] at hok
    simp only [AndE.good] at hg
    obtain ⟨st2, D2, h1, e⟩ := turn s k (simple_gen cfg hL0 s) hok hg (stop_mono (by omega) hk)
    refine ⟨st2, _, ?_, by simpa only [AndE.tail, AndE.eval] using h1⟩
    simp only [AndE.print]
    rw [e, andLoop_stop cfg k hk, andEnd_zero]
  | cons s r =>
    simp only [AndE.ok] at hok
    simp only [AndE.good] at hg
    obtain ⟨st2, D2, h1, e⟩ := turn s (.cop .and :: (r.print ++ k)) (simple_gen cfg hL0 s) hok.1 hg.1 rfl
    obtain ⟨st', D', h3, h4⟩ := and_loop_f cfg hL0 r lo B st2 b _ _ _ k hok.2 hg.2.1 hL hk h1
    refine ⟨st', D', ?_, ?_⟩
    · simp only [AndE.print, List.append_assoc, List.cons_append]
      rw [e, h3]
    · rw [and_eval_f, ← comb'_assoc]; simpa [AndE.tail] using h4
theorem or_loop_t (cfg : Cfg) (hL0 : 0 < cfg.lbl) (r : OrE α) : OrLoopT env cfg r := by
  intro lo B st b p f S' t k hok hg hL hk h
  have hc := h.cnt
  have turn : ∀ (s : AndE α) k, AndOk env cfg s → s.ok env → s.good true → stop 1 k = true →
      ∃ st2 D2 p', Gen env cfg.lbl true (comb' true f (s.eval env)) (s.tail true) B lo st2 (S' ++ D2) ∧
        orLoop cfg (.cop .or :: (s.print ++ k)) true b p 0 st = orLoop cfg k true b p' 0 st2 := by
    intro s k hs hok hg hk
    obtain ⟨st2, D2, e2, hg2⟩ := hs true { st with lasttrue := 0 } k hok hg rfl (by show cfg.lbl ≤ st.cnt; omega) hk
    rw [show ({ st with lasttrue := 0 } : St α).buf = B ++ S' from h.buf] at hg2
    refine ⟨st2, D2, st.buf.length, next_cat env h hg2 hL, ?_⟩
    conv => lhs; rw [orLoop.eq_def]
    simp only [if_true, e2, bind, Option.bind]
  cases r with
  | one s =>
    simp only [OrE.ok] at hok
    simp only [OrE.good] at hg
    obtain ⟨st2, D2, p', h1, e⟩ := turn s k (and_gen cfg hL0 s) hok hg (stop_mono (by omega) hk)
    refine ⟨st2, _, ?_, by simpa only [OrE.lastTail, OrE.eval] using h1⟩
    simp only [OrE.print]
    rw [e, orLoop_stop cfg k hk _ _ _ _ _ _ (orEnd_zero _ _)]
  | cons s r =>
    simp only [OrE.ok] at hok
    simp only [OrE.good] at hg
    obtain ⟨st2, D2, p', h1, e⟩ := turn s (.cop .or :: (r.print ++ k)) (and_gen cfg hL0 s) hok.1 hg.1 rfl
    obtain ⟨st', D', h3, h4⟩ := or_loop_t cfg hL0 r lo B st2 b p' _ _ _ k hok.2 hg.2.1 hL hk h1
    refine ⟨st', D', ?_, ?_⟩
    · simp only [OrE.print, List.append_assoc, List.cons_append]
      rw [e, h3]
    · rw [or_eval_t, ← comb'_assoc]; simpa [OrE.lastTail] using h4
theorem or_loop_f (cfg : Cfg) (hL0 : 0 < cfg.lbl) (r : OrE α) : OrLoopF env cfg r := by
  intro lo B st tl f S' S0 D t k hok hg hd hL hk h ht hSD hS0 hpre
  cases r with
  | one s =>
    simp only [OrE.ok] at hok
    simp only [OrE.good] at hg
    simp only [OrE.lastTail] at hd ⊢
    obtain ⟨t1, st2, S1, D2, h1, h0, h5, h6, e⟩ := or_turn env cfg (and_gen cfg hL0 s) hok hg hL (stop_mono (by omega) hk) h ht
      hSD hS0 hpre
    obtain ⟨st', D', h7, h8⟩ := orEnd_ok env h1 h0 hL hL0 hd rfl h5 h6
    refine ⟨st', D', ?_, h8⟩
    simp only [OrE.print]
    rw [e, orLoop_stop cfg k hk _ _ _ _ _ _ h7]
  | cons s r =>
    simp only [OrE.ok] at hok
    simp only [OrE.good] at hg
    simp only [OrE.lastTail] at hd ⊢
    obtain ⟨t1, st2, S1, D2, h1, h0, h5, h6, e⟩ := or_turn env cfg (k := .cop .or :: (r.print ++ k)) (and_gen cfg hL0 s) hok.1
      hg.1 hL rfl h ht hSD hS0 hpre
    obtain ⟨st', D', h3, h4⟩ := or_loop_f cfg hL0 r lo B st2 t1 _ _ S1 D2 _ k hok.2 hg.2.1 hd hL hk h1 (hg.2.2 trivial).1 rfl h5 h6
    refine ⟨st', D', ?_, by rw [or_eval_f, ← comb_assoc]; exact h4⟩
    simp only [OrE.print, List.append_assoc, List.cons_append]
    rw [e, h3]
end

end
end Verif.Hll
