import Verif.Hll.BlocksSpec
import Verif.Hll.Cond
/-! The first line of the code of a condition: it is not `jmp` if the condition does not begin with a constant. -/
namespace Verif.Hll
section
variable {α : Type}

/-- Not `jmp`, and not the inversion of one. -/
def headOk : Line α → Prop
  | .jump m _ => m.c1 ≠ 'm' ∧ (m.c1 = 'n' → m.c2 ≠ 'm')
  | _ => True

def HB (buf : List (Line α)) : Prop := ∃ x r, buf = x :: r ∧ headOk x

theorem HB.append {b : List (Line α)} (h : HB b) (r : List (Line α)) : HB (b ++ r) := by
  obtain ⟨x, r', rfl, hx⟩ := h
  exact ⟨x, r' ++ r, rfl, hx⟩

theorem HB.take {b : List (Line α)} (h : HB b) (k : Nat) (r : List (Line α)) : HB (b.take (k + 1) ++ r) := by
  obtain ⟨x, r', rfl, hx⟩ := h
  exact ⟨x, r'.take k ++ r, rfl, hx⟩

theorem HB.replaceLabel {b : List (Line α)} (h : HB b) (p o n : Nat) : HB (replaceLabel b p o n) := by
  obtain ⟨x, r, rfl, hx⟩ := h
  cases p with
  | zero =>
    refine ⟨replLine o n x, r.map (replLine o n), by simp [Hll.replaceLabel], ?_⟩
    cases x <;> exact hx
  | succ p => exact ⟨x, _, by simp only [Hll.replaceLabel, List.take_succ_cons, List.cons_append]; rfl, hx⟩

theorem headOk_invert {m m' : Mnem} {l l' : Nat} (h : headOk (.jump m l : Line α)) (hi : invertJump m = some m') :
    headOk (.jump m' l' : Line α) := by
  simp only [headOk] at h ⊢
  unfold invertJump at hi
  split at hi
  · cases hi
    rename_i hc
    exact ⟨by show 'n' ≠ 'm'; decide, fun _ => by show m.c1 ≠ 'm'; rcases hc with h | h | h | h | h | h <;> rw [h] <;> decide⟩
  split at hi
  · cases hi
    rename_i hn
    exact ⟨h.2 hn, fun _ => by show ' ' ≠ 'm'; decide⟩
  split at hi
  · cases hi; exact ⟨by show 'b' ≠ 'm'; decide, fun h => absurd h (by show 'b' ≠ 'n'; decide)⟩
  split at hi
  · cases hi; exact ⟨by show 'a' ≠ 'm'; decide, fun h => absurd h (by show 'a' ≠ 'n'; decide)⟩
  split at hi
  · cases hi; exact ⟨by show 'l' ≠ 'm'; decide, fun h => absurd h (by show 'l' ≠ 'n'; decide)⟩
  split at hi
  · cases hi; exact ⟨by show 'g' ≠ 'm'; decide, fun h => absurd h (by show 'g' ≠ 'n'; decide)⟩
  split at hi
  · cases hi
  · cases hi; exact h

theorem HB.retarget {b : List (Line α)} (h : HB b) (k t : Nat) : HB (retarget b k t) := by
  cases k with
  | succ k =>
    unfold Hll.retarget
    split
    · exact h.take k _
    · split
      · simpa using h.take k []
      · exact h.take k _
    · exact h.take k _
  | zero =>
    obtain ⟨x, r, rfl, hx⟩ := h
    unfold Hll.retarget
    cases x with
    | jump m l =>
      simp only [List.getElem?_cons_zero]
      cases hi : invertJump m with
      | none =>
        exfalso
        unfold invertJump at hi
        simp only [headOk] at hx
        repeat' split at hi
        all_goals first | cases hi | skip
        rename_i hm
        exact hx.1 hm
      | some m' => exact ⟨_, [], rfl, headOk_invert hx hi⟩
    | ins i => exact ⟨.garbage, [], rfl, trivial⟩
    | label l => exact ⟨.garbage, [], rfl, trivial⟩
    | garbage => exact ⟨.garbage, [], rfl, trivial⟩

theorem HB.andFix {st : St α} (h : HB st.buf) (cfg : Cfg) (buffer tl : Nat) : HB (andFix cfg buffer tl st).2.buf := by
  unfold Hll.andFix
  split
  · exact h
  · refine HB.replaceLabel (HB.append ?_ _) _ _ _
    split
    · exact (h.retarget _ _).replaceLabel _ _ _
    · exact h.retarget _ _

theorem HB.orFix {st : St α} (h : HB st.buf) (cfg : Cfg) (buffer p tl : Nat) : HB (orFix cfg buffer p tl st).2.buf := by
  unfold Hll.orFix
  split
  · exact h
  · have key : ∀ (x : Nat × Nat) (k : Nat), HB (if st.lasttrue ≠ 0 then Hll.replaceLabel (Hll.retarget st.buf k x.1) p st.lasttrue x.1
        else Hll.retarget st.buf k x.1) := by
      intro x k
      split
      · exact (h.retarget _ _).replaceLabel _ _ _
      · exact h.retarget _ _
    dsimp only
    split
    · exact ((key _ _).replaceLabel _ _ _).append _
    · exact ((key _ _).append _).replaceLabel _ _ _

theorem HB.andEnd {st : St α} (h : HB st.buf) (tl : Nat) : HB (andEnd tl st).buf := by
  unfold Hll.andEnd
  split
  · exact h.append _
  · exact h

theorem HB.orEnd {st st' : St α} (h : HB st.buf) (p tl : Nat) (he : orEnd p tl st = .ok st') : HB st'.buf := by
  unfold Hll.orEnd at he
  split at he
  · split at he
    · split at he
      · split at he
        · cases he
          exact (h.replaceLabel _ _ _).take _ _
        · cases he
      · cases he; exact h.append _
    · cases he; exact h.append _
  · cases he; exact h

theorem genValue_buf {cfg : Cfg} {o : Opnd α} {m : Bool} {st st' : St α} (h : genValue cfg o m st = .ok st') :
    ∃ ls, st'.buf = st.buf ++ ls := by
  unfold genValue at h
  split at h <;> first | (cases h; exact ⟨_, rfl⟩) | skip
  · split at h
    · split at h <;> (cases h; exact ⟨_, rfl⟩)
    · cases h
  · cases h

theorem genBinary_buf {cfg : Cfg} {op : Cop} {a b : Opnd α} {m : Bool} {st st' : St α} (h : genBinary cfg op a b m st = .ok st') :
    ∃ ls, st'.buf = st.buf ++ ls := by
  unfold genBinary at h
  split at h
  · cases h; exact ⟨_, rfl⟩
  · split at h
    · cases h
    · cases h; exact ⟨_, rfl⟩
  · cases h

theorem simpleCode_buf {cfg : Cfg} {toks t' : List (Tok α)} {m : Bool} {st st' : St α} (h : simpleCode cfg toks m st = .ok (t', st')) :
    ∃ ls, st'.buf = st.buf ++ ls := by
  unfold simpleCode at h
  split at h
  · cases h
  split at h
  · cases h; exact ⟨_, rfl⟩
  · cases h
  · cases h
  · split at h
    · cases h
    · rename_i hg
      cases h
      exact genValue_buf hg
  · split at h
    · cases h
    · split at h
      · split at h
        · cases h
        · rename_i hg
          cases h
          exact genBinary_buf hg
      · cases h

/-- Nothing that is done later changes this. -/
theorem hb_keep (cfg : Cfg) :
    (∀ (toks : List (Tok α)) (m : Bool) (st : St α) (r : R α), getSimple cfg toks m st = some r →
      HB st.buf → ∀ t' st', r = .ok (t', st') → HB st'.buf) ∧
    (∀ (toks : List (Tok α)) (m : Bool) (st : St α) (r : R α), getExpr cfg toks m st = some r →
      HB st.buf → ∀ t' st', r = .ok (t', st') → HB st'.buf) ∧
    (∀ (toks : List (Tok α)) (m : Bool) (b p tl : Nat) (st : St α) (r : R α), orLoop cfg toks m b p tl st = some r →
      HB st.buf → ∀ t' st', r = .ok (t', st') → HB st'.buf) ∧
    (∀ (toks : List (Tok α)) (m : Bool) (st : St α) (r : R α), getAnd cfg toks m st = some r →
      HB st.buf → ∀ t' st', r = .ok (t', st') → HB st'.buf) ∧
    (∀ (toks : List (Tok α)) (m : Bool) (b tl : Nat) (st : St α) (r : R α), andLoop cfg toks m b tl st = some r →
      HB st.buf → ∀ t' st', r = .ok (t', st') → HB st'.buf) := by
  have hs : ∀ (toks : List (Tok α)) (m : Bool) (st : St α) (r : R α), (pure (simpleCode cfg toks m st) : Option (R α)) = some r →
      HB st.buf → ∀ t' st', r = .ok (t', st') → HB st'.buf := by
    intro toks m st r h hb t' st' hr
    obtain ⟨ls, e⟩ := simpleCode_buf (cfg := cfg) (toks := toks) (m := m) (st := st) (t' := t') (st' := st') (by
      have : simpleCode cfg toks m st = r := by simpa using h
      rw [this, hr])
    rw [e]
    exact hb.append _
  apply getSimple.mutual_partial_correctness cfg
    (fun _ _ st r => HB st.buf → ∀ t' st', r = .ok (t', st') → HB st'.buf)
    (fun _ _ st r => HB st.buf → ∀ t' st', r = .ok (t', st') → HB st'.buf)
    (fun _ _ _ _ _ st r => HB st.buf → ∀ t' st', r = .ok (t', st') → HB st'.buf)
    (fun _ _ st r => HB st.buf → ∀ t' st', r = .ok (t', st') → HB st'.buf)
    (fun _ _ _ _ st r => HB st.buf → ∀ t' st', r = .ok (t', st') → HB st'.buf)
  · intro gs ge ih1 ih2 toks m st r h hb t' st' hr
    subst hr
    split at h
    · exact ih1 _ _ _ _ h hb _ _ rfl
    · split at h
      · cases hg : ge _ m st with
        | none => rw [hg] at h; cases h
        | some x =>
          rw [hg] at h
          simp only [bind, Option.bind] at h
          split at h
          · cases h
            exact ih2 _ _ _ _ hg hb _ _ rfl
          · cases h
          · cases h
      · exact hs _ _ _ _ h hb _ _ rfl
    · exact hs _ _ _ _ h hb _ _ rfl
  · intro lo ga ih1 ih2 toks m st r h hb t' st' hr
    subst hr
    cases hg : ga toks m st with
    | none => rw [hg] at h; cases h
    | some x =>
      rw [hg] at h
      simp only [bind, Option.bind] at h
      split at h
      · cases h
      · exact ih1 _ _ _ _ _ _ _ h (ih2 _ _ _ _ hg hb _ _ rfl) _ _ rfl
  · intro lo ga ih1 ih2 toks m b p tl st r h hb t' st' hr
    subst hr
    split at h
    · dsimp only at h
      have hb' : HB (if m = true then (tl, st) else orFix cfg b p tl st).2.buf := by
        split
        · exact hb
        · exact hb.orFix _ _ _ _
      generalize (if m = true then (tl, st) else orFix cfg b p tl st) = q at h hb'
      obtain ⟨tl', st1⟩ := q
      dsimp only at h hb'
      cases hg : ga _ m { st1 with lasttrue := 0 } with
      | none => rw [hg] at h; cases h
      | some x =>
        rw [hg] at h
        simp only [bind, Option.bind] at h
        split at h
        · cases h
        · exact ih1 _ _ _ _ _ _ _ h (ih2 _ _ _ _ hg hb' _ _ rfl) _ _ rfl
    · split at h
      · cases h
      · rename_i he
        cases h
        exact hb.orEnd _ _ he
  · intro gs lo ih1 ih2 toks m st r h hb t' st' hr
    subst hr
    cases hg : gs toks m st with
    | none => rw [hg] at h; cases h
    | some x =>
      rw [hg] at h
      simp only [bind, Option.bind] at h
      split at h
      · cases h
      · exact ih2 _ _ _ _ _ _ h (ih1 _ _ _ _ hg hb _ _ rfl) _ _ rfl
  · intro gs lo ih1 ih2 toks m b tl st r h hb t' st' hr
    subst hr
    split at h
    · dsimp only at h
      have hb' : HB (if m = true then andFix cfg b tl st else (tl, st)).2.buf := by
        split
        · exact hb.andFix _ _ _
        · exact hb
      generalize (if m = true then andFix cfg b tl st else (tl, st)) = q at h hb'
      obtain ⟨tl', st1⟩ := q
      dsimp only at h hb'
      cases hg : gs _ m { st1 with lasttrue := 0 } with
      | none => rw [hg] at h; cases h
      | some x =>
        rw [hg] at h
        simp only [bind, Option.bind] at h
        split at h
        · cases h
        · exact ih2 _ _ _ _ _ _ h (ih1 _ _ _ _ hg hb' _ _ rfl) _ _ rfl
    · cases h
      exact hb.andEnd _

theorem headOk_flag (f : FlagOp) (neg : Bool) (l : Nat) : headOk (.jump (jcc (flaginstr f) neg) l : Line α) := by
  cases f <;> cases neg <;> simp [headOk, jcc, flaginstr]

theorem hb_ins {st : St α} (hb : st.buf = []) {i : Ins α} {r : List (Line α)} {k : Nat} : HB (st.emit (.ins i :: r) k).buf :=
  ⟨.ins i, r, by simp [St.emit, hb], trivial⟩

theorem Atom.head {cfg : Cfg} {a : Atom α} {t t' : List (Tok α)} {m : Bool} {st st' : St α}
    (ha : a.isConst = false) (hb : st.buf = []) (ht : stop 0 t = true)
    (h : getSimple cfg (a.print ++ t) m st = some (.ok (t', st'))) : HB st'.buf := by
  have hgo : getOp t = (none, t) := by
    match t, ht with
    | [], _ => rfl
    | .rpar :: _, _ => rfl
    | .cop .and :: _, _ => rfl
    | .cop .or :: _, _ => rfl
    | .cop (.cmp _) :: _, ht => simp [stop] at ht
    | .cop .andb :: _, ht => simp [stop] at ht
    | .cop .neg :: _, ht => simp [stop] at ht
    | .cop (.flag _) :: _, ht => simp [stop] at ht
    | .lpar :: _, ht => simp [stop] at ht
    | .opnd _ :: _, ht => simp [stop] at ht
  cases a with
  | val a =>
    simp only [Atom.print] at h
    rw [getSimple_op] at h
    simp only [simpleCode, getToken_print, hgo, genValue] at h
    simp only [Atom.isConst] at ha
    cases hk : a.o.kind with
    | const v => rw [hk] at ha; cases ha
    | float => rw [hk] at h; cases h
    | reg => rw [hk] at h; cases h; exact hb_ins hb
    | regInd => rw [hk] at h; cases h; exact hb_ins hb
    | addr => rw [hk] at h; cases h; exact hb_ins hb
  | band a b =>
    simp only [Atom.print, List.append_assoc] at h
    rw [getSimple_op] at h
    simp only [simpleCode, getToken_print, List.cons_append, List.nil_append, getOp, genBinary] at h
    split at h
    · cases h
    · cases h; exact hb_ins hb
  | cmp c a b =>
    simp only [Atom.print, List.append_assoc] at h
    rw [getSimple_op] at h
    simp only [simpleCode, getToken_print, List.cons_append, List.nil_append, getOp, genBinary] at h
    split at h
    · cases h
    · cases hi : cmpIns cfg c a.o b.o with
      | none => rw [hi] at h; cases h
      | some i => rw [hi] at h; cases h; exact hb_ins hb
  | flag f =>
    simp only [Atom.print, List.cons_append, List.nil_append] at h
    rw [getSimple.eq_def] at h
    simp only [simpleCode, getToken, getOp] at h
    cases h
    exact ⟨.jump (jcc (flaginstr f) (!m)) cfg.lbl, [], by simp [St.emit, hb], headOk_flag f _ _⟩

mutual
theorem Simple.head (env : Env α) {cfg : Cfg} : (s : Simple α) → {t t' : List (Tok α)} → {m : Bool} → {st st' : St α} →
    s.ok env → s.fst.isConst = false → st.buf = [] → stop 0 t = true →
    getSimple cfg (s.print ++ t) m st = some (.ok (t', st')) → HB st'.buf
  | .atom a, t, t', m, st, st', _, ha, hb, ht, h => by
    simp only [Simple.print] at h
    exact Atom.head ha hb ht h
  | .not s, t, t', m, st, st', hok, ha, hb, ht, h => by
    simp only [Simple.print, List.cons_append] at h
    rw [getSimple.eq_def] at h
    exact Simple.head env s hok ha hb ht h
  | .paren e, t, t', m, st, st', hok, ha, hb, ht, h => by
    simp only [Simple.ok] at hok
    simp only [Simple.print, List.cons_append, List.append_assoc, List.nil_append] at h
    rw [getSimple.eq_def] at h
    have : isHll 1 (e.print ++ .rpar :: t) = true := by rw [isHll_or e 1 (by omega), hok.1]; rfl
    simp only [this, if_true] at h
    cases hg : getExpr cfg (e.print ++ .rpar :: t) m st with
    | none => rw [hg] at h; cases h
    | some x =>
      rw [hg] at h
      simp only [bind, Option.bind] at h
      split at h
      · cases h
        exact OrE.head env e hok.2 ha hb rfl hg
      · cases h
      · cases h
theorem AndE.head (env : Env α) {cfg : Cfg} : (s : AndE α) → {t t' : List (Tok α)} → {m : Bool} → {st st' : St α} →
    s.ok env → s.fst.isConst = false → st.buf = [] → stop 1 t = true →
    getAnd cfg (s.print ++ t) m st = some (.ok (t', st')) → HB st'.buf
  | s, t, t', m, st, st', hok, ha, hb, ht, h => by
    rw [getAnd.eq_def] at h
    cases hg : getSimple cfg (s.print ++ t) m st with
    | none => rw [hg] at h; cases h
    | some x =>
      rw [hg] at h
      simp only [bind, Option.bind] at h
      split at h
      · cases h
      · have : HB _ := match s, hok, ha, hg with
          | .one s, hok, ha, hg => Simple.head env s hok ha hb (stop_mono (by omega) ht) (by simpa only [AndE.print] using hg)
          | .cons s r, hok, ha, hg => Simple.head env s hok.1 ha hb (t := .cop .and :: (r.print ++ t)) rfl
              (by simpa only [AndE.print, List.append_assoc, List.cons_append] using hg)
        exact (hb_keep cfg).2.2.2.2 _ _ _ _ _ _ h this _ _ rfl
theorem OrE.head (env : Env α) {cfg : Cfg} : (s : OrE α) → {t t' : List (Tok α)} → {m : Bool} → {st st' : St α} →
    s.ok env → s.fst.isConst = false → st.buf = [] → stop 2 t = true →
    getExpr cfg (s.print ++ t) m st = some (.ok (t', st')) → HB st'.buf
  | s, t, t', m, st, st', hok, ha, hb, ht, h => by
    rw [getExpr.eq_def] at h
    cases hg : getAnd cfg (s.print ++ t) m st with
    | none => rw [hg] at h; cases h
    | some x =>
      rw [hg] at h
      simp only [bind, Option.bind] at h
      split at h
      · cases h
      · have : HB _ := match s, hok, ha, hg with
          | .one s, hok, ha, hg => AndE.head env s hok ha hb (stop_mono (by omega) ht) (by simpa only [OrE.print] using hg)
          | .cons s r, hok, ha, hg => AndE.head env s hok.1 ha hb (t := .cop .or :: (r.print ++ t)) rfl
              (by simpa only [OrE.print, List.append_assoc, List.cons_append] using hg)
        exact (hb_keep cfg).2.2.1 _ _ _ _ _ _ _ h this _ _ rfl
end

end
end Verif.Hll
