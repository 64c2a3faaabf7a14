import Verif.Hll.BlocksStack
/-! The code of a program: main induction. -/
namespace Verif.Hll
section
variable {α β S : Type} (M : Mach α β S)

/-- Result of a piece of source. -/
structure Res (st st' : HSt α β) (code : List (BLine α β)) (sh : Lbl → List (BLine α β) → Prop) : Prop where
  cnt : st.cnt ≤ st'.cnt
  upd : Upd st.cnt st'.cnt st.stack st'.stack
  shape : ∀ L, StackCompat L st'.stack → sh L code
  defs : Defs code (fun l => st.cnt < l ∧ l ≤ st'.cnt ∧ l ∉ stackLabs st'.stack)

theorem Res.inv {st st' : HSt α β} {code : List (BLine α β)} {sh : Lbl → List (BLine α β) → Prop} (h : Res st st' code sh) (hi : Inv' st) :
    Inv' st' := h.upd.inv h.cnt hi

/-- The labels of the outer blocks are not those which are defined in (c0, c1]. -/
theorem Upd.fresh {c0 c1 c2 : Nat} {s s' : List (Item α β)} (h : Upd c1 c2 s s') (hi : Inv' ⟨s, c0⟩) {l : Nat} (h1 : c0 < l) (h2 : l ≤ c1) :
    l ∉ stackLabs s' := by
  intro hl
  rcases h.labs hl with h' | h'
  · have := hi.labs (st := ⟨s, c0⟩) h'; simp only at this; omega
  · omega

theorem exit_comp [Nonempty S] (masm isBreak : Bool) (c : Option (OrE α)) (st : HSt α β) (hl : hasLoop st.stack) (hi : Inv' st)
    (hc : ∀ x, c = some x → condGood M x true) :
    ∃ st' code, exitDir masm isBreak st (c.map OrE.print) = some (st', code) ∧
      Res st st' code (fun L code => (if isBreak then Stmt.brk (β := β) c else Stmt.cont c).Shape M L code) := by
  obtain ⟨s', c', l, h1, h2, h3, h4⟩ := onLoop_ok (f := exitLabel isBreak) (cnt := st.cnt) hl hi
    (fun x' c' l => l = (if isBreak then x'.lexit else contLab x') ∧ l ≠ 0 ∧ l ≤ c')
    (fun x hx hok => exitLabel_ok isBreak st.cnt x hx hok)
  have key : ∀ L, StackCompat L s' → l = (if isBreak then L.brk else L.cont) := by
    intro L hL
    obtain ⟨x', hx, _, e, h0, _⟩ := h4 L hL
    cases isBreak with
    | true => simp only [if_true] at e ⊢; rw [hx.1 (by omega), e]
    | false => simp only [Bool.false_eq_true, if_false] at e ⊢; rw [hx.2 (by omega), e]
  have hl' : l ≠ 0 ∧ l ≤ c' := by
    -- some compatible labels exist
    have hex : ∀ s : List (Item α β), ∃ L, StackCompat L s := by
      intro s
      induction s with
      | nil => exact ⟨⟨0, 0⟩, trivial⟩
      | cons x r ih =>
        by_cases hx : x.cmd = .ifc
        · obtain ⟨L, hL⟩ := ih
          exact ⟨L, .inl ⟨hx, hL⟩⟩
        · exact ⟨⟨x.lexit, contLab x⟩, .inr ⟨hx, fun _ => rfl, fun _ => rfl⟩⟩
    obtain ⟨L, hL⟩ := hex s'
    obtain ⟨_, _, _, _, h0, h1⟩ := h4 L hL
    exact ⟨h0, h1⟩
  unfold exitDir
  rw [h1]
  cases c with
  | none =>
    refine ⟨⟨s', c'⟩, [jmpTo l], rfl, h2, h3, ?_, (Defs.jmp l).mono (fun _ h => h.elim)⟩
    intro L hL
    have := key L hL
    cases isBreak with
    | true => simp only [if_true] at this ⊢; subst this; exact ⟨hl'.1, rfl⟩
    | false => simp only [Bool.false_eq_true, if_false] at this ⊢; subst this; exact ⟨hl'.1, rfl⟩
  | some x =>
    obtain ⟨code, c2, h5, h6, h7, h8, _⟩ := cond_comp M x true false masm l c' (hc x rfl) (by omega) hl'.2
    simp only [Option.map_some, h5]
    refine ⟨⟨s', c2⟩, gens code, rfl, by show st.cnt ≤ c2; omega, h3.up h7, ?_, h8.mono ?_⟩
    · intro L hL
      have := key L hL
      cases isBreak with
      | true => simp only [if_true] at this ⊢; subst this; exact ⟨hl'.1, code, h6, rfl⟩
      | false => simp only [Bool.false_eq_true, if_false] at this ⊢; subst this; exact ⟨hl'.1, code, h6, rfl⟩
    · intro y hy
      refine ⟨by omega, hy.2, fun hm => ?_⟩
      have := (h3.inv h2 hi).labs hm
      simp only at this; omega

theorem lab_eq {l : Nat} (h : l ≠ 0) : (lab l : List (BLine α β)) = [label1 l] := by simp [lab, h, label1]

/-- Push of a block: the new item is fresh. -/
theorem Inv'.push {s : List (Item α β)} {c c' : Nat} (h : Inv' ⟨s, c⟩) (hc : c ≤ c') {x : Item α β} (hx : ItemOk c' x) : Inv' ⟨x :: s, c'⟩ := by
  intro y hy
  rcases List.mem_cons.1 hy with rfl | hy
  · exact hx
  · exact (h y hy).mono hc

theorem upd_if {c c' : Nat} {x : Item α β} {r s' : List (Item α β)} (hx : x.cmd = .ifc) (h : Upd c c' (x :: r) s') :
    ∃ r', s' = x :: r' ∧ Upd c c' r r' := by
  rcases h with ⟨_, h⟩ | ⟨h, _⟩
  · exact h
  · exact absurd hx h

theorem upd_loop {c c' : Nat} {x : Item α β} {r s' : List (Item α β)} (hx : x.cmd ≠ .ifc) (h : Upd c c' (x :: r) s') :
    ∃ x', s' = x' :: r ∧ ItemUpd c c' x x' := by
  rcases h with ⟨h, _⟩ | ⟨_, h⟩
  · exact absurd h hx
  · exact h

mutual
theorem Stmt.comp [Nonempty S] (masm : Bool) : (p : Stmt (OrE α) β) → (inLoop : Bool) → (st : HSt α β) → p.Ok (condGood M) inLoop →
    (inLoop = true → hasLoop st.stack) → Inv' st →
    ∃ st' code, runDirs masm st (p.print OrE.print) = some (st', code) ∧ Res st st' code (fun L code => p.Shape M L code)
  | .skip, il, st, hok, hl, hi => ⟨st, [], rfl, by omega, .refl _ _, fun L _ => rfl, Defs.nil⟩
  | .user u, il, st, hok, hl, hi =>
    ⟨st, [.user u], rfl, by omega, .refl _ _, fun L _ => rfl, by simp [labelsOf], by simp [labelsOf]⟩
  | .seq a b, il, st, hok, hl, hi => by
    obtain ⟨st1, c1, h1, r1⟩ := Stmt.comp masm a il st hok.1 hl hi
    obtain ⟨st2, c2, h2, r2⟩ := Stmt.comp masm b il st1 hok.2 (fun h => r1.upd.hasLoop (hl h)) (r1.inv hi)
    have := r1.cnt
    have := r2.cnt
    refine ⟨st2, c1 ++ c2, runDirs_append h1 h2, by omega, r1.upd.trans r2.upd r1.cnt r2.cnt,
      fun L hL => ⟨c1, c2, r1.shape L (r2.upd.compat hL), r2.shape L hL, rfl⟩, r1.defs.append r2.defs ?_ ?_ ?_⟩
    · intro l h h'; omega
    · intro l h
      refine ⟨h.1, by omega, fun hm => ?_⟩
      rcases r2.upd.labs hm with h' | h'
      · exact h.2.2 h'
      · omega
    · intro l h; exact ⟨by omega, h.2⟩
  | .ifs c t e, il, st, hok, hl, hi => by
    obtain ⟨code, c1, h5, h6, h7, h8, _⟩ := cond_comp M c false false masm (st.cnt + 1) (st.cnt + 1) hok.1 (by omega) (by omega)
    have hpush : Inv' (α := α) (β := β) ⟨{ cmd := .ifc, ltest := if code.isEmpty then 0 else st.cnt + 1 } :: st.stack, c1⟩ := by
      refine Inv'.push (c := st.cnt) hi (by omega) ⟨⟨by simp, ?_, by simp, by simp⟩, ⟨by simp, by simp, by simp⟩, by simp⟩
      simp only
      split <;> omega
    have hstep : stepDir masm st (.if_ c.print) = some (⟨{ cmd := .ifc, ltest := if code.isEmpty then 0 else st.cnt + 1 } :: st.stack, c1⟩, gens code) := by
      simp only [stepDir, h5]
    generalize hx : ({ cmd := .ifc, ltest := if code.isEmpty then 0 else st.cnt + 1 } : Item α β) = x at hpush hstep
    have hcmd : x.cmd = .ifc := by rw [← hx]
    have hexit : x.lexit = 0 := by rw [← hx]
    have helse : x.elseOcc = false := by rw [← hx]
    have htest : x.ltest = if code.isEmpty then 0 else st.cnt + 1 := by rw [← hx]
    obtain ⟨⟨s2, c2⟩, tc, h2, r2⟩ := Stmt.comp masm t il ⟨x :: st.stack, c1⟩ hok.2.1 (fun h => .inr (hl h)) hpush
    obtain ⟨r', rfl, hu⟩ := upd_if hcmd r2.upd
    have hi2 := r2.inv hpush
    obtain ⟨st3, ec, le, h3, hc3, hu3, hle, hsh, hd⟩ := Els.comp masm e il x r' c2 hok.2.2 hcmd helse (fun h => hu.hasLoop (hl h)) hi2
    have k1 := r2.cnt
    simp only at k1 hu
    refine ⟨st3, gens code ++ (tc ++ ec), runDirs_cons hstep (runDirs_append h2 h3), by omega,
      ((Upd.refl' (by omega) _).trans hu (by omega) k1).trans hu3 (by omega) hc3, ?_, ?_⟩
    · intro L hL
      refine ⟨x.ltest, le, code, tc, ec, ?_, ?_, r2.shape L (.inl ⟨hcmd, hu3.compat hL⟩), hsh L hL, rfl⟩
      · rw [htest]
        split
        · rename_i he
          have he : code = [] := by simpa using he
          intro s f
          have := h6 s f
          subst he
          by_cases hv : (c.eval (M.env s) f).1 = false
          · rw [if_pos hv] at this
            exact absurd (Run.det _ this (.done rfl)).1 (by simp)
          · rw [if_neg hv] at this ⊢; exact this
        · exact h6
      · intro h
        rw [htest] at h
        split at h
        · rename_i he; simpa using he
        · omega
    · have hfr : ∀ l, st.cnt < l → l ≤ c1 → l ∉ stackLabs st3.stack := by
        intro l h1 h2 hm
        rcases hu3.labs hm with h' | h'
        · rcases hu.labs h' with h'' | h''
          · have := hi.labs h''; omega
          · omega
        · omega
      refine h8.append (r2.defs.append hd (A := fun l => c1 < l ∧ l ≤ c2 ∧ l ∉ stackLabs (x :: r'))
        (D := fun l => st.cnt < l ∧ l ≤ st3.cnt ∧ l ∉ stackLabs st3.stack ∧ ¬ (st.cnt + 1 < l ∧ l ≤ c1)) ?_ ?_ ?_) ?_ ?_ ?_
      · intro l h h'
        rw [stackLabs_cons] at h
        rw [hexit, htest] at h'
        rcases h' with h' | h' | h'
        · omega
        · split at h' <;> omega
        · omega
      · intro l h
        refine ⟨by omega, by omega, fun hm => ?_, by omega⟩
        rcases hu3.labs hm with h' | h'
        · exact h.2.2 ((stackLabs_cons _ _ _).2 (.inr (.inr (.inr (.inr h')))))
        · omega
      · intro l h
        rw [hexit, htest] at h
        rcases h with h | h | h
        · exact ⟨by omega, by omega, h.2.2, by omega⟩
        · split at h
          · omega
          · exact ⟨by omega, by omega, hfr l (by omega) (by omega), by omega⟩
        · omega
      · intro l h h'; exact h'.2.2.2 h
      · intro l h; exact ⟨by omega, by omega, hfr l (by omega) (by omega)⟩
      · intro l h; exact ⟨h.1, h.2.1, h.2.2.1⟩
  | .whil c b, il, st, hok, hl, hi => by
    obtain ⟨code, c1, h5, h6, h7, h8, h9⟩ := cond_comp M c true false masm (st.cnt + 1) (st.cnt + 1) hok.1 (by omega) (by omega)
    obtain ⟨hj, _⟩ := loopOk_comp M hok.1 hok.2.1 h5 h9
    -- the item
    have hstep : ∃ x c2, stepDir masm st (.while_ c.print) = some (⟨x :: st.stack, c2⟩, (if x.ltest = 0 then [] else [jmpTo x.ltest]) ++ [label1 (st.cnt + 1)]) ∧
        x.cmd = .whilec ∧ x.lstart = st.cnt + 1 ∧ x.condlines = code ∧ x.lexit = 0 ∧ x.lcont = 0 ∧ c1 ≤ c2 ∧
        ((x.ltest = 0 ∧ ∀ st, condEv M c st = (true, st)) ∨ (c1 < x.ltest ∧ x.ltest ≤ c2)) := by
      have hpr : (OrE.print c).isEmpty = false := by simp [OrE.print_ne]
      simp only [stepDir, whileCond, hpr, Bool.false_eq_true, if_false, h5]
      split
      · rename_i hs
        exact ⟨_, _, rfl, rfl, rfl, rfl, rfl, rfl, by omega, .inl ⟨rfl, hj hs⟩⟩
      · exact ⟨_, _, rfl, rfl, rfl, rfl, rfl, rfl, by omega, .inr ⟨by simp, by simp⟩⟩
    obtain ⟨x, c2, hstep, k1, k2, k3, k4, k5, k6, k7⟩ := hstep
    have hpush : Inv' (α := α) (β := β) ⟨x :: st.stack, c2⟩ :=
      Inv'.push (c := st.cnt) hi (by omega) ⟨by omega, ⟨by omega, by omega, by omega⟩, by omega⟩
    have hcmd : x.cmd ≠ .ifc := by rw [k1]; decide
    obtain ⟨⟨s3, c3⟩, bc, h2, r2⟩ := Stmt.comp masm b true ⟨x :: st.stack, c2⟩ hok.2.2 (fun _ => .inl hcmd) hpush
    obtain ⟨x', rfl, hu⟩ := upd_loop hcmd r2.upd
    have hi3 := r2.inv hpush
    have e1 : x'.cmd = .whilec := by rw [hu.same]; exact k1
    have e2 : x'.lstart = st.cnt + 1 := by rw [hu.same]; exact k2
    have e3 : x'.condlines = code := by rw [hu.same]; exact k3
    have e4 : x'.ltest = x.ltest := by
      rcases hu.ltest with h | h
      · exact h
      · rw [k1] at h; cases h.1
    have kc := r2.cnt
    have hxo := hi3 x' (by simp)
    obtain ⟨⟨b1, b2, b3, b4⟩, ⟨n1, n2, n3⟩, _⟩ := hxo
    simp only at kc b1 b2 b3 b4
    have hend : stepDir masm ⟨x' :: st.stack, c3⟩ .endw = some (⟨st.stack, c3⟩, lab x'.ltest ++ gens code ++ lab x'.lexit) := by
      simp only [stepDir, e1, if_true, e3]
    have hlx : x'.lexit = 0 ∨ (c2 < x'.lexit ∧ x'.lexit ≤ c3) := hu.lexit.imp (fun h => h.trans k4) (fun h => h.2)
    refine ⟨⟨st.stack, c3⟩, _, runDirs_cons hstep (runDirs_append h2 (runDirs_one hend)), by show st.cnt ≤ c3; omega,
      .refl' (by show st.cnt ≤ c3; omega) _, ?_, ?_⟩
    · intro L _
      have hsh := r2.shape ⟨x'.lexit, if x.ltest = 0 then st.cnt + 1 else x.ltest⟩ (.inr ⟨by rw [e1]; decide, fun _ => rfl, fun _ => by
        simp only [contLab, e1, e2, e4]⟩)
      refine ⟨st.cnt + 1, x.ltest, x'.lexit, bc, code, by omega, hsh, h6, ?_⟩
      rcases k7 with ⟨k7, k8⟩ | k7
      · refine .inr ⟨k7, k8, ?_⟩
        rw [e4, k7]
        simp [lab]
      · have : x.ltest ≠ 0 := by omega
        refine .inl ⟨this, ?_⟩
        rw [e4, lab_eq this, if_neg this]
        simp
    · have d1 : Defs ((if x.ltest = 0 then [] else [jmpTo x.ltest]) ++ [label1 (st.cnt + 1)] : List (BLine α β)) (fun l => l = st.cnt + 1) := by
        rw [← lab_eq (by omega : st.cnt + 1 ≠ 0)]
        refine Defs.append (A := fun _ => False) ?_ (Defs.lab _) (fun _ h => h.elim) (fun _ h => h.elim) (fun _ h => h.1)
        split
        · exact Defs.nil
        · exact Defs.jmp _
      have hfr : ∀ l, st.cnt < l → l ∉ stackLabs st.stack := by
        intro l hl hm
        have := hi.labs hm; omega
      have d2 : Defs (lab x'.ltest ++ gens code ++ lab x'.lexit : List (BLine α β)) (fun l => (st.cnt + 1 < l ∧ l ≤ c2) ∨ (l = x'.lexit ∧ l ≠ 0)) := by
        refine Defs.append (A := fun l => st.cnt + 1 < l ∧ l ≤ c2) (Defs.append (Defs.lab _) h8 ?_ ?_ ?_) (Defs.lab _) ?_ (fun _ h => .inl h) (fun _ h => .inr (by omega))
        · intro l h h'; rcases k7 with k7 | k7 <;> omega
        · intro l h; rcases k7 with k7 | k7 <;> omega
        · intro l h; omega
        · intro l h h'
          omega
      refine d1.append (r2.defs.append d2 (D := fun l => st.cnt + 1 < l ∧ l ≤ c3) ?_ ?_ ?_) ?_ ?_ ?_
      · intro l h h'
        simp only at h
        rw [stackLabs_cons] at h
        rcases h' with h' | h'
        · omega
        · exact h.2.2 (.inr (.inr (.inl h'.1)))
      · intro l h; simp only at h; omega
      · intro l h; rcases h with h | h <;> omega
      · intro l h h'; omega
      · intro l h; exact ⟨by omega, by show l ≤ c3; omega, hfr l (by omega)⟩
      · intro l h; exact ⟨by omega, h.2, hfr l (by omega)⟩
  | .rep b u, il, st, hok, hl, hi => by
    let x : Item α β := { cmd := .repeatc, lstart := st.cnt + 1 }
    have hpush : Inv' (α := α) (β := β) ⟨x :: st.stack, st.cnt + 1⟩ :=
      Inv'.push (c := st.cnt) hi (by omega) ⟨⟨Nat.le_refl _, Nat.zero_le _, Nat.zero_le _, Nat.zero_le _⟩,
        ⟨fun h => absurd rfl h, fun h => absurd rfl h, fun h => absurd rfl h⟩, fun _ => Nat.succ_ne_zero _⟩
    have hcmd : x.cmd ≠ .ifc := by show Cmd.repeatc ≠ .ifc; decide
    have hstep : stepDir masm st (.repeat_) = some (⟨x :: st.stack, st.cnt + 1⟩, [label1 (st.cnt + 1)]) := by
      simp only [stepDir]; rfl
    obtain ⟨⟨s3, c3⟩, bc, h2, r2⟩ := Stmt.comp masm b true ⟨x :: st.stack, st.cnt + 1⟩ hok.1 (fun _ => .inl hcmd) hpush
    obtain ⟨x', rfl, hu⟩ := upd_loop hcmd r2.upd
    have hi3 := r2.inv hpush
    have e1 : x'.cmd = .repeatc := by rw [hu.same]
    have e2 : x'.lstart = st.cnt + 1 := by rw [hu.same]
    have kc := r2.cnt
    have hxo := hi3 x' (by simp)
    obtain ⟨⟨b1, b2, b3, b4⟩, ⟨n1, n2, n3⟩, _⟩ := hxo
    simp only at kc b1 b2 b3 b4
    have hlx : x'.lexit = 0 ∨ (st.cnt + 1 < x'.lexit ∧ x'.lexit ≤ c3) := hu.lexit.imp id (fun h => h.2)
    have hlt : x'.ltest = 0 ∨ (st.cnt + 1 < x'.ltest ∧ x'.ltest ≤ c3) := hu.ltest.imp id (fun h => h.2.2)
    have hend : ∃ c4 uc, stepDir masm ⟨x' :: st.stack, c3⟩ (u.print OrE.print) = some (⟨st.stack, c4⟩, lab x'.ltest ++ uc ++ lab x'.lexit) ∧
        c3 ≤ c4 ∧ u.Shape M (st.cnt + 1) uc ∧ Defs uc (fun l => c3 < l ∧ l ≤ c4) := by
      have hu := hok.2
      cases u with
      | cond c =>
        obtain ⟨code, c4, h5, h6, h7, h8, _⟩ := cond_comp M c false true masm (st.cnt + 1) c3 hu (by omega) (by omega)
        refine ⟨c4, gens code, ?_, h7, ⟨code, rfl, h6⟩, h8⟩
        have : (OrE.print c).isEmpty = false := by simp [OrE.print_ne]
        simp only [Until.print, stepDir, e1, this, e2, h5]
        simp
      | cxz =>
        refine ⟨c3, [.loop .loop (st.cnt + 1)], ?_, by omega, rfl, by simp [labelsOf], by simp [labelsOf]⟩
        simp only [Until.print, stepDir, e1, e2]
        simp
      | cxzCond c =>
        obtain ⟨hg, s, hs, hx⟩ := hu
        obtain ⟨code, cc, h5, h6, h7, h8⟩ := cxz_comp M hg hs hx masm (by omega : 0 < st.cnt + 1) (by omega : st.cnt + 1 ≤ c3)
        refine ⟨c3, cc, ?_, by omega, h7, h8.mono (fun _ h => h.elim)⟩
        have : (OrE.print c).isEmpty = false := by simp [OrE.print_ne]
        simp only [Until.print, stepDir, e1, this, e2, h5, h6]
        simp
    obtain ⟨c4, uc, hend, k4, hush, hud⟩ := hend
    refine ⟨⟨st.stack, c4⟩, _, runDirs_cons hstep (runDirs_append h2 (runDirs_one hend)), by show st.cnt ≤ c4; omega,
      .refl' (by show st.cnt ≤ c4; omega) _, ?_, ?_⟩
    · intro L _
      have hsh := r2.shape ⟨x'.lexit, x'.ltest⟩ (.inr ⟨by rw [e1]; decide, fun _ => rfl, fun _ => by simp only [contLab, e1]⟩)
      refine ⟨st.cnt + 1, x'.ltest, x'.lexit, bc, uc, by omega, hsh, hush, ?_⟩
      simp
    · have d1 : Defs ([label1 (st.cnt + 1)] : List (BLine α β)) (fun l => l = st.cnt + 1) := by
        rw [← lab_eq (by omega : st.cnt + 1 ≠ 0)]
        exact (Defs.lab _).mono (fun _ h => h.1)
      have hfr : ∀ l, st.cnt < l → l ∉ stackLabs st.stack := by
        intro l hl hm
        have := hi.labs hm; omega
      have d2 : Defs (lab x'.ltest ++ uc ++ lab x'.lexit : List (BLine α β)) (fun l => (c3 < l ∧ l ≤ c4) ∨ (l = x'.ltest ∧ l ≠ 0) ∨ (l = x'.lexit ∧ l ≠ 0)) := by
        refine Defs.append (A := fun l => (c3 < l ∧ l ≤ c4) ∨ (l = x'.ltest ∧ l ≠ 0)) (Defs.append (Defs.lab _) hud ?_ ?_ ?_) (Defs.lab _) ?_
          (fun _ h => by omega) (fun _ h => .inr (.inr (by omega)))
        · intro l h h'; omega
        · intro l h; exact .inr (by omega)
        · intro l h; exact .inl h
        · intro l h h'; omega
      refine d1.append (r2.defs.append d2 (D := fun l => st.cnt + 1 < l ∧ l ≤ c4) ?_ ?_ ?_) ?_ ?_ ?_
      · intro l h h'
        simp only at h
        rw [stackLabs_cons] at h
        rcases h' with h' | h' | h'
        · omega
        · exact h.2.2 (.inr (.inl h'.1))
        · exact h.2.2 (.inr (.inr (.inl h'.1)))
      · intro l h; simp only at h; omega
      · intro l h; omega
      · intro l h h'; omega
      · intro l h; exact ⟨by omega, by show l ≤ c4; omega, hfr l (by omega)⟩
      · intro l h; exact ⟨by omega, h.2, hfr l (by omega)⟩
  | .forl init none count b, il, st, hok, hl, hi => by
    let x : Item α β := { cmd := .forc, lstart := st.cnt + 1, counter := count, lcont := if count.isEmpty then st.cnt + 1 else 0 }
    have hpush : Inv' (α := α) (β := β) ⟨x :: st.stack, st.cnt + 1⟩ := by
      refine Inv'.push (c := st.cnt) hi (by omega) ⟨⟨Nat.le_refl _, Nat.zero_le _, Nat.zero_le _, ?_⟩,
        ⟨fun h => absurd rfl h, fun h => absurd rfl h, fun h => .inr ⟨?_, rfl⟩⟩, fun _ => Nat.succ_ne_zero _⟩
      · show (if count.isEmpty then st.cnt + 1 else 0) ≤ st.cnt + 1
        split <;> omega
      · replace h : (if count.isEmpty then st.cnt + 1 else 0) ≠ 0 := h
        split at h
        · rename_i h'; show count = []; simpa using h'
        · exact absurd rfl h
    have hcmd : x.cmd ≠ .ifc := by show Cmd.forc ≠ .ifc; decide
    have hstep : stepDir masm st (.for_ init [] count) = some (⟨x :: st.stack, st.cnt + 1⟩, init.map .user ++ [label1 (st.cnt + 1)]) := by
      simp only [stepDir]; rfl
    obtain ⟨⟨s3, c3⟩, bc, h2, r2⟩ := Stmt.comp masm b true ⟨x :: st.stack, st.cnt + 1⟩ hok.2 (fun _ => .inl hcmd) hpush
    obtain ⟨x', rfl, hu⟩ := upd_loop hcmd r2.upd
    have hi3 := r2.inv hpush
    have e1 : x'.cmd = .forc := by rw [hu.same]
    have e2 : x'.lstart = st.cnt + 1 := by rw [hu.same]
    have e3 : x'.condlines = [] := by rw [hu.same]
    have e4 : x'.counter = count := by rw [hu.same]
    have kc := r2.cnt
    have hxo := hi3 x' (by simp)
    obtain ⟨⟨b1, b2, b3, b4⟩, ⟨n1, n2, n3⟩, _⟩ := hxo
    simp only at kc b1 b2 b3 b4
    have hlx : x'.lexit = 0 ∨ (st.cnt + 1 < x'.lexit ∧ x'.lexit ≤ c3) := hu.lexit.imp id (fun h => h.2)
    have hlc : (count = [] → x'.lcont = st.cnt + 1) ∧ (count ≠ [] → x'.lcont = 0 ∨ (st.cnt + 1 < x'.lcont ∧ x'.lcont ≤ c3)) := by
      have : x.lcont = if count.isEmpty then st.cnt + 1 else 0 := rfl
      have h3 := hu.lcont
      rw [this] at h3
      cases count with
      | nil => exact ⟨fun _ => by (rcases h3 with h3 | h3; exact h3; exact absurd h3.1 (by simp)), fun h => absurd rfl h⟩
      | cons a r => exact ⟨fun h => (by cases h), fun _ => h3.imp id (fun h => h.2)⟩
    have hend : stepDir masm ⟨x' :: st.stack, c3⟩ .endfor = some (⟨st.stack, c3⟩,
        (if count = [] then [] else lab x'.lcont) ++ count.map .user ++ [jmpTo (st.cnt + 1)] ++ lab x'.lexit) := by
      simp only [stepDir, e1, e2, e3, e4, if_true, List.isEmpty_nil]
      cases count with
      | nil => simp
      | cons a r =>
        simp
        by_cases h0 : x'.lcont = 0 <;> simp [h0, lab]
    have d1 : Defs (init.map .user ++ [label1 (st.cnt + 1)] : List (BLine α β)) (fun l => l = st.cnt + 1) := by
      rw [← lab_eq (by omega : st.cnt + 1 ≠ 0)]
      exact (Defs.users _).append (Defs.lab _) (fun _ h => h.elim) (fun _ h => h.elim) (fun _ h => h.1)
    have hfr : ∀ l, st.cnt < l → l ∉ stackLabs st.stack := by
      intro l hl hm
      have := hi.labs hm; omega
    have d2 : Defs ((if count = [] then [] else lab x'.lcont) ++ count.map .user ++ [jmpTo (st.cnt + 1)] ++ lab x'.lexit : List (BLine α β))
        (fun l => st.cnt + 1 < l ∧ (l = x'.lcont ∨ l = x'.lexit) ∧ l ≤ c3) := by
      refine Defs.append (A := fun l => l = x'.lcont ∧ l ≠ 0 ∧ count ≠ []) (Defs.append (B := fun _ => False) (Defs.append (B := fun _ => False)
        (A := fun l => l = x'.lcont ∧ l ≠ 0 ∧ count ≠ []) ?_ (Defs.users _)
        (fun _ _ h => h.elim) (fun _ h => h) (fun _ h => h.elim)) (Defs.jmp _) (fun _ _ h => h.elim) (fun _ h => h) (fun _ h => h.elim)) (Defs.lab _) ?_ ?_ ?_
      · split
        · exact Defs.nil
        · rename_i hc; exact (Defs.lab _).mono (fun l h => ⟨h.1, by omega, hc⟩)
      · intro l h h'; omega
      · intro l h; have := hlc.2 h.2.2; omega
      · intro l h; omega
    refine ⟨⟨st.stack, c3⟩, _, runDirs_cons hstep (runDirs_append h2 (runDirs_one hend)), by show st.cnt ≤ c3; omega,
      .refl' (by show st.cnt ≤ c3; omega) _, ?_, ?_⟩
    · intro L _
      have hsh := r2.shape ⟨x'.lexit, x'.lcont⟩ (.inr ⟨by rw [e1]; decide, fun _ => rfl, fun _ => by simp only [contLab, e1]⟩)
      refine ⟨st.cnt + 1, x'.lcont, x'.lexit, bc, by omega, ?_⟩
      by_cases hc : count = []
      · refine .inr ⟨?_, hc, ?_⟩
        · rw [hlc.1 hc] at hsh; exact hsh
        · simp [hc]
      · refine .inl ⟨hsh, ?_⟩
        simp [hc]
    · refine d1.append (r2.defs.append d2 (D := fun l => st.cnt + 1 < l ∧ l ≤ c3) ?_ ?_ ?_) ?_ ?_ ?_
      · intro l h h'
        simp only at h
        rw [stackLabs_cons] at h
        rcases h'.2.1 with h'' | h''
        · exact h.2.2 (.inr (.inr (.inr (.inl h''))))
        · exact h.2.2 (.inr (.inr (.inl h'')))
      · intro l h; simp only at h; omega
      · intro l h; omega
      · intro l h h'; omega
      · intro l h; exact ⟨by omega, by show l ≤ c3; omega, hfr l (by omega)⟩
      · intro l h; exact ⟨by omega, h.2, hfr l (by omega)⟩
  | .forl init (some c) count b, il, st, hok, hl, hi => by
    obtain ⟨hg, hlo, hnf⟩ := hok.1 c rfl
    obtain ⟨code, c1, h5, h6, h7, h8, h9⟩ := cond_comp M c true false masm (st.cnt + 1) (st.cnt + 1 + 1) hg (by omega) (by omega)
    have hne := (loopOk_comp M hg hlo h5 h9).2 hnf
    let x : Item α β := { cmd := .forc, lstart := st.cnt + 1, ltest := st.cnt + 1 + 1, condlines := code, counter := count }
    have hpush : Inv' (α := α) (β := β) ⟨x :: st.stack, c1⟩ := by
      refine Inv'.push (c := st.cnt) hi (by omega) ⟨⟨by show st.cnt + 1 ≤ c1; omega, h7, Nat.zero_le _, Nat.zero_le _⟩,
        ⟨fun h => absurd rfl h, fun h => ⟨by show st.cnt + 1 + 1 ≠ st.cnt + 1; omega, by show st.cnt + 1 + 1 ≠ 0; omega⟩, fun h => absurd rfl h⟩, fun _ => Nat.succ_ne_zero _⟩
    have hcmd : x.cmd ≠ .ifc := by show Cmd.forc ≠ .ifc; decide
    have hstep : stepDir masm st (.for_ init c.print count) = some (⟨x :: st.stack, c1⟩,
        init.map .user ++ [jmpTo (st.cnt + 1 + 1)] ++ [label1 (st.cnt + 1)]) := by
      have : (OrE.print c).isEmpty = false := by simp [OrE.print_ne]
      simp only [stepDir, this, h5]; rfl
    obtain ⟨⟨s3, c3⟩, bc, h2, r2⟩ := Stmt.comp masm b true ⟨x :: st.stack, c1⟩ hok.2 (fun _ => .inl hcmd) hpush
    obtain ⟨x', rfl, hu⟩ := upd_loop hcmd r2.upd
    have hi3 := r2.inv hpush
    have e1 : x'.cmd = .forc := by rw [hu.same]
    have e2 : x'.lstart = st.cnt + 1 := by rw [hu.same]
    have e3 : x'.condlines = code := by rw [hu.same]
    have e4 : x'.counter = count := by rw [hu.same]
    have e5 : x'.ltest = st.cnt + 1 + 1 := by
      rcases hu.ltest with h | h
      · exact h
      · exact absurd h.1 (by show Cmd.forc ≠ .repeatc; decide)
    have kc := r2.cnt
    have hxo := hi3 x' (by simp)
    obtain ⟨⟨b1, b2, b3, b4⟩, ⟨n1, n2, n3⟩, _⟩ := hxo
    simp only at kc b1 b2 b3 b4
    have hlx : x'.lexit = 0 ∨ (c1 < x'.lexit ∧ x'.lexit ≤ c3) := hu.lexit.imp id (fun h => h.2)
    have hlc : x'.lcont = 0 ∨ (c1 < x'.lcont ∧ x'.lcont ≤ c3) := hu.lcont.imp id (fun h => h.2)
    have hend : stepDir masm ⟨x' :: st.stack, c3⟩ .endfor = some (⟨st.stack, c3⟩,
        lab x'.lcont ++ count.map .user ++ (lab (st.cnt + 1 + 1) ++ gens code) ++ lab x'.lexit) := by
      have hce : code.isEmpty = false := by simpa using hne
      simp only [stepDir, e1, e3, e4, e5, if_true, hce]
      by_cases h0 : x'.lcont = 0 <;> simp [h0, lab]
    have d1 : Defs (init.map .user ++ [jmpTo (st.cnt + 1 + 1)] ++ [label1 (st.cnt + 1)] : List (BLine α β)) (fun l => l = st.cnt + 1) := by
      rw [← lab_eq (by omega : st.cnt + 1 ≠ 0)]
      exact ((Defs.users _).append (D := fun _ => False) (Defs.jmp _) (fun _ h => h.elim) (fun _ h => h.elim) (fun _ h => h.elim)).append (Defs.lab _)
        (fun _ h => h.elim) (fun _ h => h.elim) (fun _ h => h.1)
    have hfr : ∀ l, st.cnt < l → l ∉ stackLabs st.stack := by
      intro l hl hm
      have := hi.labs hm; omega
    have d2 : Defs (lab x'.lcont ++ count.map .user ++ (lab (st.cnt + 1 + 1) ++ gens code) ++ lab x'.lexit : List (BLine α β))
        (fun l => st.cnt + 1 < l ∧ (l = x'.lcont ∨ l = x'.lexit ∨ l ≤ c1) ∧ l ≤ c3) := by
      refine Defs.append (A := fun l => st.cnt + 1 < l ∧ (l = x'.lcont ∨ l ≤ c1)) (Defs.append (B := fun l => st.cnt + 1 < l ∧ l ≤ c1) (Defs.append (B := fun _ => False)
        (Defs.lab _) (Defs.users _)
        (fun _ _ h => h.elim) (fun _ h => h) (fun _ h => h.elim)) (Defs.append (Defs.lab _) h8 ?_ ?_ ?_) ?_ ?_ ?_) (Defs.lab _) ?_ ?_ ?_
      · intro l h h'; omega
      · intro l h; omega
      · intro l h; omega
      · intro l h h'; omega
      · intro l h; omega
      · intro l h; omega
      · intro l h h'; omega
      · intro l h; omega
      · intro l h; omega
    refine ⟨⟨st.stack, c3⟩, _, runDirs_cons hstep (runDirs_append h2 (runDirs_one hend)), by show st.cnt ≤ c3; omega,
      .refl' (by show st.cnt ≤ c3; omega) _, ?_, ?_⟩
    · intro L _
      have hsh := r2.shape ⟨x'.lexit, x'.lcont⟩ (.inr ⟨by rw [e1]; decide, fun _ => rfl, fun _ => by simp only [contLab, e1]⟩)
      refine ⟨st.cnt + 1, st.cnt + 1 + 1, x'.lcont, x'.lexit, bc, code, by omega, by omega, hsh, h6, ?_⟩
      rw [lab_eq (by omega : st.cnt + 1 + 1 ≠ 0)]
      simp
    · refine d1.append (r2.defs.append d2 (D := fun l => st.cnt + 1 < l ∧ l ≤ c3) ?_ ?_ ?_) ?_ ?_ ?_
      · intro l h h'
        simp only at h
        rw [stackLabs_cons] at h
        rcases h'.2.1 with h'' | h'' | h''
        · exact h.2.2 (.inr (.inr (.inr (.inl h''))))
        · exact h.2.2 (.inr (.inr (.inl h'')))
        · omega
      · intro l h; simp only at h; omega
      · intro l h; omega
      · intro l h h'; omega
      · intro l h; exact ⟨by omega, by show l ≤ c3; omega, hfr l (by omega)⟩
      · intro l h; exact ⟨by omega, h.2, hfr l (by omega)⟩
  | .brk c, il, st, hok, hl, hi => by
    obtain ⟨st', code, h1, h2⟩ := exit_comp M masm true c st (hl hok.1) hi hok.2
    exact ⟨st', code, runDirs_one h1, h2⟩
  | .cont c, il, st, hok, hl, hi => by
    obtain ⟨st', code, h1, h2⟩ := exit_comp M masm false c st (hl hok.1) hi hok.2
    exact ⟨st', code, runDirs_one h1, h2⟩
theorem Els.comp [Nonempty S] (masm : Bool) : (e : Els (OrE α) β) → (inLoop : Bool) → (x : Item α β) → (r : List (Item α β)) → (cnt : Nat) →
    e.Ok (condGood M) inLoop → x.cmd = .ifc → x.elseOcc = false → (inLoop = true → hasLoop r) → Inv' ⟨x :: r, cnt⟩ →
    ∃ st' code le, runDirs masm ⟨x :: r, cnt⟩ (e.print OrE.print) = some (st', code) ∧ cnt ≤ st'.cnt ∧ Upd cnt st'.cnt r st'.stack ∧
      (x.lexit ≠ 0 → le = x.lexit) ∧ (∀ L, StackCompat L st'.stack → e.Shape M L x.ltest le code) ∧
      Defs code (fun l => (cnt < l ∧ l ≤ st'.cnt ∧ l ∉ stackLabs st'.stack) ∨ (l = x.ltest ∧ l ≠ 0) ∨ (l = x.lexit ∧ l ≠ 0))
  | .endif, il, x, r, cnt, hok, hx, he, hl, hi => by
    have hxo := hi x (by simp)
    obtain ⟨⟨b1, b2, b3, b4⟩, ⟨n1, n2, n3⟩, _⟩ := hxo
    refine ⟨⟨r, cnt⟩, lab x.ltest ++ lab x.lexit, x.lexit, runDirs_one (by simp [stepDir, hx]), Nat.le_refl _, .refl _ _, fun _ => rfl,
      fun L _ => rfl, (Defs.lab _).append (Defs.lab _) ?_ ?_ ?_⟩
    · intro l h h'; omega
    · intro l h; exact .inr (.inl (by omega))
    · intro l h; exact .inr (.inr (by omega))
  | .els p, il, x, r, cnt, hok, hx, he, hl, hi => by
    have hxo := hi x (by simp)
    obtain ⟨⟨b1, b2, b3, b4⟩, ⟨n1, n2, n3⟩, _⟩ := hxo
    simp only at b1 b2 b3 b4
    -- the item behind .ELSE
    have hstep : ∃ y c1, stepDir masm ⟨x :: r, cnt⟩ .else_ = some (⟨y :: r, c1⟩, jmpTo y.lexit :: lab x.ltest) ∧ y.cmd = .ifc ∧ y.ltest = 0 ∧
        y.lstart = x.lstart ∧ y.lcont = x.lcont ∧ y.lexit ≠ 0 ∧ cnt ≤ c1 ∧ y.condlines = x.condlines ∧ y.counter = x.counter ∧
        ((x.lexit ≠ 0 ∧ y.lexit = x.lexit ∧ c1 = cnt) ∨ (x.lexit = 0 ∧ y.lexit = cnt + 1 ∧ c1 = cnt + 1)) := by
      simp only [stepDir, elseDir, hx, he]
      by_cases h0 : x.lexit = 0
      · rw [if_neg (by simp), if_pos h0]
        exact ⟨_, _, rfl, rfl, rfl, rfl, rfl, by simp, by omega, rfl, rfl, .inr ⟨h0, rfl, rfl⟩⟩
      · rw [if_neg (by simp), if_neg h0]
        exact ⟨_, _, rfl, hx, rfl, rfl, rfl, h0, by omega, rfl, rfl, .inl ⟨h0, rfl, rfl⟩⟩
    obtain ⟨y, c1, hstep, k1, k2, k3, k4, k5, k6, k7, k8, k9⟩ := hstep
    have hir : Inv' (α := α) (β := β) ⟨r, cnt⟩ := fun z hz => hi z (by simp at hz ⊢; exact .inr hz)
    have hpush : Inv' (α := α) (β := β) ⟨y :: r, c1⟩ := by
      refine hir.push k6 ⟨by omega, ⟨?_, by omega, ?_⟩, by rw [k1]; exact fun h => absurd rfl h⟩
      · intro _
        rcases k9 with k9 | k9
        · have := n1 k9.1; omega
        · omega
      · rw [k4, k3, k7, k8]; exact n3
    obtain ⟨⟨s2, c2⟩, pc, h2, r2⟩ := Stmt.comp masm p il ⟨y :: r, c1⟩ hok (fun h => .inr (hl h)) hpush
    obtain ⟨r', rfl, hu⟩ := upd_if k1 r2.upd
    have kc := r2.cnt
    simp only at kc hu
    have hend : stepDir masm ⟨y :: r', c2⟩ .endif = some (⟨r', c2⟩, [label1 y.lexit]) := by
      simp only [stepDir, k1, if_true, k2]
      rw [← lab_eq k5]
      simp [lab]
    refine ⟨⟨r', c2⟩, _, y.lexit, runDirs_cons hstep (runDirs_append h2 (runDirs_one hend)), by show cnt ≤ c2; omega,
      (Upd.refl' k6 _).trans hu k6 kc, ?_, ?_, ?_⟩
    · intro h; omega
    · intro L hL
      refine ⟨k5, pc, r2.shape L (.inl ⟨k1, hL⟩), by simp⟩
    · have hfr : ∀ l, cnt < l → l ≤ c1 → l ∉ stackLabs r' := fun l h1 h2 => hu.fresh hir h1 h2
      rw [← lab_eq k5]
      refine Defs.append (a := jmpTo y.lexit :: lab x.ltest) (A := fun l => l = x.ltest ∧ l ≠ 0) ?_ (r2.defs.append (Defs.lab _)
        (D := fun l => (c1 < l ∧ l ≤ c2 ∧ l ∉ stackLabs r') ∨ (l = y.lexit ∧ l ≠ 0)) ?_ ?_ ?_) ?_ ?_ ?_
      · exact (Defs.lab x.ltest).mono (fun _ h => by omega)
      · intro l h h'
        simp only at h; omega
      · intro l h
        simp only at h
        rw [stackLabs_cons] at h
        exact .inl ⟨h.1, h.2.1, fun hm => h.2.2 (.inr (.inr (.inr (.inr hm))))⟩
      · intro l h; exact .inr (by omega)
      · intro l h h'
        rcases h' with h' | h'
        · omega
        · rcases k9 with k9 | k9
          · have := n1 k9.1; omega
          · omega
      · intro l h; exact .inr (.inl h)
      · intro l h
        rcases h with h | h
        · exact .inl ⟨by omega, h.2⟩
        · rcases k9 with k9 | k9
          · exact .inr (.inr (by omega))
          · exact .inl ⟨by omega, by show l ≤ c2; omega, hfr l (by omega) (by omega)⟩
  | .elif c t e, il, x, r, cnt, hok, hx, he, hl, hi => by
    have hxo := hi x (by simp)
    obtain ⟨⟨b1, b2, b3, b4⟩, ⟨n1, n2, n3⟩, _⟩ := hxo
    simp only at b1 b2 b3 b4
    have hstep : ∃ y c0 c1 code, stepDir masm ⟨x :: r, cnt⟩ (.elseif c.print) = some (⟨y :: r, c1⟩, (jmpTo y.lexit :: lab x.ltest) ++ gens code) ∧
        y.cmd = .ifc ∧ y.ltest = c0 + 1 ∧ y.elseOcc = false ∧
        y.lstart = x.lstart ∧ y.lcont = x.lcont ∧ y.lexit ≠ 0 ∧ cnt ≤ c0 ∧ y.condlines = x.condlines ∧ y.counter = x.counter ∧
        ((x.lexit ≠ 0 ∧ y.lexit = x.lexit ∧ c0 = cnt) ∨ (x.lexit = 0 ∧ y.lexit = cnt + 1 ∧ c0 = cnt + 1)) ∧
        CondCode M c false (c0 + 1) code ∧ c0 + 1 ≤ c1 ∧ Defs (gens code : List (BLine α β)) (fun l => c0 + 1 < l ∧ l ≤ c1) := by
      simp only [stepDir, elseDir, hx, he]
      by_cases h0 : x.lexit = 0
      · obtain ⟨code, c1, h5, h6, h7, h8, _⟩ := cond_comp M c false false masm (cnt + 1 + 1) (cnt + 1 + 1) hok.1 (by omega) (by omega)
        rw [if_neg (by simp), if_pos h0]
        simp only [h5]
        exact ⟨_, cnt + 1, _, code, rfl, rfl, rfl, rfl, rfl, rfl, by simp, by omega, rfl, rfl, .inr ⟨h0, rfl, rfl⟩, h6, h7, h8⟩
      · obtain ⟨code, c1, h5, h6, h7, h8, _⟩ := cond_comp M c false false masm (cnt + 1) (cnt + 1) hok.1 (by omega) (by omega)
        rw [if_neg (by simp), if_neg h0]
        simp only [h5]
        exact ⟨_, cnt, _, code, rfl, hx, rfl, he, rfl, rfl, h0, by omega, rfl, rfl, .inl ⟨h0, rfl, rfl⟩, h6, h7, h8⟩
    obtain ⟨y, c0, c1, code, hstep, k1, k2, k2', k3, k4, k5, k6, k7, k8, k9, h6, h7, h8⟩ := hstep
    have hir : Inv' (α := α) (β := β) ⟨r, cnt⟩ := fun z hz => hi z (by simp at hz ⊢; exact .inr hz)
    have hpush : Inv' (α := α) (β := β) ⟨y :: r, c1⟩ := by
      refine hir.push (by omega) ⟨by omega, ⟨?_, by omega, ?_⟩, by rw [k1]; exact fun h => absurd rfl h⟩
      · intro _
        rcases k9 with k9 | k9
        · have := n1 k9.1; omega
        · omega
      · rw [k4, k3, k7, k8]; exact n3
    obtain ⟨⟨s2, c2⟩, tc, h2, r2⟩ := Stmt.comp masm t il ⟨y :: r, c1⟩ hok.2.1 (fun h => .inr (hl h)) hpush
    obtain ⟨r', rfl, hu⟩ := upd_if k1 r2.upd
    have hi2 := r2.inv hpush
    obtain ⟨st3, ec, le, h3, hc3, hu3, hle, hsh, hd⟩ := Els.comp masm e il y r' c2 hok.2.2 k1 k2' (fun h => hu.hasLoop (hl h)) hi2
    have kc := r2.cnt
    simp only at kc hu
    have hle := hle k5
    subst hle
    refine ⟨st3, _, y.lexit, runDirs_cons hstep (runDirs_append h2 h3), by omega,
      ((Upd.refl' (by omega) _).trans hu (by omega) kc).trans hu3 (by omega) hc3, ?_, ?_, ?_⟩
    · intro h; omega
    · intro L hL
      refine ⟨k5, y.ltest, code, tc, ec, by rw [k2]; exact h6, by omega, r2.shape L (.inl ⟨k1, hu3.compat hL⟩), hsh L hL, by simp⟩
    · have hfr : ∀ l, cnt < l → l ≤ c1 → l ∉ stackLabs st3.stack := by
        intro l h1 h2 hm
        rcases hu3.labs hm with h' | h'
        · exact hu.fresh hir h1 h2 h'
        · omega
      refine Defs.append (A := fun l => (l = x.ltest ∧ l ≠ 0) ∨ (c0 + 1 < l ∧ l ≤ c1)) (Defs.append (a := jmpTo y.lexit :: lab x.ltest)
          (A := fun l => l = x.ltest ∧ l ≠ 0) ((Defs.lab x.ltest).mono (fun _ h => by omega)) h8
          (by intro l h h'; omega) (fun _ h => .inl h) (fun _ h => .inr h))
        (r2.defs.append hd (D := fun l => (c1 < l ∧ l ≤ st3.cnt ∧ l ∉ stackLabs st3.stack) ∨ l = c0 + 1 ∨ (l = y.lexit)) ?_ ?_ ?_) ?_ ?_ ?_
      · intro l h h'
        simp only at h; omega
      · intro l h
        simp only at h
        rw [stackLabs_cons] at h
        refine .inl ⟨h.1, by omega, fun hm => ?_⟩
        rcases hu3.labs hm with h' | h'
        · exact h.2.2 (.inr (.inr (.inr (.inr h'))))
        · omega
      · intro l h
        rcases h with h | h | h
        · exact .inl ⟨by omega, h.2⟩
        · exact .inr (.inl (by omega))
        · exact .inr (.inr h.1)
      · intro l h h'
        have : l ≤ c1 := by omega
        rcases k9 with k9 | k9
        · have := n1 k9.1; omega
        · omega
      · intro l h
        rcases h with h | h
        · exact .inr (.inl h)
        · exact .inl ⟨by omega, by omega, hfr l (by omega) h.2⟩
      · intro l h
        rcases h with h | h | h
        · exact .inl ⟨by omega, h.2⟩
        · exact .inl ⟨by omega, by omega, hfr l (by omega) (by omega)⟩
        · rcases k9 with k9 | k9
          · exact .inr (.inr (by omega))
          · exact .inl ⟨by omega, by omega, hfr l (by omega) (by omega)⟩
end

end
end Verif.Hll
