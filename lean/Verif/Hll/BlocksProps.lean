import Verif.Hll.BlocksMain
import Verif.Hll.BlocksSim
/-!
# C49: control-flow directives run the program that is written

`blocks_run_partial`: every structured program with the conditions covered by C28 is accepted, and the resulting lines compute
exactly what the program means. `accepted_nested`: every accepted source is the text of a structured program. -/
namespace Verif.Hll
section
variable {α β S : Type}

theorem labelsOf_mem {C : List (BLine α β)} {a l : Nat} (h : C[a]? = some (label1 l)) : l ∈ labelsOf C := by
  simp only [labelsOf, List.mem_filterMap]
  exact ⟨_, List.mem_of_getElem? h, rfl⟩

theorem unique_of_nodup : (C : List (BLine α β)) → (labelsOf C).Nodup → Unique C
  | [], _, a, b, l, ha, _ => by simp at ha
  | x :: C, h, a, b, l, ha, hb => by
    have hc : (labelsOf C).Nodup := by
      have e : labelsOf (x :: C) = labelsOf [x] ++ labelsOf C := labelsOf_append [x] C
      rw [e] at h
      exact (List.nodup_append.1 h).2.1
    have key : ∀ n : Nat, x = label1 l → C[n]? = some (label1 l) → False := by
      rintro n rfl hn
      have e : labelsOf (label1 l :: C) = [l] ++ labelsOf C := labelsOf_append [label1 l] C
      rw [e] at h
      exact (List.nodup_append.1 h).2.2 l (by simp) l (labelsOf_mem hn) rfl
    match a, b, ha, hb with
    | 0, 0, _, _ => rfl
    | 0, b + 1, ha, hb => exact (key b (by simpa using ha) (by simpa using hb)).elim
    | a + 1, 0, ha, hb => exact (key a (by simpa using hb) (by simpa using ha)).elim
    | a + 1, b + 1, ha, hb => rw [unique_of_nodup C hc a b l (by simpa using ha) (by simpa using hb)]

variable (M : Mach α β S)

mutual
/-- Outside of loops nothing is left by .BREAK or .CONTINUE. -/
theorem Stmt.norm_of_ok {P : OrE α → Bool → Prop} : (p : Stmt (OrE α) β) → p.Ok P false → ∀ s o s', p.Exec M s o s' → o = .norm
  | .skip, _, _, _, _, h => h.1
  | .user _, _, _, _, _, h => h.1
  | .seq a b, hok, s, o, s', h => by
    rcases h with ⟨s1, _, h⟩ | ⟨_, h⟩
    · exact Stmt.norm_of_ok b hok.2 _ _ _ h
    · exact Stmt.norm_of_ok a hok.1 _ _ _ h
  | .ifs c t e, hok, s, o, s', h => by
    rcases h with ⟨_, h⟩ | ⟨_, h⟩
    · exact Stmt.norm_of_ok t hok.2.1 _ _ _ h
    · exact Els.norm_of_ok e hok.2.2 _ _ _ h
  | .whil _ _, _, _, _, _, h => h.1
  | .rep _ _, _, _, _, _, h => h.1
  | .forl _ _ _ _, _, _, _, _, h => h.1
  | .brk _, hok, _, _, _, _ => by cases hok.1
  | .cont _, hok, _, _, _, _ => by cases hok.1
theorem Els.norm_of_ok {P : OrE α → Bool → Prop} : (e : Els (OrE α) β) → e.Ok P false → ∀ s o s', e.Exec M s o s' → o = .norm
  | .endif, _, _, _, _, h => h.1
  | .els p, hok, _, _, _, h => Stmt.norm_of_ok p hok _ _ _ h
  | .elif c t e, hok, s, o, s', h => by
    rcases h with ⟨_, h⟩ | ⟨_, h⟩
    · exact Stmt.norm_of_ok t hok.2.1 _ _ _ h
    · exact Els.norm_of_ok e hok.2.2 _ _ _ h
end

/-- C49 (covered conditions, no .SWITCH): the source of every program is accepted, no label is defined twice, and the lines
started at the beginning reach their end in exactly those states in which the program ends. -/
theorem blocks_run_partial [Nonempty S] (masm : Bool) (p : Stmt (OrE α) β) (hp : p.Ok (condGood M) false) :
    ∃ code, assemble masm (p.print OrE.print) = some code ∧ (labelsOf code).Nodup ∧
      ∀ st st', Computes M code st st' ↔ p.Exec M st .norm st' := by
  obtain ⟨st1, code, h1, h2⟩ := Stmt.comp M masm p false {} hp (by simp) (fun x hx => by cases hx)
  have hs : st1.stack = [] := h2.upd
  have hsh := h2.shape ⟨0, 0⟩ (by rw [hs]; exact trivial)
  have hU := unique_of_nodup code h2.defs.1
  have sim := Stmt.sim (M := M) hU p ⟨0, 0⟩ code 0 0 0 hsh (fun k x h => by rwa [Nat.zero_add]) (fun h => absurd rfl h) (fun h => absurd rfl h)
  rw [Nat.zero_add] at sim
  refine ⟨code, ?_, h2.defs.1, fun st st' => ⟨?_, fun h => sim.fwd _ _ _ h⟩⟩
  · simp only [assemble, h1, hs, List.isEmpty_nil, if_true]
  · rintro ⟨n, h⟩
    obtain ⟨o, s', n', _, hex, hh⟩ := sim.bwd st' n st h
    obtain rfl := Stmt.norm_of_ok M p hp _ _ _ hex
    have : st' = s' := by
      simp only [posOf] at hh
      cases hh with
      | zero => rfl
      | succ h _ => exact absurd h.lt (by simp)
    rwa [this]

/-- The lines have at most one result. -/
theorem blocks_det [Nonempty S] (p : Stmt (OrE α) β) (hp : p.Ok (condGood M) false) {s s1 s2 : S × Flags}
    (h1 : p.Exec M s .norm s1) (h2 : p.Exec M s .norm s2) : s1 = s2 := by
  obtain ⟨code, _, hn, h⟩ := blocks_run_partial M false p hp
  obtain ⟨n1, k1⟩ := (h s s1).2 h1
  obtain ⟨n2, k2⟩ := (h s s2).2 h2
  obtain ⟨n', _, k3⟩ := k1.halt (unique_of_nodup code hn) k2
  cases k3 with
  | zero => rfl
  | succ h _ => exact absurd h.lt (by simp)

/-! ## Nesting -/

mutual
/-- .BREAK and .CONTINUE are in loops. -/
def Stmt.Exits {κ : Type} (inLoop : Bool) : Stmt κ β → Prop
  | .skip => True
  | .user _ => True
  | .seq a b => a.Exits inLoop ∧ b.Exits inLoop
  | .ifs _ t e => t.Exits inLoop ∧ e.Exits inLoop
  | .whil _ b => b.Exits true
  | .rep b _ => b.Exits true
  | .forl _ _ _ b => b.Exits true
  | .brk _ => inLoop = true
  | .cont _ => inLoop = true
def Els.Exits {κ : Type} (inLoop : Bool) : Els κ β → Prop
  | .endif => True
  | .els p => p.Exits inLoop
  | .elif _ t e => t.Exits inLoop ∧ e.Exits inLoop
end

/-- `ds` closes the open blocks `s`. -/
def Nest : List (Item α β) → List (Dir α β) → Prop
  | [], ds => ∃ p : Stmt (List (Tok α)) β, p.Exits false ∧ ds = p.print id
  | x :: r, ds =>
    let il := (x :: r).any (fun y => y.cmd != .ifc)
    ∃ p : Stmt (List (Tok α)) β, p.Exits il ∧ ∃ e ds', ds = p.print id ++ (e ++ ds') ∧ Nest r ds' ∧
      match x.cmd with
      | .ifc => if x.elseOcc then e = [.endif] else ∃ q : Els (List (Tok α)) β, q.Exits il ∧ e = q.print id
      | .whilec => e = [.endw]
      | .repeatc => ∃ u : Until (List (Tok α)), e = [u.print id]
      | .forc => e = [.endfor]

theorem Nest.pre {s : List (Item α β)} {ds : List (Dir α β)} (h : Nest s ds) (q : Stmt (List (Tok α)) β)
    (hq : q.Exits (s.any (fun y => y.cmd != .ifc))) : Nest s (q.print id ++ ds) := by
  cases s with
  | nil =>
    obtain ⟨p, hp, rfl⟩ := h
    exact ⟨.seq q p, ⟨hq, hp⟩, rfl⟩
  | cons x r =>
    obtain ⟨p, hp, e, ds', rfl, h1, h2⟩ := h
    exact ⟨.seq q p, ⟨hq, hp⟩, e, ds', by simp [Stmt.print], h1, h2⟩

theorem nest_cmds {s s' : List (Item α β)} (h : s.map (fun x => (x.cmd, x.elseOcc)) = s'.map (fun x => (x.cmd, x.elseOcc))) {ds : List (Dir α β)}
    (hn : Nest s' ds) : Nest s ds := by
  induction s generalizing s' ds with
  | nil =>
    cases s' with
    | nil => exact hn
    | cons _ _ => simp at h
  | cons x r ih =>
    cases s' with
    | nil => simp at h
    | cons y r' =>
      simp only [List.map_cons, List.cons.injEq, Prod.mk.injEq] at h
      have ha : ∀ (a b : List (Item α β)), a.map (fun x => (x.cmd, x.elseOcc)) = b.map (fun x => (x.cmd, x.elseOcc)) →
          a.any (fun y => y.cmd != .ifc) = b.any (fun y => y.cmd != .ifc) := by
        intro a b hab
        have : ∀ l : List (Item α β), l.any (fun y => y.cmd != .ifc) = (l.map (fun x => (x.cmd, x.elseOcc))).any (fun y => y.1 != .ifc) := by
          intro l; simp [List.any_map]; rfl
        rw [this, this, hab]
      have hl : (x :: r).any (fun y => y.cmd != .ifc) = (y :: r').any (fun y => y.cmd != .ifc) := ha _ _ (by simp [h])
      obtain ⟨p, hp, e, ds', rfl, h1, h2⟩ := hn
      refine ⟨p, by rw [hl]; exact hp, e, ds', rfl, ih h.2 h1, ?_⟩
      simp only [h.1.1, h.1.2, hl]
      exact h2

theorem onLoop_cmds (isBreak : Bool) {cnt : Nat} {s s' : List (Item α β)} {q : Nat × Nat} (h : onLoop (exitLabel isBreak) cnt s = some (s', q)) :
    s.map (fun x => (x.cmd, x.elseOcc)) = s'.map (fun x => (x.cmd, x.elseOcc)) ∧ s.any (fun y => y.cmd != .ifc) = true := by
  induction s generalizing s' q with
  | nil => simp [onLoop] at h
  | cons x r ih =>
    simp only [onLoop] at h
    split at h
    · rename_i hx
      split at h
      · rename_i r' q' hr
        simp only [Option.some.injEq, Prod.mk.injEq] at h
        obtain ⟨i1, i2⟩ := ih hr
        rw [← h.1]
        exact ⟨by simp [i1], by simp only [List.any_cons, i2, Bool.or_true]⟩
      · cases h
    · rename_i hx
      split at h
      · rename_i x' q' hr
        simp only [Option.some.injEq, Prod.mk.injEq] at h
        rw [← h.1]
        refine ⟨?_, by simp [hx]⟩
        have : x'.cmd = x.cmd ∧ x'.elseOcc = x.elseOcc := by
          simp only [exitLabel] at hr
          repeat' split at hr
          all_goals (simp only [Option.some.injEq, Prod.mk.injEq] at hr; rw [← hr.1]; exact ⟨rfl, rfl⟩)
        simp [this]
      · cases h

theorem elseDir_some {x y : Item α β} {cnt cnt' : Nat} {ls : List (BLine α β)} (h : elseDir x cnt = some (y, cnt', ls)) :
    x.cmd = .ifc ∧ x.elseOcc = false ∧ y.cmd = .ifc ∧ y.elseOcc = false := by
  unfold elseDir at h
  split at h
  · cases h
  · rename_i hx
    simp only [ne_eq, not_or, Decidable.not_not, Bool.not_eq_true] at hx
    simp only at h
    split at h
    all_goals
      simp only [Option.some.injEq, Prod.mk.injEq] at h
      rw [← h.1]
      exact ⟨hx.1, hx.2, hx.1, hx.2⟩

theorem nest_step {masm : Bool} {st st' : HSt α β} {d : Dir α β} {ls : List (BLine α β)} {ds : List (Dir α β)}
    (h : stepDir masm st d = some (st', ls)) (hn : Nest st'.stack ds) : Nest st.stack (d :: ds) := by
  cases d with
  | user u =>
    simp only [stepDir, Option.some.injEq, Prod.mk.injEq] at h
    rw [← h.1] at hn
    exact hn.pre (.user u) trivial
  | if_ c =>
    simp only [stepDir] at h
    split at h
    · cases h
    · simp only [Option.some.injEq, Prod.mk.injEq] at h
      rw [← h.1] at hn
      obtain ⟨p, hp, e, ds', rfl, h1, q, hq, rfl⟩ := hn
      have := h1.pre (.ifs c p q) ⟨by simpa using hp, by simpa using hq⟩
      simpa [Stmt.print] using this
  | elseif c =>
    simp only [stepDir] at h
    split at h
    · cases h
    · rename_i x r hst
      split at h
      · cases h
      · rename_i y cnt ls' he
        split at h
        · cases h
        · simp only [Option.some.injEq, Prod.mk.injEq] at h
          rw [← h.1] at hn
          obtain ⟨e1, e2, e3, e4⟩ := elseDir_some he
          obtain ⟨p, hp, e, ds', rfl, h1, h2⟩ := hn
          simp only [e3, e4, Bool.false_eq_true, if_false] at h2
          obtain ⟨q, hq, rfl⟩ := h2
          rw [hst]
          refine ⟨.skip, trivial, (Els.elif c p q).print id, ds', by simp [Stmt.print, Els.print], h1, ?_⟩
          simp only [e1, e2, Bool.false_eq_true, if_false]
          simp only [List.any_cons, e1, e3] at hp hq ⊢
          exact ⟨.elif c p q, ⟨hp, hq⟩, rfl⟩
  | else_ =>
    simp only [stepDir] at h
    split at h
    · cases h
    · rename_i x r hst
      split at h
      · cases h
      · rename_i y cnt ls' he
        simp only [Option.some.injEq, Prod.mk.injEq] at h
        rw [← h.1] at hn
        obtain ⟨e1, e2, e3, e4⟩ := elseDir_some he
        obtain ⟨p, hp, e, ds', rfl, h1, h2⟩ := hn
        simp only [e3, if_true] at h2
        subst h2
        rw [hst]
        refine ⟨.skip, trivial, (Els.els p).print id, ds', by simp [Stmt.print, Els.print], h1, ?_⟩
        simp only [e1, e2, Bool.false_eq_true, if_false]
        simp only [List.any_cons, e1, e3] at hp ⊢
        exact ⟨.els p, hp, rfl⟩
  | endif =>
    simp only [stepDir] at h
    split at h
    · cases h
    · rename_i x r hst
      split at h
      · rename_i hx
        simp only [Option.some.injEq, Prod.mk.injEq] at h
        rw [← h.1] at hn
        rw [hst]
        refine ⟨.skip, trivial, [.endif], ds, by simp [Stmt.print], hn, ?_⟩
        simp only [hx]
        split
        · trivial
        · exact ⟨.endif, trivial, rfl⟩
      · cases h
  | while_ c =>
    simp only [stepDir] at h
    split at h
    · cases h
    · have key : Nest st.stack (Dir.while_ c :: ds) := by
        split at h
        all_goals
          simp only [Option.some.injEq, Prod.mk.injEq] at h
          rw [← h.1] at hn
          obtain ⟨p, hp, e, ds', rfl, h1, rfl⟩ := hn
          have := h1.pre (.whil c p) (show p.Exits true from hp)
          simpa [Stmt.print] using this
      exact key
  | endw =>
    simp only [stepDir] at h
    split at h
    · cases h
    · rename_i x r hst
      split at h
      · rename_i hx
        simp only [Option.some.injEq, Prod.mk.injEq] at h
        rw [← h.1] at hn
        rw [hst]
        refine ⟨.skip, trivial, [.endw], ds, by simp [Stmt.print], hn, ?_⟩
        simp only [hx]
      · cases h
  | repeat_ =>
    simp only [stepDir, Option.some.injEq, Prod.mk.injEq] at h
    rw [← h.1] at hn
    obtain ⟨p, hp, e, ds', rfl, h1, u, rfl⟩ := hn
    have := h1.pre (.rep p u) (show p.Exits true from hp)
    simpa [Stmt.print] using this
  | until_ c =>
    simp only [stepDir] at h
    split at h
    · cases h
    · rename_i x r hst
      split at h
      · cases h
      · rename_i hx
        have hx : x.cmd = .repeatc := by simpa using hx
        have key : st'.stack = r := by
          split at h
          · simp only [Option.some.injEq, Prod.mk.injEq] at h; rw [← h.1]
          · split at h
            · cases h
            · simp only [Option.some.injEq, Prod.mk.injEq] at h; rw [← h.1]
        rw [key] at hn
        rw [hst]
        refine ⟨.skip, trivial, [.until_ c], ds, by simp [Stmt.print], hn, ?_⟩
        simp only [hx]
        exact ⟨.cond c, rfl⟩
  | untilcxz c =>
    simp only [stepDir] at h
    split at h
    · cases h
    · rename_i x r hst
      split at h
      · cases h
      · rename_i hx
        have hx : x.cmd = .repeatc := by simpa using hx
        have key : st'.stack = r := by
          split at h
          · simp only [Option.some.injEq, Prod.mk.injEq] at h; rw [← h.1]
          · split at h
            · cases h
            · split at h
              · cases h
              · simp only [Option.some.injEq, Prod.mk.injEq] at h; rw [← h.1]
        rw [key] at hn
        rw [hst]
        refine ⟨.skip, trivial, [.untilcxz c], ds, by simp [Stmt.print], hn, ?_⟩
        simp only [hx]
        exact ⟨.cxzCond c, rfl⟩
  | for_ init c count =>
    simp only [stepDir] at h
    split at h
    · simp only [Option.some.injEq, Prod.mk.injEq] at h
      rw [← h.1] at hn
      obtain ⟨p, hp, e, ds', rfl, h1, rfl⟩ := hn
      have := h1.pre (.forl init (some c) count p) (show p.Exits true from hp)
      simpa [Stmt.print] using this
    · split at h
      · cases h
      · simp only [Option.some.injEq, Prod.mk.injEq] at h
        rw [← h.1] at hn
        obtain ⟨p, hp, e, ds', rfl, h1, rfl⟩ := hn
        have := h1.pre (.forl init (some c) count p) (show p.Exits true from hp)
        simpa [Stmt.print] using this
  | endfor =>
    simp only [stepDir] at h
    split at h
    · cases h
    · rename_i x r hst
      split at h
      · rename_i hx
        simp only [Option.some.injEq, Prod.mk.injEq] at h
        rw [← h.1] at hn
        rw [hst]
        refine ⟨.skip, trivial, [.endfor], ds, by simp [Stmt.print], hn, ?_⟩
        simp only [hx]
      · cases h
  | break_ c =>
    simp only [stepDir, exitDir] at h
    split at h
    · cases h
    · rename_i s' cnt l ho
      obtain ⟨k1, k2⟩ := onLoop_cmds true ho
      have key : st'.stack = s' := by
        split at h
        · simp only [Option.some.injEq, Prod.mk.injEq] at h; rw [← h.1]
        · split at h
          · cases h
          · simp only [Option.some.injEq, Prod.mk.injEq] at h; rw [← h.1]
      rw [key] at hn
      have := (nest_cmds k1 hn).pre (.brk c) k2
      simpa [Stmt.print] using this
  | continue_ c =>
    simp only [stepDir, exitDir] at h
    split at h
    · cases h
    · rename_i s' cnt l ho
      obtain ⟨k1, k2⟩ := onLoop_cmds false ho
      have key : st'.stack = s' := by
        split at h
        · simp only [Option.some.injEq, Prod.mk.injEq] at h; rw [← h.1]
        · split at h
          · cases h
          · simp only [Option.some.injEq, Prod.mk.injEq] at h; rw [← h.1]
      rw [key] at hn
      have := (nest_cmds k1 hn).pre (.cont c) k2
      simpa [Stmt.print] using this

theorem nest_run {masm : Bool} : (ds : List (Dir α β)) → {st st' : HSt α β} → {ls : List (BLine α β)} →
    runDirs masm st ds = some (st', ls) → st'.stack = [] → Nest st.stack ds
  | [], st, st', ls, h, hs => by
    simp only [runDirs, Option.some.injEq, Prod.mk.injEq] at h
    rw [h.1, hs]
    exact ⟨.skip, trivial, rfl⟩
  | d :: ds, st, st', ls, h, hs => by
    simp only [runDirs] at h
    split at h
    · cases h
    · rename_i st1 ls1 h1
      split at h
      · cases h
      · rename_i st2 ls2 h2
        simp only [Option.some.injEq, Prod.mk.injEq] at h
        rw [← h.1] at hs
        exact nest_step h1 (nest_run ds h2 hs)

/-- C49: every source that is accepted is the text of a structured program whose .BREAK and .CONTINUE are in loops: no
directive without its block, no block left open, and .ELSE comes at most once and last. -/
theorem accepted_nested {masm : Bool} {ds : List (Dir α β)} {code : List (BLine α β)} (h : assemble masm ds = some code) :
    ∃ p : Stmt (List (Tok α)) β, p.Exits false ∧ ds = p.print id := by
  unfold assemble at h
  split at h
  · rename_i st ls hr
    split at h
    · rename_i hs
      exact nest_run ds hr (by simpa using hs)
    · cases h
  · cases h

end

/-! ## Examples -/

/-- Registers 0..; the lines add 1 to a register; register 2 is the counter of LOOP. -/
def mach0 : Mach Nat Nat (Nat → Nat) where
  env := env0
  act u st := (fun n => if n = u then st.1 n + 1 else st.1 n, st.2)
  dec s := fun n => if n = 2 then (s n + 2 ^ 32 - 1) % 2 ^ 32 else s n
  cxz s := s 2 == 0

/-- `a == b`, `a < 5 || SIGN?`, `!c && d & 1`, `1` -/
def bc1 : OrE Nat := .one (.one (.atom (.cmp .eq (reg 0) (reg 1))))
def bc2 : OrE Nat := .cons (.one (.atom (.cmp .lt (reg 0) (num 5)))) (.one (.one (.atom (.flag .sign))))
def bc3 : OrE Nat := .one (.cons (.not (.atom (.val (reg 2)))) (.one (.atom (.band (reg 3) (num 1)))))
def bc4 : OrE Nat := .one (.one (.atom (.val (num 1))))

/-- All directives, nested. -/
def prog1 : Stmt (OrE Nat) Nat :=
  .seq (.user 1)
    (.whil bc2 (.seq
      (.ifs bc1 (.brk none) (.elif bc3 (.cont (some bc1)) (.els (.forl [3] (some bc3) [4, 5] (.seq (.user 6) (.cont none))))))
      (.seq (.rep (.seq (.user 7) (.brk (some bc3))) (.cxzCond bc1))
        (.seq (.rep (.user 8) .cxz) (.seq (.rep (.cont none) (.cond bc2)) (.seq (.forl [] none [] (.brk (some bc2))) (.whil bc4 (.brk none))))))))

theorem prog1_ok : prog1.Ok (condGood mach0) false := by
  have gd : ∀ c : OrE Nat, c = bc1 ∨ c = bc2 ∨ c = bc3 ∨ c = bc4 → ∀ m, c.good m := by
    rintro c (rfl | rfl | rfl | rfl) (_ | _) <;>
      simp [bc1, bc2, bc3, bc4, OrE.good, AndE.good, Simple.good, AndE.tail, Simple.tail, OrE.lastTail, Atom.tail, Tail.live, reg, num, Kind.isConst]
  have ok : ∀ c : OrE Nat, c = bc1 ∨ c = bc2 ∨ c = bc3 ∨ c = bc4 → ∀ s, c.ok (mach0.env s) := by
    intro c hc s
    show c.ok (env0 s)
    rcases hc with rfl | rfl | rfl | rfl
    · simp [bc1, OrE.ok, AndE.ok, Simple.ok, Atom.ok, reg, isFloat, env0]
    all_goals
      simp [bc2, bc3, bc4, OrE.ok, AndE.ok, Simple.ok, Atom.ok, reg, num, isFloat, env0, Kind.isConst]
      try (intro w; apply BitVec.eq_of_toNat_eq; simp)
  have good : ∀ c : OrE Nat, c = bc1 ∨ c = bc2 ∨ c = bc3 ∨ c = bc4 → ∀ m, condGood mach0 c m := fun c h m => ⟨ok c h, gd c h m⟩
  have g1 := good bc1 (by simp)
  have g2 := good bc2 (by simp)
  have g3 := good bc3 (by simp)
  have g4 := good bc4 (by simp)
  have l2 : bc2.loopOk ∧ bc3.loopOk ∧ bc4.loopOk ∧ bc3.lone = none := by
    simp [OrE.loopOk, bc2, bc3, bc4, OrE.fst, AndE.fst, Simple.fst, Atom.isConst, OrE.lone, reg, num, Kind.isConst]
  have x1 : ∃ s, bc1 = .one (.one s) ∧ s.cxzOk := ⟨_, rfl, .inl rfl⟩
  simp only [prog1, Stmt.Ok, Els.Ok, Until.Ok, Option.some.injEq, reduceCtorEq]
  simp [g1, g2, g3, g4, l2, x1]

/-- The program is accepted and runs as it is written. -/
example : ∃ code, assemble true (prog1.print OrE.print) = some code ∧ (labelsOf code).Nodup ∧
    ∀ st st', Computes mach0 code st st' ↔ prog1.Exec mach0 st .norm st' :=
  haveI : Nonempty (Nat → Nat) := ⟨fun _ => 0⟩
  blocks_run_partial mach0 true prog1 prog1_ok

/-- A run: `.repeat`, add 1 to register 1, `.until a == b` with a = 2 and b = 0. -/
example : ∃ s', (Stmt.rep (.user 1) (.cond bc1) : Stmt (OrE Nat) Nat).Exec mach0 (fun n => if n = 0 then 2 else 0, f0) .norm s' ∧ s'.1 1 = 2 :=
  ⟨_, ⟨rfl, .next ⟨rfl, rfl⟩ (by decide) (by decide +kernel) (.stop ⟨rfl, rfl⟩ (by decide) (by decide +kernel))⟩, by decide +kernel⟩

/-! ## Programs that are not compiled correctly -/

/-- `.while 0 && a`: the code of the condition begins with "jmp", and the block is entered without a test. -/
def condZ : OrE Nat := .one (.cons (.atom (.val (num 0))) (.one (rv 0)))

def codeZ : List (BLine Nat Nat) :=
  [.gen (.label 1), .user 7, .gen (.jump jmpMnem 2), .gen (.label 3), .gen (.ins (.test 0 0)), .gen (.jump (jcc 'z' true) 1), .gen (.label 2)]

/-- The block of `.while 0 && a` runs once, for every machine and state. -/
theorem while_zero_wrong (masm : Bool) : assemble masm ((Stmt.whil condZ (.user 7) : Stmt (OrE Nat) Nat).print OrE.print) = some codeZ ∧
    (∀ env f, (condZ.eval env f).1 = false) ∧
    ∀ (S : Type) (M : Mach Nat Nat S) st, Computes M codeZ st (M.act 7 st) := by
  refine ⟨?_, ?_, ?_⟩
  · have h1 : evaluateHll { lbl := 1, isRepeat := false, masm := masm } condZ.print true 1 = some (.ok ([.jump jmpMnem 2, .label 3, .ins (.test 0 0), .jump (jcc 'z' true) 1, .label 2], 3)) := by
      cases masm <;> exact evaluateHll_of_fuel 30 (by decide +kernel)
    have p4 : condZ.print.isEmpty = false := rfl
    simp only [Stmt.print, assemble, runDirs, stepDir, evalCond, whileCond, h1, p4, List.cons_append, List.nil_append, List.append_nil, startsJmp]
    rfl
  · intro env f; rfl
  · intro S M st
    refine ⟨4, .succ (.label rfl) (.succ (.user rfl) (.succ (.jump (k := 6) (c := fun _ => true) rfl (by simp [jmpMnem, jumpCond, Mnem.chars]) rfl rfl) (.succ (.label rfl) .zero)))⟩

/-- `.while` without a condition never runs its block. -/
theorem while_empty_wrong (masm : Bool) (u : Nat) : ∃ code, assemble (α := Nat) masm [.while_ [], .user u, .endw] = some code ∧
    ∀ (S : Type) (M : Mach Nat Nat S) st, Computes M code st st :=
  ⟨[jmpTo 2, .gen (.label 1), .user u, .gen (.label 2)], rfl, fun S M st =>
    ⟨2, .succ (.jump (k := 3) (c := fun _ => true) rfl (by simp [jmpMnem, jumpCond, Mnem.chars]) rfl rfl) (.succ (.label rfl) .zero)⟩⟩

/-- `.until` without a condition never repeats its block. -/
theorem until_empty_once (masm : Bool) (u : Nat) : ∃ code, assemble (α := Nat) masm [.repeat_, .user u, .until_ []] = some code ∧
    ∀ (S : Type) (M : Mach Nat Nat S) st, Computes M code st (M.act u st) :=
  ⟨[.gen (.label 1), .user u], rfl, fun S M st => ⟨2, .succ (.label rfl) (.succ (.user rfl) .zero)⟩⟩

def condF : OrE Nat := .one (.one (.atom (.val (num 0))))

/-- `.untilcxz 0`: the loop is left when the zero flag is clear, whatever CX is. -/
theorem untilcxz_zero_wrong (masm : Bool) (u : Nat) : ∃ code,
    assemble masm ((Stmt.rep (.user u) (.cxzCond condF) : Stmt (OrE Nat) Nat).print OrE.print) = some code ∧
    ∀ (S : Type) (M : Mach Nat Nat S) st, (M.act u st).2.z = false → Computes M code st (M.dec (M.act u st).1, (M.act u st).2) := by
  refine ⟨[.gen (.label 1), .user u, .loop .loopz 1], ?_, ?_⟩
  · have h1 : evaluateHll { lbl := 1, isRepeat := true, masm := masm } condF.print false 1 = some (.ok ([.jump jmpMnem 1], 1)) := by
      cases masm <;> exact evaluateHll_of_fuel 30 (by decide +kernel)
    have p4 : condF.print.isEmpty = false := rfl
    simp only [Stmt.print, Until.print, assemble, runDirs, stepDir, evalCond, h1, p4, List.cons_append, List.nil_append, List.append_nil]
    rfl
  · intro S M st hz
    refine ⟨3, .succ (.label rfl) (.succ (.user rfl) (.succ (.loopNo rfl ?_) .zero))⟩
    simp [loopTaken, loopFlag, hz]

/-- `.for (:0:)`: the first line jumps to the label 2, which is not defined: the source cannot be assembled. -/
theorem for_zero_undefined (masm : Bool) (u : Nat) : ∃ code,
    assemble masm ((Stmt.forl [] (some condF) [] (.user u) : Stmt (OrE Nat) Nat).print OrE.print) = some code ∧
    code[0]? = some (jmpTo 2) ∧ 2 ∉ labelsOf code := by
  refine ⟨[jmpTo 2, .gen (.label 1), .user u, jmpTo 1], ?_, rfl, by simp [labelsOf, jmpTo]⟩
  have h1 : evaluateHll { lbl := 1, isRepeat := false, masm := masm } condF.print true 2 = some (.ok ([], 2)) := by
    cases masm <;> exact evaluateHll_of_fuel 30 (by decide +kernel)
  have p4 : condF.print.isEmpty = false := rfl
  simp only [Stmt.print, assemble, runDirs, stepDir, evalCond, h1, p4, Option.elim, List.cons_append, List.nil_append, List.append_nil]
  rfl

end Verif.Hll
