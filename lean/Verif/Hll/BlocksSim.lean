import Verif.Hll.BlocksExec
import Verif.Hll.Exec
/-! Execution of code of the form `Shape` is the meaning of the program, in both directions. -/
namespace Verif.Hll
section
variable {α β S : Type} {M : Mach α β S} {C : List (BLine α β)}

/-- Execution from line `i` is `ex`, and ends at `pos`. -/
structure Sim (M : Mach α β S) (C : List (BLine α β)) (ex : S × Flags → Out → S × Flags → Prop) (i : Nat) (pos : Out → Nat) : Prop where
  fwd : ∀ s o s', ex s o s' → Reach M C (i, s) (pos o, s')
  bwd : ∀ σ n s, Halts M C n (i, s) σ → ∃ o s' n', n' ≤ n ∧ ex s o s' ∧ Halts M C n' (pos o, s') σ

def posOf (e jb jc : Nat) : Out → Nat
  | .norm => e
  | .brk => jb
  | .cont => jc

variable {ex ex' : S × Flags → Out → S × Flags → Prop} {i k : Nat} {pos : Out → Nat}

theorem Sim.of_reach (hU : Unique C) (g : S × Flags → Out × S × Flags) (hex : ∀ s o s', ex s o s' ↔ o = (g s).1 ∧ s' = (g s).2)
    (h : ∀ s, Reach M C (i, s) (pos (g s).1, (g s).2)) : Sim M C ex i pos where
  fwd := by
    intro s o s' he
    obtain ⟨rfl, rfl⟩ := (hex _ _ _).1 he
    exact h s
  bwd := by
    intro σ n s hh
    obtain ⟨n', h1, h2⟩ := (h s).halt hU hh
    exact ⟨_, _, n', h1, (hex _ _ _).2 ⟨rfl, rfl⟩, h2⟩

theorem Sim.post (hU : Unique C) {pos' : Out → Nat} (h : Sim M C ex i pos) (hp : ∀ o s, Reach M C (pos o, s) (pos' o, s)) : Sim M C ex i pos' where
  fwd := fun s o s' he => (h.fwd s o s' he).trans (hp o s')
  bwd := by
    intro σ n s hh
    obtain ⟨o, s', n', h1, h2, h3⟩ := h.bwd σ n s hh
    obtain ⟨n2, h4, h5⟩ := (hp o s').halt hU h3
    exact ⟨o, s', n2, by omega, h2, h5⟩

theorem Sim.pre (hU : Unique C) (g : S × Flags → S × Flags) (hg : ∀ s, Reach M C (i, s) (k, g s)) (h : Sim M C ex k pos) :
    Sim M C (fun s o s' => ex (g s) o s') i pos where
  fwd := fun s o s' he => (hg s).trans (h.fwd _ o s' he)
  bwd := by
    intro σ n s hh
    obtain ⟨n1, h1, h2⟩ := (hg s).halt hU hh
    obtain ⟨o, s', n', h3, h4, h5⟩ := h.bwd σ n1 _ h2
    exact ⟨o, s', n', by omega, h4, h5⟩

theorem Sim.seq {e : Nat} (jb jc : Nat) (h1 : Sim M C ex i (posOf k jb jc)) (h2 : Sim M C ex' k (posOf e jb jc)) :
    Sim M C (fun s o s' => (∃ s1, ex s .norm s1 ∧ ex' s1 o s') ∨ (o ≠ .norm ∧ ex s o s')) i (posOf e jb jc) where
  fwd := by
    rintro s o s' (⟨s1, ha, hb⟩ | ⟨ho, ha⟩)
    · exact (h1.fwd _ _ _ ha).trans (h2.fwd _ _ _ hb)
    · have := h1.fwd _ _ _ ha
      cases o with
      | norm => exact absurd rfl ho
      | brk => exact this
      | cont => exact this
  bwd := by
    intro σ n s hh
    obtain ⟨o, s1, n1, h3, h4, h5⟩ := h1.bwd σ n s hh
    cases o with
    | norm =>
      obtain ⟨o, s', n', h6, h7, h8⟩ := h2.bwd σ n1 _ h5
      exact ⟨o, s', n', by omega, .inl ⟨s1, h4, h7⟩, h8⟩
    | brk => exact ⟨.brk, s1, n1, h3, .inr ⟨by simp, h4⟩, h5⟩
    | cont => exact ⟨.cont, s1, n1, h3, .inr ⟨by simp, h4⟩, h5⟩

theorem Sim.ite (hU : Unique C) (c : S × Flags → Bool × S × Flags) {k1 k2 : Nat}
    (hT : ∀ s, (c s).1 = true → Reach M C (i, s) (k1, (c s).2))
    (hF : ∀ s, (c s).1 = false → Reach M C (i, s) (k2, (c s).2)) (h1 : Sim M C ex k1 pos) (h2 : Sim M C ex' k2 pos) :
    Sim M C (fun s o s' => ((c s).1 = true ∧ ex (c s).2 o s') ∨ ((c s).1 = false ∧ ex' (c s).2 o s')) i pos where
  fwd := by
    rintro s o s' (⟨ha, hb⟩ | ⟨ha, hb⟩)
    · exact (hT s ha).trans (h1.fwd _ _ _ hb)
    · exact (hF s ha).trans (h2.fwd _ _ _ hb)
  bwd := by
    intro σ n s hh
    cases hc : (c s).1 with
    | true =>
      obtain ⟨n1, h3, h4⟩ := (hT s hc).halt hU hh
      obtain ⟨o, s', n', h5, h6, h7⟩ := h1.bwd σ n1 _ h4
      exact ⟨o, s', n', by omega, .inl ⟨rfl, h6⟩, h7⟩
    | false =>
      obtain ⟨n1, h3, h4⟩ := (hF s hc).halt hU hh
      obtain ⟨o, s', n', h5, h6, h7⟩ := h2.bwd σ n1 _ h4
      exact ⟨o, s', n', by omega, .inr ⟨rfl, h6⟩, h7⟩

theorem Sim.loop (hU : Unique C) {c : S × Flags → Bool × S × Flags} {nxt : S × Flags → S × Flags} {it ib ie en jb jc x y : Nat}
    (hT : ∀ s, (c s).1 = true → Reach1 M C (it, s) (ib, (c s).2))
    (hF : ∀ s, (c s).1 = false → Reach M C (it, s) (ie, (c s).2))
    (hb : Sim M C ex ib (posOf en jb jc)) (h1 : ∀ s, Reach M C (en, s) (it, nxt s)) (h2 : ∀ s, Reach M C (jc, s) (it, nxt s))
    (h3 : ∀ s, Reach M C (jb, s) (ie, s)) :
    Sim M C (fun s o s' => o = .norm ∧ LoopEx c ex nxt s s') it (posOf ie x y) where
  fwd := by
    rintro s o s' ⟨rfl, h⟩
    refine loop_fwd hT hF (fun s s' h => (hb.fwd _ _ _ h).trans (h3 _)) ?_ h
    intro s o s' h ho
    cases o with
    | norm => exact (hb.fwd _ _ _ h).trans (h1 _)
    | brk => exact absurd rfl ho
    | cont => exact (hb.fwd _ _ _ h).trans (h2 _)
  bwd := by
    intro σ n s hh
    obtain ⟨s', n', h4, h5, h6⟩ := loop_bwd hU (body := ex) (nxt := nxt) (σ := σ) hT hF (by
      intro n s hh
      obtain ⟨o, s', n', h4, h5, h6⟩ := hb.bwd σ n s hh
      cases o with
      | norm =>
        obtain ⟨n2, h7, h8⟩ := (h1 s').halt hU h6
        exact ⟨.norm, s', n2, by omega, h5, by simp, fun _ => h8⟩
      | cont =>
        obtain ⟨n2, h7, h8⟩ := (h2 s').halt hU h6
        exact ⟨.cont, s', n2, by omega, h5, by simp, fun _ => h8⟩
      | brk =>
        obtain ⟨n2, h7, h8⟩ := (h3 s').halt hU h6
        exact ⟨.brk, s', n2, by omega, h5, fun _ => h8, by simp⟩) n s hh
    exact ⟨.norm, s', n', h4, ⟨rfl, h5⟩, h6⟩

theorem Sim.rep (hU : Unique C) {u : S × Flags → Bool × S × Flags} {is ib iu ie en jb jc x y : Nat}
    (hS : ∀ s, Reach1 M C (is, s) (ib, s))
    (hT : ∀ s, (u s).1 = true → Reach M C (iu, s) (ie, (u s).2))
    (hF : ∀ s, (u s).1 = false → Reach M C (iu, s) (is, (u s).2))
    (hb : Sim M C ex ib (posOf en jb jc)) (h1 : ∀ s, Reach M C (en, s) (iu, s)) (h2 : ∀ s, Reach M C (jc, s) (iu, s))
    (h3 : ∀ s, Reach M C (jb, s) (ie, s)) :
    Sim M C (fun s o s' => o = .norm ∧ RepeatEx ex u s s') is (posOf ie x y) where
  fwd := by
    rintro s o s' ⟨rfl, h⟩
    refine rep_fwd hS hT hF (fun s s' h => (hb.fwd _ _ _ h).trans (h3 _)) ?_ h
    intro s o s' h ho
    cases o with
    | norm => exact (hb.fwd _ _ _ h).trans (h1 _)
    | brk => exact absurd rfl ho
    | cont => exact (hb.fwd _ _ _ h).trans (h2 _)
  bwd := by
    intro σ n s hh
    obtain ⟨s', n', h4, h5, h6⟩ := rep_bwd hU (body := ex) (σ := σ) hS hT hF (by
      intro n s hh
      obtain ⟨o, s', n', h4, h5, h6⟩ := hb.bwd σ n s hh
      cases o with
      | norm =>
        obtain ⟨n2, h7, h8⟩ := (h1 s').halt hU h6
        exact ⟨.norm, s', n2, by omega, h5, by simp, fun _ => h8⟩
      | cont =>
        obtain ⟨n2, h7, h8⟩ := (h2 s').halt hU h6
        exact ⟨.cont, s', n2, by omega, h5, by simp, fun _ => h8⟩
      | brk =>
        obtain ⟨n2, h7, h8⟩ := (h3 s').halt hU h6
        exact ⟨.brk, s', n2, by omega, h5, fun _ => h8, by simp⟩) n s hh
    exact ⟨.norm, s', n', h4, ⟨rfl, h5⟩, h6⟩

/-! ### Statements -/

theorem Els.le_at : (e : Els (OrE α) β) → {L : Lbl} → {lt le : Nat} → {ec : List (BLine α β)} → e.Shape M L lt le ec → le ≠ 0 →
    ∃ r, ec = r ++ [label1 le]
  | .endif, L, lt, le, ec, h, hl => ⟨lab lt, by simp only [Els.Shape] at h; rw [h]; congr 1; simp [lab, hl, label1]⟩
  | .els p, L, lt, le, ec, h, hl => by
    simp only [Els.Shape] at h
    obtain ⟨_, pc, _, rfl⟩ := h
    exact ⟨[jmpTo le] ++ (lab lt ++ pc), by simp⟩
  | .elif c t e, L, lt, le, ec, h, hl => by
    simp only [Els.Shape] at h
    obtain ⟨_, lt', cc, tc, ec, _, _, _, he, rfl⟩ := h
    obtain ⟨r, rfl⟩ := Els.le_at e he hl
    exact ⟨[jmpTo le] ++ (lab lt ++ (gens cc ++ (tc ++ r))), by simp⟩

/-- The line to which the code of the condition jumps. -/
def Els.entry : Els (OrE α) β → Nat
  | .endif => 0
  | _ => 1

theorem Els.entry_at (e : Els (OrE α) β) {L : Lbl} {lt le : Nat} {ec : List (BLine α β)} (h : e.Shape M L lt le ec) (hl : lt ≠ 0) :
    ec[e.entry]? = some (label1 lt) := by
  have hlab : (lab lt : List (BLine α β)) = [label1 lt] := by rw [lab, if_neg hl]; rfl
  cases e with
  | endif => simp only [Els.Shape] at h; simp [h, hlab, Els.entry]
  | els p =>
    simp only [Els.Shape] at h
    obtain ⟨_, pc, _, rfl⟩ := h
    simp [hlab, Els.entry]
  | elif c t e =>
    simp only [Els.Shape] at h
    obtain ⟨_, lt', cc, tc, ec, _, _, _, he, rfl⟩ := h
    simp [hlab, Els.entry]

/-- The end of the first block: over the rest of the statement. -/
theorem Els.over (e : Els (OrE α) β) {L : Lbl} {lt le i : Nat} {ec : List (BLine α β)} (h : e.Shape M L lt le ec) (hat : At C i ec)
    (st : S × Flags) : Reach M C (i, st) (i + ec.length, st) := by
  have key : le ≠ 0 → C[i]? = some (jmpTo le) → Reach M C (i, st) (i + ec.length, st) := by
    intro hle hj
    obtain ⟨r, rfl⟩ := Els.le_at e h hle
    have hl := hat.right.head
    have := reach_label (M := M) (st := st) hl
    rw [List.length_append]
    exact (reach_jmp hj hl).trans this.reach
  cases e with
  | endif =>
    simp only [Els.Shape] at h
    subst h
    have := (reach_lab (M := M) (st := st) hat.left).trans (reach_lab hat.right)
    rwa [Nat.add_assoc, ← List.length_append] at this
  | els p =>
    have h' := h
    simp only [Els.Shape] at h'
    obtain ⟨hle, pc, _, rfl⟩ := h'
    exact key hle hat.head
  | elif c t e =>
    have h' := h
    simp only [Els.Shape] at h'
    obtain ⟨hle, _, _, _, _, _, _, _, _, rfl⟩ := h'
    exact key hle hat.head

theorem cond_true {c : OrE α} {m : Bool} {l i j : Nat} {cc : List (Line α)} {st : S × Flags} (hc : CondCode M c m l cc)
    (h : At C i (gens cc)) (hm : (condEv M c st).1 = m) (hj : C[j]? = some (label1 l)) : Reach M C (i, st) (j, (condEv M c st).2) := by
  have := reach_cond hc h (st := st) (j := j) (fun _ => hj)
  rwa [if_pos hm] at this

theorem cond_false {c : OrE α} {m : Bool} {l i : Nat} {cc : List (Line α)} {st : S × Flags} (hc : CondCode M c m l cc)
    (h : At C i (gens cc)) (hm : (condEv M c st).1 ≠ m) : Reach M C (i, st) (i + cc.length, (condEv M c st).2) := by
  have := reach_cond hc h (st := st) (j := 0) (fun h => absurd h hm)
  rwa [if_neg hm] at this

theorem cond_nil {c : OrE α} {m : Bool} {l : Nat} (hc : CondCode M c m l []) (st : S × Flags) : (condEv M c st).1 ≠ m := by
  intro h
  have := hc st.1 st.2
  simp only [condEv] at h
  rw [if_pos h] at this
  exact absurd (this.det _ (.done rfl)).1 (by simp)

theorem until_ok {u : Until (OrE α)} {ls i j : Nat} {uc : List (BLine α β)} (h : u.Shape M ls uc) (hat : At C i uc)
    (hj : C[j]? = some (label1 ls)) (st : S × Flags) :
    ((untilEv M u st).1 = true → Reach M C (i, st) (i + uc.length, (untilEv M u st).2)) ∧
    ((untilEv M u st).1 = false → Reach M C (i, st) (j, (untilEv M u st).2)) := by
  cases u with
  | cond c =>
    obtain ⟨cc, rfl, hc⟩ := h
    refine ⟨fun hv => ?_, fun hv => cond_true hc hat (st := st) hv hj⟩
    rw [gens_length]
    exact cond_false hc hat (st := st) (by simp only [untilEv] at hv; simp [hv])
  | cxz =>
    obtain rfl := h
    refine ⟨fun hv => ?_, fun hv => ?_⟩
    · exact (Step.loopNo (M := M) (s := st.1) (f := st.2) hat.head (by simp only [untilEv] at hv; simp [loopTaken, loopFlag, hv])).reach1.reach
    · exact (Step.loopYes (M := M) (s := st.1) (f := st.2) hat.head (by simp only [untilEv] at hv; simp [loopTaken, loopFlag, hv]) hj).reach1.reach
  | cxzCond c =>
    obtain ⟨ins, k, rfl, hc⟩ := h
    have h1 := (Step.ins (M := M) (s := st.1) (f := st.2) hat.head).reach1.reach
    obtain ⟨h2, h3⟩ := hc st.1 st.2
    have e : (untilEv M (.cxzCond c) st).2 = (M.dec st.1, ins.exec (M.env st.1)) := by simp only [untilEv, condEv, h2]
    have e' : (untilEv M (.cxzCond c) st).1 = ((c.eval (M.env st.1) st.2).1 || M.cxz (M.dec st.1)) := rfl
    rw [e, e']
    refine ⟨fun hv => h1.trans ?_, fun hv => h1.trans ?_⟩
    · exact (Step.loopNo (M := M) (s := st.1) (f := ins.exec (M.env st.1)) hat.tail.head (by
        simp only [loopTaken, h3]
        revert hv
        cases M.cxz (M.dec st.1) <;> cases (c.eval (M.env st.1) st.2).1 <;> simp)).reach1.reach
    · exact (Step.loopYes (M := M) (s := st.1) (f := ins.exec (M.env st.1)) hat.tail.head (by
        simp only [loopTaken, h3]
        revert hv
        cases M.cxz (M.dec st.1) <;> cases (c.eval (M.env st.1) st.2).1 <;> simp) hj).reach1.reach

theorem Reach.cast {x : Nat × S × Flags} {a b : Nat} {s : S × Flags} (h : Reach M C x (a, s)) (e : a = b) : Reach M C x (b, s) := e ▸ h

theorem lab_at {i l : Nat} (h : At C i (lab l)) (hl : l ≠ 0) : C[i]? = some (label1 l) := by
  rw [lab, if_neg hl] at h
  exact h.head

mutual
theorem Stmt.sim (hU : Unique C) : (p : Stmt (OrE α) β) → (L : Lbl) → (code : List (BLine α β)) → (i jb jc : Nat) →
    p.Shape M L code → At C i code → (L.brk ≠ 0 → C[jb]? = some (label1 L.brk)) → (L.cont ≠ 0 → C[jc]? = some (label1 L.cont)) →
    Sim M C (p.Exec M) i (posOf (i + code.length) jb jc)
  | .skip, L, code, i, jb, jc, h, hat, hb, hc => by
    simp only [Stmt.Shape] at h
    subst h
    refine Sim.of_reach hU (fun s => (.norm, s)) (fun s o s' => by simp [Stmt.Exec]) (fun s => .refl)
  | .user u, L, code, i, jb, jc, h, hat, hb, hc => by
    simp only [Stmt.Shape] at h
    subst h
    exact Sim.of_reach hU (fun s => (.norm, M.act u s)) (fun s o s' => by simp [Stmt.Exec]) (fun s => (Step.user hat.head).reach1.reach)
  | .seq a b, L, code, i, jb, jc, h, hat, hb, hc => by
    simp only [Stmt.Shape] at h
    obtain ⟨ac, bc, ha, hb', rfl⟩ := h
    have h1 := Stmt.sim hU a L ac i jb jc ha hat.left hb hc
    have h2 := Stmt.sim hU b L bc _ jb jc hb' hat.right hb hc
    have := Sim.seq jb jc h1 h2
    simp only [List.length_append, ← Nat.add_assoc]
    exact this
  | .ifs c t e, L, code, i, jb, jc, h, hat, hb, hc => by
    simp only [Stmt.Shape] at h
    obtain ⟨lt, le, cc, tc, ec, h1, h2, h3, h4, rfl⟩ := h
    have ht := Stmt.sim hU t L tc _ jb jc h3 hat.right.left hb hc
    have he := Els.sim hU e L lt le ec _ jb jc h4 hat.right.right hb hc
    have ho := fun st => Els.over (C := C) e h4 hat.right.right st
    rw [gens_length] at *
    simp only [List.length_append, gens_length]
    rw [← Nat.add_assoc, ← Nat.add_assoc]
    refine Sim.ite hU (condEv M c) (k1 := i + cc.length) (k2 := i + cc.length + tc.length + e.entry) ?_ ?_ (ht.post hU ?_) he
    · intro s hs
      exact cond_false h1 hat.left (by simp [hs])
    · intro s hs
      by_cases hl : lt = 0
      · obtain rfl := h2 hl
        exact absurd hs (cond_nil h1 s)
      · refine cond_true h1 hat.left hs ?_
        have := hat.right.right _ _ (Els.entry_at e h4 hl)
        rwa [gens_length] at this
    · intro o s
      cases o with
      | norm => exact ho s
      | brk => exact .refl
      | cont => exact .refl
  | .whil c b, L, code, i, jb, jc, h, hat, hb, hc => by
    simp only [Stmt.Shape] at h
    obtain ⟨ls, lt, lx, bc, cc, hls, h1, h2, ⟨hlt, rfl⟩ | ⟨rfl, h3, rfl⟩⟩ := h
    · rw [if_neg hlt] at h1
      have a1 := hat.head
      have a2 := hat.right.head
      have a3 := hat.right.right.left
      have a4 := hat.right.right.right.head
      have a5 := hat.right.right.right.right.left
      have a6 := hat.right.right.right.right.right
      simp only [List.length_append, List.length_cons, List.length_nil, gens_length] at *
      have hs := Stmt.sim hU b ⟨lx, lt⟩ bc _ _ _ h1 a3 (fun h => lab_at a6 h) (fun _ => a4)
      have hl := fun st => reach_lab (M := M) (st := st) a6
      refine Sim.pre hU id (fun s => reach_jmp a1 a4) ?_
      refine Sim.loop hU (c := condEv M c) (nxt := id) ?_ ?_ hs (fun s => .refl) (fun s => .refl) ?_
      · intro s hs
        exact (reach_label a4).trans ((cond_true h2 a5 hs a2).trans (reach_label a2).reach)
      · intro s hs
        have := (reach_label (M := M) a4).reach.trans ((cond_false h2 a5 (st := s) (by simp [hs])).trans (hl _))
        exact this.cast (by simp; omega)
      · intro s
        exact (hl s).cast (by simp [gens_length]; omega)
    · rw [if_pos rfl] at h1
      have a2 := hat.head
      have a3 := hat.right.left
      have a5 := hat.right.right.left
      have a6 := hat.right.right.right
      simp only [List.length_append, List.length_cons, List.length_nil, gens_length] at *
      have hs := Stmt.sim hU b ⟨lx, ls⟩ bc _ _ _ h1 a3 (fun h => lab_at a6 h) (fun _ => a2)
      have hl := fun st => reach_lab (M := M) (st := st) a6
      refine Sim.loop hU (c := condEv M c) (nxt := id) (ib := i + (0 + 1)) ?_ ?_ hs ?_ (fun s => .refl) ?_
      · intro s _
        rw [h3]
        exact reach_label a2
      · intro s hs
        rw [h3] at hs; cases hs
      · intro s
        have := cond_true h2 a5 (st := s) (by rw [h3]) a2
        rwa [h3] at this
      · intro s
        exact (hl s).cast (by simp [gens_length]; omega)
  | .rep b u, L, code, i, jb, jc, h, hat, hb, hc => by
    simp only [Stmt.Shape] at h
    obtain ⟨ls, lt, lx, bc, uc, hls, h1, h2, rfl⟩ := h
    have a1 := hat.head
    have a2 := hat.right.left
    have a3 := hat.right.right.left
    have a4 := hat.right.right.right.left
    have a5 := hat.right.right.right.right
    have hl1 := fun st => reach_lab (M := M) (st := st) a3
    have hl := fun st => reach_lab (M := M) (st := st) a5
    have hs := Stmt.sim hU b ⟨lx, lt⟩ bc _ _ _ h1 a2 (fun h => lab_at a5 h) (fun h => lab_at a3 h)
    have hu := fun st => until_ok (M := M) h2 a4 a1 st
    refine Sim.rep hU (u := untilEv M u) (fun s => reach_label a1) ?_ ?_ hs hl1 hl1 ?_
    · intro s hs
      exact (((hu s).1 hs).trans (hl _)).cast (by simp; omega)
    · intro s hs
      exact (hu s).2 hs
    · intro s
      exact (hl s).cast (by simp [gens_length]; omega)
  | .forl init none count b, L, code, i, jb, jc, h, hat, hb, hc => by
    simp only [Stmt.Shape] at h
    obtain ⟨ls, lc, lx, bc, hls, ⟨h1, rfl⟩ | ⟨h1, rfl, rfl⟩⟩ := h
    · have a0 := hat.left
      have a1 := hat.right.head
      have a2 := hat.right.right.left
      have a3 := hat.right.right.right.left
      have a4 := hat.right.right.right.right.left
      have a5 := hat.right.right.right.right.right.head
      have a6 := hat.right.right.right.right.right.right
      have hl1 := fun st => reach_lab (M := M) (st := st) a3
      have hl := fun st => reach_lab (M := M) (st := st) a6
      have hs := Stmt.sim hU b ⟨lx, lc⟩ bc _ _ _ h1 a2 (fun h => lab_at a6 h) (fun h => lab_at a3 h)
      have hn : ∀ s, Reach M C _ _ := fun s => (hl1 s).trans ((reach_users (M := M) (st := s) a4).trans
        (reach_jmp (M := M) (st := actAll M count s) a5 a1))
      refine Sim.pre hU (ex := fun s o s' => o = .norm ∧ LoopEx (fun s => (true, s)) (b.Exec M) (actAll M count) s s')
        (actAll M init) (fun s => reach_users a0) ?_
      refine Sim.loop hU (c := fun s => (true, s)) (nxt := actAll M count) (fun s _ => reach_label a1) (by simp) hs hn hn ?_
      intro s
      exact (hl s).cast (by simp [gens_length]; omega)
    · have a0 := hat.left
      have a1 := hat.right.head
      have a2 := hat.right.right.left
      have a5 := hat.right.right.right.head
      have a6 := hat.right.right.right.right
      have hl := fun st => reach_lab (M := M) (st := st) a6
      have hs := Stmt.sim hU b ⟨lx, ls⟩ bc _ _ _ h1 a2 (fun h => lab_at a6 h) (fun h => a1)
      refine Sim.pre hU (ex := fun s o s' => o = .norm ∧ LoopEx (fun s => (true, s)) (b.Exec M) (actAll M []) s s')
        (actAll M init) (fun s => reach_users a0) ?_
      refine Sim.loop hU (c := fun s => (true, s)) (nxt := actAll M []) (fun s _ => reach_label a1) (by simp) hs
        (fun s => reach_jmp a5 a1) (fun s => .refl) ?_
      intro s
      exact (hl s).cast (by simp [gens_length]; omega)
  | .forl init (some c) count b, L, code, i, jb, jc, h, hat, hb, hc => by
    simp only [Stmt.Shape] at h
    obtain ⟨ls, lt, lc, lx, bc, cc, hls, hlt, h1, h2, rfl⟩ := h
    have a0 := hat.left
    have a0' := hat.right.head
    have a1 := hat.right.right.head
    have a2 := hat.right.right.right.left
    have a3 := hat.right.right.right.right.left
    have a4 := hat.right.right.right.right.right.left
    have a5 := hat.right.right.right.right.right.right.head
    have a6 := hat.right.right.right.right.right.right.right.left
    have a7 := hat.right.right.right.right.right.right.right.right
    have hl1 := fun st => reach_lab (M := M) (st := st) a3
    have hl := fun st => reach_lab (M := M) (st := st) a7
    have hs := Stmt.sim hU b ⟨lx, lc⟩ bc _ _ _ h1 a2 (fun h => lab_at a7 h) (fun h => lab_at a3 h)
    have hn : ∀ s, Reach M C _ _ := fun s => (hl1 s).trans (reach_users (M := M) (st := s) a4)
    refine Sim.pre hU (ex := fun s o s' => o = .norm ∧ LoopEx (condEv M c) (b.Exec M) (actAll M count) s s')
      (actAll M init) (fun s => (reach_users (M := M) (st := s) a0).trans (reach_jmp a0' a5)) ?_
    refine Sim.loop hU (c := condEv M c) (nxt := actAll M count) ?_ ?_ hs hn hn ?_
    · intro s hs
      exact (reach_label a5).trans ((cond_true h2 a6 hs a1).trans (reach_label a1).reach)
    · intro s hs
      have := (reach_label (M := M) a5).reach.trans ((cond_false h2 a6 (st := s) (by simp [hs])).trans (by
        have := hl (condEv M c s).2; rw [gens_length] at this; exact this))
      exact this.cast (by simp [gens_length]; omega)
    · intro s
      exact (hl s).cast (by simp [gens_length]; omega)
  | .brk none, L, code, i, jb, jc, h, hat, hb, hc => by
    simp only [Stmt.Shape] at h
    obtain ⟨hl, rfl⟩ := h
    exact Sim.of_reach hU (fun s => (.brk, s)) (fun s o s' => by simp [Stmt.Exec]) (fun s => reach_jmp hat.head (hb hl))
  | .brk (some c), L, code, i, jb, jc, h, hat, hb, hc => by
    simp only [Stmt.Shape] at h
    obtain ⟨hl, cc, h1, rfl⟩ := h
    refine Sim.of_reach hU (fun s => (if (condEv M c s).1 then .brk else .norm, (condEv M c s).2))
      (fun s o s' => by simp only [Stmt.Exec]) (fun s => ?_)
    have := reach_cond (st := s) h1 hat (fun _ => hb hl)
    cases hv : (condEv M c s).1 with
    | true => simpa [hv, posOf] using this
    | false => simpa [hv, posOf, gens_length] using this
  | .cont none, L, code, i, jb, jc, h, hat, hb, hc => by
    simp only [Stmt.Shape] at h
    obtain ⟨hl, rfl⟩ := h
    exact Sim.of_reach hU (fun s => (.cont, s)) (fun s o s' => by simp [Stmt.Exec]) (fun s => reach_jmp hat.head (hc hl))
  | .cont (some c), L, code, i, jb, jc, h, hat, hb, hc => by
    simp only [Stmt.Shape] at h
    obtain ⟨hl, cc, h1, rfl⟩ := h
    refine Sim.of_reach hU (fun s => (if (condEv M c s).1 then .cont else .norm, (condEv M c s).2))
      (fun s o s' => by simp only [Stmt.Exec]) (fun s => ?_)
    have := reach_cond (st := s) h1 hat (fun _ => hc hl)
    cases hv : (condEv M c s).1 with
    | true => simpa [hv, posOf] using this
    | false => simpa [hv, posOf, gens_length] using this
theorem Els.sim (hU : Unique C) : (e : Els (OrE α) β) → (L : Lbl) → (lt le : Nat) → (ec : List (BLine α β)) → (i jb jc : Nat) →
    e.Shape M L lt le ec → At C i ec → (L.brk ≠ 0 → C[jb]? = some (label1 L.brk)) → (L.cont ≠ 0 → C[jc]? = some (label1 L.cont)) →
    Sim M C (e.Exec M) (i + e.entry) (posOf (i + ec.length) jb jc)
  | .endif, L, lt, le, ec, i, jb, jc, h, hat, hb, hc => by
    have h' := h
    exact Sim.of_reach hU (fun s => (.norm, s)) (fun s o s' => by simp [Els.Exec]) (fun s => Els.over .endif h hat s)
  | .els p, L, lt, le, ec, i, jb, jc, h, hat, hb, hc => by
    simp only [Els.Shape] at h
    obtain ⟨hl, pc, h1, rfl⟩ := h
    have a1 := hat.right.left
    have a2 := hat.right.right.left
    have a3 := hat.right.right.right.head
    have hs := Stmt.sim hU p L pc _ jb jc h1 a2 hb hc
    refine Sim.pre hU id (fun s => reach_lab a1) (hs.post hU ?_)
    intro o s
    cases o with
    | norm => exact (reach_label (M := M) (st := s) a3).reach.cast (by simp [posOf]; omega)
    | brk => exact .refl
    | cont => exact .refl
  | .elif c t e, L, lt, le, ec, i, jb, jc, h, hat, hb, hc => by
    simp only [Els.Shape] at h
    obtain ⟨hl, lt', cc, tc, ec, h1, h2, h3, h4, rfl⟩ := h
    have a1 := hat.right.left
    have a2 := hat.right.right.left
    have a3 := hat.right.right.right.left
    have a4 := hat.right.right.right.right
    have ht := Stmt.sim hU t L tc _ jb jc h3 a3 hb hc
    have he := Els.sim hU e L lt' le ec _ jb jc h4 a4 hb hc
    have ho := fun st => Els.over (C := C) e h4 a4 st
    refine Sim.pre hU id (fun s => reach_lab a1) ?_
    refine Sim.ite hU (condEv M c) (k1 := _) (k2 := _) ?_ ?_ (ht.post hU ?_) (he.post hU ?_)
    · intro s hs
      have := cond_false h1 a2 (st := s) (by simp [hs])
      rwa [gens_length]
    · intro s hs
      exact cond_true h1 a2 hs (a4 _ _ (Els.entry_at e h4 h2))
    · intro o s
      cases o with
      | norm => exact (ho s).cast (by simp [posOf]; omega)
      | brk => exact .refl
      | cont => exact .refl
    · intro o s
      cases o with
      | norm => exact Reach.refl.cast (by simp [posOf]; omega)
      | brk => exact .refl
      | cont => exact .refl
end

end
end Verif.Hll
