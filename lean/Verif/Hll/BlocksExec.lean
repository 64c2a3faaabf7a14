import Verif.Hll.BlocksSpec
/-! The form of the code of a program, and its execution. -/
namespace Verif.Hll
section
variable {α β S : Type} (M : Mach α β S)

/-- Code for a condition: jump to `l` if the value is `m`. -/
def CondCode (c : OrE α) (m : Bool) (l : Nat) (code : List (Line α)) : Prop :=
  ∀ s f, Run (M.env s) code 0 f (if (c.eval (M.env s) f).1 = m then .to l else .fall) (c.eval (M.env s) f).2

/-- The labels of the innermost loop. -/
structure Lbl where
  brk : Nat
  cont : Nat

def label1 (l : Nat) : BLine α β := .gen (.label l)

def Until.Shape (ls : Nat) : Until (OrE α) → List (BLine α β) → Prop
  | .cond c, uc => ∃ cc, uc = gens cc ∧ CondCode M c false ls cc
  | .cxz, uc => uc = [.loop .loop ls]
  | .cxzCond c, uc => ∃ i k, uc = [.gen (.ins i), .loop k ls] ∧ ∀ s f,
      (c.eval (M.env s) f).2 = i.exec (M.env s) ∧
      loopFlag k (i.exec (M.env s)) = !(c.eval (M.env s) f).1

mutual
def Stmt.Shape (L : Lbl) : Stmt (OrE α) β → List (BLine α β) → Prop
  | .skip, code => code = []
  | .user u, code => code = [.user u]
  | .seq a b, code => ∃ ac bc, a.Shape L ac ∧ b.Shape L bc ∧ code = ac ++ bc
  | .ifs c t e, code => ∃ lt le cc tc ec, CondCode M c false lt cc ∧ (lt = 0 → cc = []) ∧ t.Shape L tc ∧ e.Shape L lt le ec ∧
      code = gens cc ++ (tc ++ ec)
  | .whil c b, code => ∃ ls lt lx bc cc, ls ≠ 0 ∧ b.Shape ⟨lx, if lt = 0 then ls else lt⟩ bc ∧ CondCode M c true ls cc ∧
      ((lt ≠ 0 ∧ code = [jmpTo lt] ++ ([label1 ls] ++ (bc ++ ([label1 lt] ++ (gens cc ++ lab lx))))) ∨
       (lt = 0 ∧ (∀ st, condEv M c st = (true, st)) ∧ code = [label1 ls] ++ (bc ++ (gens cc ++ lab lx))))
  | .rep b u, code => ∃ ls lt lx bc uc, ls ≠ 0 ∧ b.Shape ⟨lx, lt⟩ bc ∧ u.Shape M ls uc ∧
      code = [label1 ls] ++ (bc ++ (lab lt ++ (uc ++ lab lx)))
  | .forl init c count b, code =>
    match c with
    | none => ∃ ls lc lx bc, ls ≠ 0 ∧
        ((b.Shape ⟨lx, lc⟩ bc ∧
          code = init.map .user ++ ([label1 ls] ++ (bc ++ (lab lc ++ (count.map .user ++ ([jmpTo ls] ++ lab lx)))))) ∨
         (b.Shape ⟨lx, ls⟩ bc ∧ count = [] ∧ code = init.map .user ++ ([label1 ls] ++ (bc ++ ([jmpTo ls] ++ lab lx)))))
    | some c => ∃ ls lt lc lx bc cc, ls ≠ 0 ∧ lt ≠ 0 ∧ b.Shape ⟨lx, lc⟩ bc ∧ CondCode M c true ls cc ∧
        code = init.map .user ++ ([jmpTo lt] ++ ([label1 ls] ++ (bc ++ (lab lc ++ (count.map .user ++ ([label1 lt] ++
          (gens cc ++ lab lx)))))))
  | .brk none, code => L.brk ≠ 0 ∧ code = [jmpTo L.brk]
  | .brk (some c), code => L.brk ≠ 0 ∧ ∃ cc, CondCode M c true L.brk cc ∧ code = gens cc
  | .cont none, code => L.cont ≠ 0 ∧ code = [jmpTo L.cont]
  | .cont (some c), code => L.cont ≠ 0 ∧ ∃ cc, CondCode M c true L.cont cc ∧ code = gens cc
def Els.Shape (L : Lbl) (lt le : Nat) : Els (OrE α) β → List (BLine α β) → Prop
  | .endif, code => code = lab lt ++ lab le
  | .els p, code => le ≠ 0 ∧ ∃ pc, p.Shape L pc ∧ code = [jmpTo le] ++ (lab lt ++ (pc ++ [label1 le]))
  | .elif c t e, code => le ≠ 0 ∧ ∃ lt' cc tc ec, CondCode M c false lt' cc ∧ lt' ≠ 0 ∧ t.Shape L tc ∧ e.Shape L lt' le ec ∧
      code = [jmpTo le] ++ (lab lt ++ (gens cc ++ (tc ++ ec)))
end

variable {M} {C : List (BLine α β)}

/-! ### Positions -/

def At (C : List (BLine α β)) (i : Nat) (code : List (BLine α β)) : Prop := ∀ k x, code[k]? = some x → C[i + k]? = some x

theorem At.left {i : Nat} {a b : List (BLine α β)} (h : At C i (a ++ b)) : At C i a := by
  intro k x hx
  apply h
  rw [List.getElem?_append_left (by have := (List.getElem?_eq_some_iff.1 hx).1; exact this)]; exact hx

theorem At.right {i : Nat} {a b : List (BLine α β)} (h : At C i (a ++ b)) : At C (i + a.length) b := by
  intro k x hx
  have := h (a.length + k) x (by rw [List.getElem?_append_right (by omega)]; simpa using hx)
  rwa [Nat.add_assoc]

theorem At.head {i : Nat} {x : BLine α β} {r : List (BLine α β)} (h : At C i (x :: r)) : C[i]? = some x := by
  simpa using h 0 x rfl

theorem At.tail {i : Nat} {x : BLine α β} {r : List (BLine α β)} (h : At C i (x :: r)) : At C (i + 1) r := At.right (a := [x]) h

/-! ### Steps -/

theorem Steps.append {m n : Nat} {x y z : Nat × S × Flags} (h1 : Steps M C m x y) (h2 : Steps M C n y z) : Steps M C (m + n) x z := by
  induction h1 with
  | zero => simpa using h2
  | succ hs _ ih => rw [Nat.add_right_comm]; exact .succ hs (ih h2)

def Reach (M : Mach α β S) (C : List (BLine α β)) (x y : Nat × S × Flags) : Prop := ∃ n, Steps M C n x y
def Reach1 (M : Mach α β S) (C : List (BLine α β)) (x y : Nat × S × Flags) : Prop := ∃ n, Steps M C (n + 1) x y

theorem Reach.refl {x : Nat × S × Flags} : Reach M C x x := ⟨0, .zero⟩
theorem Reach.trans {x y z : Nat × S × Flags} (h1 : Reach M C x y) (h2 : Reach M C y z) : Reach M C x z :=
  ⟨_, h1.choose_spec.append h2.choose_spec⟩
theorem Reach1.reach {x y : Nat × S × Flags} (h : Reach1 M C x y) : Reach M C x y := ⟨_, h.choose_spec⟩
theorem Reach1.trans {x y z : Nat × S × Flags} (h1 : Reach1 M C x y) (h2 : Reach M C y z) : Reach1 M C x z := by
  obtain ⟨m, h1⟩ := h1; obtain ⟨n, h2⟩ := h2
  exact ⟨m + n, by rw [Nat.add_right_comm]; exact h1.append h2⟩
theorem Reach.trans1 {x y z : Nat × S × Flags} (h1 : Reach M C x y) (h2 : Reach1 M C y z) : Reach1 M C x z := by
  obtain ⟨m, h1⟩ := h1; obtain ⟨n, h2⟩ := h2
  exact ⟨m + n, h1.append h2⟩
theorem Step.reach1 {x y : Nat × S × Flags} (h : Step M C x y) : Reach1 M C x y := ⟨0, .succ h .zero⟩

theorem reach_label {i l : Nat} {st : S × Flags} (h : C[i]? = some (label1 l)) : Reach1 M C (i, st) (i + 1, st) :=
  (Step.label h).reach1

theorem reach_lab {i l : Nat} {st : S × Flags} (h : At C i (lab l)) : Reach M C (i, st) (i + (lab (α := α) (β := β) l).length, st) := by
  unfold lab at h ⊢
  split
  · exact .refl
  · rename_i hl
    rw [if_neg hl] at h
    exact (reach_label h.head).reach

theorem reach_jmp {i j l : Nat} {st : S × Flags} (h : C[i]? = some (jmpTo l)) (hj : C[j]? = some (label1 l)) :
    Reach M C (i, st) (j, st) :=
  (Step.jump (c := fun _ => true) h (by simp [jmpMnem, Mnem.chars, jumpCond]) rfl hj).reach1.reach

theorem reach_users {i : Nat} {us : List β} {st : S × Flags} (h : At C i (us.map .user)) :
    Reach M C (i, st) (i + (us.map BLine.user : List (BLine α β)).length, actAll M us st) := by
  induction us generalizing i st with
  | nil => exact .refl
  | cons u us ih =>
    have h1 := ih (st := M.act u st) h.tail
    rw [Nat.add_assoc, Nat.add_comm 1] at h1
    exact (Step.user h.head).reach1.reach.trans h1

theorem defOf_get {l : Nat} {code : List (Line α)} {k : Nat} (h : defOf l code = some k) : code[k]? = some (.label l) := by
  induction code generalizing k with
  | nil => cases h
  | cons x r ih =>
    have key : (defOf l r).map (· + 1) = some k → (x :: r)[k]? = some (.label l) := by
      intro h
      cases hd : defOf l r with
      | none => rw [hd] at h; cases h
      | some k' =>
        rw [hd] at h
        obtain rfl : k' + 1 = k := by simpa using h
        simpa using ih hd
    cases x with
    | label l' =>
      simp only [defOf] at h
      split at h
      · obtain rfl : 0 = k := by simpa using h
        subst l'; rfl
      · exact key h
    | ins i => exact key h
    | jump m l' => exact key h
    | garbage => exact key h

def exitAt (e j : Nat) : Exit → Nat
  | .fall => e
  | .to _ => j

theorem reach_run {i pc j : Nat} {s : S} {f f' : Flags} {cc : List (Line α)} {x : Exit} (hr : Run (M.env s) cc pc f x f')
    (h : At C i (gens cc)) (hj : ∀ l, x = .to l → C[j]? = some (label1 l)) :
    Reach M C (i + pc, s, f) (exitAt (i + cc.length) j x, s, f') := by
  have get : ∀ k y, cc[k]? = some y → C[i + k]? = some (.gen y) := by
    intro k y hk
    apply h
    simp [gens, hk]
  induction hr with
  | done h => subst h; exact .refl
  | ins hc _ ih => exact (Step.ins (get _ _ hc)).reach1.reach.trans (ih hj)
  | label hc _ ih => exact (Step.label (get _ _ hc)).reach1.reach.trans (ih hj)
  | skip hc hm hf _ ih => exact (Step.skip (get _ _ hc) hm hf).reach1.reach.trans (ih hj)
  | jump hc hm hf hd _ ih => exact (Step.jump (get _ _ hc) hm hf (get _ _ (defOf_get hd))).reach1.reach.trans (ih hj)
  | leave hc hm hf _ => exact (Step.jump (get _ _ hc) hm hf (hj _ rfl)).reach1.reach

theorem reach_cond {c : OrE α} {m : Bool} {l i j : Nat} {cc : List (Line α)} {st : S × Flags} (hc : CondCode M c m l cc)
    (h : At C i (gens cc)) (hj : (condEv M c st).1 = m → C[j]? = some (label1 l)) :
    Reach M C (i, st) (if (condEv M c st).1 = m then j else i + cc.length, (condEv M c st).2) := by
  have := reach_run (hc st.1 st.2) h (j := j) (by
    intro l' hl
    split at hl
    · rename_i he
      obtain rfl : l = l' := by simpa using hl
      exact hj he
    · cases hl)
  rw [Nat.add_zero] at this
  simp only [condEv] at this ⊢
  by_cases he : (c.eval (M.env st.1) st.2).1 = m
  · simpa [he, exitAt] using this
  · simpa [he, exitAt] using this

theorem gens_length (cc : List (Line α)) : (gens cc : List (BLine α β)).length = cc.length := by simp [gens]

/-! ### Uniqueness -/

def Unique (C : List (BLine α β)) : Prop := ∀ a b l : Nat, C[a]? = some (label1 l) → C[b]? = some (label1 l) → a = b

theorem Step.det (hU : Unique C) {x y z : Nat × S × Flags} (h1 : Step M C x y) (h2 : Step M C x z) : y = z := by
  cases h1 with
  | user h => cases h2 with
    | user h' => have e := h.symm.trans h'; cases e; rfl
    | _ h' => exact absurd (h.symm.trans h') (by simp)
  | ins h => cases h2 with
    | ins h' => have e := h.symm.trans h'; cases e; rfl
    | _ h' => exact absurd (h.symm.trans h') (by simp)
  | label h => cases h2 with
    | label h' => have e := h.symm.trans h'; cases e; rfl
    | _ h' => exact absurd (h.symm.trans h') (by simp)
  | skip h hm hf => cases h2 with
    | skip h' => rfl
    | jump h' hm' hf' =>
      have e := h.symm.trans h'; cases e
      rw [hm] at hm'; cases hm'
      rw [hf] at hf'; cases hf'
    | _ h' => exact absurd (h.symm.trans h') (by simp)
  | jump h hm hf hk => cases h2 with
    | skip h' hm' hf' =>
      have e := h.symm.trans h'; cases e
      rw [hm] at hm'; cases hm'
      rw [hf] at hf'; cases hf'
    | jump h' hm' hf' hk' =>
      have e := h.symm.trans h'; cases e
      rw [hU _ _ _ hk hk']
    | _ h' => exact absurd (h.symm.trans h') (by simp)
  | loopNo h hf => cases h2 with
    | loopNo h' => rfl
    | loopYes h' hf' =>
      have e := h.symm.trans h'; cases e
      rw [hf] at hf'; cases hf'
    | _ h' => exact absurd (h.symm.trans h') (by simp)
  | loopYes h hf hk => cases h2 with
    | loopNo h' hf' =>
      have e := h.symm.trans h'; cases e
      rw [hf] at hf'; cases hf'
    | loopYes h' hf' hk' =>
      have e := h.symm.trans h'; cases e
      rw [hU _ _ _ hk hk']
    | _ h' => exact absurd (h.symm.trans h') (by simp)

theorem Step.lt {x y : Nat × S × Flags} (h : Step M C x y) : x.1 < C.length := by
  cases h with
  | _ h => exact (List.getElem?_eq_some_iff.1 h).1

/-- `n` steps to the end -/
abbrev Halts (M : Mach α β S) (C : List (BLine α β)) (n : Nat) (x : Nat × S × Flags) (σ : S × Flags) : Prop :=
  Steps M C n x (C.length, σ)

theorem Steps.halt (hU : Unique C) {m n : Nat} {x y : Nat × S × Flags} {σ : S × Flags} (h1 : Steps M C m x y)
    (h2 : Halts M C n x σ) : ∃ n', n = m + n' ∧ Halts M C n' y σ := by
  induction h1 generalizing n with
  | zero => exact ⟨n, by omega, h2⟩
  | succ hs _ ih =>
    cases h2 with
    | zero => exact absurd hs.lt (by simp)
    | succ hs' h2 =>
      rw [← hs.det hU hs'] at h2
      obtain ⟨n', rfl, h3⟩ := ih h2
      exact ⟨n', by omega, h3⟩

theorem Reach.halt (hU : Unique C) {n : Nat} {x y : Nat × S × Flags} {σ : S × Flags} (h1 : Reach M C x y)
    (h2 : Halts M C n x σ) : ∃ n', n' ≤ n ∧ Halts M C n' y σ := by
  obtain ⟨m, h1⟩ := h1
  obtain ⟨n', rfl, h⟩ := h1.halt hU h2
  exact ⟨n', by omega, h⟩

theorem Reach1.halt (hU : Unique C) {n : Nat} {x y : Nat × S × Flags} {σ : S × Flags} (h1 : Reach1 M C x y)
    (h2 : Halts M C n x σ) : ∃ n', n' < n ∧ Halts M C n' y σ := by
  obtain ⟨m, h1⟩ := h1
  obtain ⟨n', rfl, h⟩ := h1.halt hU h2
  exact ⟨n', by omega, h⟩

/-! ### Loops -/

theorem loop_fwd {c : S × Flags → Bool × S × Flags} {body : S × Flags → Out → S × Flags → Prop} {nxt : S × Flags → S × Flags}
    {it ib ie : Nat}
    (hT : ∀ s, (c s).1 = true → Reach1 M C (it, s) (ib, (c s).2))
    (hF : ∀ s, (c s).1 = false → Reach M C (it, s) (ie, (c s).2))
    (hB : ∀ s s', body s .brk s' → Reach M C (ib, s) (ie, s'))
    (hN : ∀ s o s', body s o s' → o ≠ .brk → Reach M C (ib, s) (it, nxt s')) {s s' : S × Flags} (h : LoopEx c body nxt s s') :
    Reach M C (it, s) (ie, s') := by
  induction h with
  | stop h => exact hF _ h
  | brk h hb => exact (hT _ h).reach.trans (hB _ _ hb)
  | next h hb ho _ ih => exact (hT _ h).reach.trans ((hN _ _ _ hb ho).trans ih)

theorem loop_bwd (hU : Unique C) {c : S × Flags → Bool × S × Flags} {body : S × Flags → Out → S × Flags → Prop}
    {nxt : S × Flags → S × Flags} {it ib ie : Nat} {σ : S × Flags}
    (hT : ∀ s, (c s).1 = true → Reach1 M C (it, s) (ib, (c s).2))
    (hF : ∀ s, (c s).1 = false → Reach M C (it, s) (ie, (c s).2))
    (hB : ∀ n s, Halts M C n (ib, s) σ → ∃ o s' n', n' ≤ n ∧ body s o s' ∧ (o = .brk → Halts M C n' (ie, s') σ) ∧
      (o ≠ .brk → Halts M C n' (it, nxt s') σ)) (n : Nat) (s : S × Flags) (h : Halts M C n (it, s) σ) :
    ∃ s' n', n' ≤ n ∧ LoopEx c body nxt s s' ∧ Halts M C n' (ie, s') σ := by
  induction n using Nat.strongRecOn generalizing s with
  | ind n ih =>
    cases hc : (c s).1 with
    | false =>
      obtain ⟨n', h1, h2⟩ := (hF s hc).halt hU h
      exact ⟨_, n', h1, .stop hc, h2⟩
    | true =>
      obtain ⟨n1, h1, h2⟩ := (hT s hc).halt hU h
      obtain ⟨o, s1, n2, h3, h4, h5, h6⟩ := hB _ _ h2
      by_cases ho : o = .brk
      · subst ho
        exact ⟨s1, n2, by omega, .brk hc h4, h5 rfl⟩
      · obtain ⟨s', n', h7, h8, h9⟩ := ih n2 (by omega) _ (h6 ho)
        exact ⟨s', n', by omega, .next hc h4 ho h8, h9⟩

theorem rep_fwd {u : S × Flags → Bool × S × Flags} {body : S × Flags → Out → S × Flags → Prop} {is ib iu ie : Nat}
    (hS : ∀ s, Reach1 M C (is, s) (ib, s))
    (hT : ∀ s, (u s).1 = true → Reach M C (iu, s) (ie, (u s).2))
    (hF : ∀ s, (u s).1 = false → Reach M C (iu, s) (is, (u s).2))
    (hB : ∀ s s', body s .brk s' → Reach M C (ib, s) (ie, s'))
    (hN : ∀ s o s', body s o s' → o ≠ .brk → Reach M C (ib, s) (iu, s')) {s s' : S × Flags} (h : RepeatEx body u s s') :
    Reach M C (is, s) (ie, s') := by
  induction h with
  | brk hb => exact (hS _).reach.trans (hB _ _ hb)
  | stop hb ho h => exact (hS _).reach.trans ((hN _ _ _ hb ho).trans (hT _ h))
  | next hb ho h _ ih => exact (hS _).reach.trans ((hN _ _ _ hb ho).trans ((hF _ h).trans ih))

theorem rep_bwd (hU : Unique C) {u : S × Flags → Bool × S × Flags} {body : S × Flags → Out → S × Flags → Prop}
    {is ib iu ie : Nat} {σ : S × Flags}
    (hS : ∀ s, Reach1 M C (is, s) (ib, s))
    (hT : ∀ s, (u s).1 = true → Reach M C (iu, s) (ie, (u s).2))
    (hF : ∀ s, (u s).1 = false → Reach M C (iu, s) (is, (u s).2))
    (hB : ∀ n s, Halts M C n (ib, s) σ → ∃ o s' n', n' ≤ n ∧ body s o s' ∧ (o = .brk → Halts M C n' (ie, s') σ) ∧
      (o ≠ .brk → Halts M C n' (iu, s') σ)) (n : Nat) (s : S × Flags) (h : Halts M C n (is, s) σ) :
    ∃ s' n', n' ≤ n ∧ RepeatEx body u s s' ∧ Halts M C n' (ie, s') σ := by
  induction n using Nat.strongRecOn generalizing s with
  | ind n ih =>
    obtain ⟨n1, h1, h2⟩ := (hS s).halt hU h
    obtain ⟨o, s1, n2, h3, h4, h5, h6⟩ := hB _ _ h2
    by_cases ho : o = .brk
    · subst ho
      exact ⟨s1, n2, by omega, .brk h4, h5 rfl⟩
    · cases hc : (u s1).1 with
      | true =>
        obtain ⟨n', h7, h8⟩ := (hT s1 hc).halt hU (h6 ho)
        exact ⟨_, n', by omega, .stop h4 ho hc, h8⟩
      | false =>
        obtain ⟨n3, h7, h8⟩ := (hF s1 hc).halt hU (h6 ho)
        obtain ⟨s', n', h9, h10, h11⟩ := ih n3 (by omega) _ h8
        exact ⟨s', n', by omega, .next h4 ho hc h10, h11⟩

end
end Verif.Hll
