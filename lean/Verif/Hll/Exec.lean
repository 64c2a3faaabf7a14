import Verif.Hll.Spec
/-! Execution of a piece of code as a fold, and its relation to `Run`. -/
namespace Verif.Hll

/-- State between lines: `some l` = on the way to label `l`. -/
abbrev S := Option Nat × Flags

def takes (m : Mnem) (f : Flags) : Bool :=
  match jumpCond m.chars with
  | some c => c f
  | none => false

def lineEx {α : Type} (env : Env α) (s : S) (x : Line α) : S :=
  match x, s with
  | .ins i, (none, _) => (none, i.exec env)
  | .jump m l, (none, f) => if takes m f then (some l, f) else (none, f)
  | .label l, (some l', f) => if l' = l then (none, f) else (some l', f)
  | _, s => s

def ex {α : Type} (env : Env α) (code : List (Line α)) (s : S) : S := code.foldl (lineEx env) s

def ment {α : Type} : Line α → Option Nat
  | .jump _ l => some l
  | .label l => some l
  | _ => none

def dfn {α : Type} : Line α → Option Nat
  | .label l => some l
  | _ => none

def clean {α : Type} : Line α → Prop
  | .jump m _ => (jumpCond m.chars).isSome
  | .garbage => False
  | _ => True

theorem dfn_ment {α : Type} {x : Line α} {l : Nat} (h : dfn x = some l) : ment x = some l := by
  cases x <;> simp_all [dfn, ment]

section
variable {α : Type} (env : Env α)

@[simp] theorem ex_nil (s : S) : ex env ([] : List (Line α)) s = s := rfl
@[simp] theorem ex_cons (x : Line α) (c : List (Line α)) (s : S) : ex env (x :: c) s = ex env c (lineEx env s x) := rfl
@[simp] theorem ex_append (a b : List (Line α)) (s : S) : ex env (a ++ b) s = ex env b (ex env a s) := by
  simp [ex]

/-- On the way to a label that is not defined here. -/
theorem ex_skip (code : List (Line α)) (l : Nat) (f : Flags) (h : ∀ x ∈ code, dfn x ≠ some l) :
    ex env code (some l, f) = (some l, f) := by
  induction code with
  | nil => rfl
  | cons x c ih =>
    rw [ex_cons]
    have : lineEx env (some l, f) x = (some l, f) := by
      have h1 := h x (by simp)
      cases x with
      | label l' =>
        simp only [dfn, ne_eq, Option.some.injEq] at h1
        simp only [lineEx]; rw [if_neg (fun e => h1 e.symm)]
      | _ => rfl
    rw [this]
    exact ih (fun y hy => h y (by simp [hy]))

def renL (o n l : Nat) : Nat := if l = o then n else l
def renS (o n : Nat) (s : S) : S := (s.1.map (renL o n), s.2)

theorem lineEx_ren (o n : Nat) (x : Line α) (s : S) (hx : ∀ l, dfn x = some l → l ≠ o ∧ l ≠ n) :
    lineEx env (renS o n s) (replLine o n x) = renS o n (lineEx env s x) := by
  obtain ⟨s, f⟩ := s
  cases x with
  | ins i => cases s <;> simp [lineEx, renS, replLine]
  | garbage => cases s <;> simp [lineEx, renS, replLine]
  | jump m l => cases s <;> simp [lineEx, renS, replLine]; split <;> simp [renL]
  | label l =>
    have := hx l rfl
    cases s with
    | none => simp [lineEx, renS, replLine]
    | some l' =>
      simp only [lineEx, renS, replLine, Option.map_some]
      rw [if_neg this.1]
      unfold renL
      by_cases h : l' = o
      · subst h
        rw [if_pos rfl, if_neg (fun h => this.2 h.symm), if_neg (fun h => this.1 h.symm)]
        simp
      · rw [if_neg h]
        by_cases h2 : l' = l
        · rw [if_pos h2]; simp
        · rw [if_neg h2]; simp [h]

/-- Renaming a label that is not defined here to another such label. -/
theorem ex_ren (o n : Nat) (code : List (Line α)) (s : S) (hx : ∀ x ∈ code, ∀ l, dfn x = some l → l ≠ o ∧ l ≠ n) :
    ex env (code.map (replLine o n)) (renS o n s) = renS o n (ex env code s) := by
  induction code generalizing s with
  | nil => rfl
  | cons x c ih =>
    simp only [List.map_cons, ex_cons]
    rw [lineEx_ren env o n x s (hx x (by simp))]
    exact ih _ (fun y hy => hx y (by simp [hy]))

/-- Code in which labels are used before they are defined, and are defined once. -/
def Fwd (code : List (Line α)) : Prop :=
  code.Pairwise fun x y => ∀ l, dfn x = some l → ment y ≠ some l

theorem defOf_none {l : Nat} {code : List (Line α)} : defOf l code = none ↔ ∀ x ∈ code, dfn x ≠ some l := by
  induction code with
  | nil => simp [defOf]
  | cons x c ih =>
    cases x with
    | label l' =>
      simp only [defOf]
      by_cases e : l' = l
      · simp [e, dfn]
      · rw [if_neg e, Option.map_eq_none_iff, ih]
        simp only [List.mem_cons, forall_eq_or_imp]
        exact ⟨fun h => ⟨by simp [dfn, e], h⟩, fun h => h.2⟩
    | _ =>
      simp only [defOf]
      rw [Option.map_eq_none_iff, ih]
      simp only [List.mem_cons, forall_eq_or_imp]
      exact ⟨fun h => ⟨by simp [dfn], h⟩, fun h => h.2⟩

theorem defOf_append {l : Nat} {a b : List (Line α)} (h : ∀ x ∈ a, dfn x ≠ some l) :
    defOf l (a ++ b) = (defOf l b).map (· + a.length) := by
  induction a with
  | nil => simp
  | cons x c ih =>
    have ih' := ih (fun y hy => h y (by simp [hy]))
    have hx := h x (by simp)
    cases x with
    | label l' =>
      simp only [dfn, ne_eq, Option.some.injEq] at hx
      simp only [List.cons_append, defOf, if_neg hx, ih', Option.map_map, List.length_cons]
      congr 1
    | _ =>
      simp only [List.cons_append, defOf, ih', Option.map_map, List.length_cons]
      congr 1

theorem defOf_split {l : Nat} {b : List (Line α)} {k : Nat} (h : defOf l b = some k) :
    ∃ b1 b2, b = b1 ++ .label l :: b2 ∧ b1.length = k ∧ ∀ x ∈ b1, dfn x ≠ some l := by
  induction b generalizing k with
  | nil => simp [defOf] at h
  | cons x c ih =>
    have key : (∀ l', x = .label l' → l' ≠ l) → (defOf l c).map (· + 1) = some k →
        ∃ b1 b2, x :: c = b1 ++ .label l :: b2 ∧ b1.length = k ∧ ∀ x ∈ b1, dfn x ≠ some l := by
      intro hx hk
      rw [Option.map_eq_some_iff] at hk
      obtain ⟨k', hk', rfl⟩ := hk
      obtain ⟨b1, b2, rfl, rfl, hb⟩ := ih hk'
      refine ⟨x :: b1, b2, rfl, rfl, ?_⟩
      intro y hy
      rcases List.mem_cons.1 hy with rfl | hy
      · cases y <;> simp_all [dfn]
      · exact hb y hy
    cases x with
    | label l' =>
      simp only [defOf] at h
      split at h
      · next e => subst e; refine ⟨[], c, rfl, by simpa using h, by simp⟩
      · next e => exact key (by rintro _ ⟨⟩; exact e) h
    | _ => exact key (by simp) h

def toExit : Option Nat → Exit
  | none => .fall
  | some l => .to l

/-- The fold describes the runs. -/
theorem run_of_ex (code : List (Line α)) (hc : ∀ x ∈ code, clean x) (hf : Fwd code) (a b : List (Line α))
    (hab : code = a ++ b) (f f' : Flags) (r : Option Nat) (h : ex env b (none, f) = (r, f')) :
    Run env code a.length f (toExit r) f' := by
  induction hn : b.length using Nat.strongRecOn generalizing a b f with
  | ind n ih =>
    cases b with
    | nil =>
      simp at h
      obtain ⟨rfl, rfl⟩ := h
      exact .done (by simp [hab])
    | cons x b =>
      have hg : code[a.length]? = some x := by simp [hab]
      have next : ∀ f, ex env b (none, f) = (r, f') → Run env code (a.length + 1) f (toExit r) f' := by
        intro f hf'
        have := ih b.length (by rw [← hn]; simp) (a ++ [x]) b (by simp [hab]) f hf' rfl
        simpa using this
      cases x with
      | ins i => exact .ins hg (next _ (by simpa [lineEx] using h))
      | garbage => exact (hc .garbage (by simp [hab])).elim
      | label l => exact .label hg (next _ (by simpa [lineEx] using h))
      | jump m l =>
        have hcl := hc (.jump m l) (by simp [hab])
        simp only [clean, Option.isSome_iff_exists] at hcl
        obtain ⟨c, hcc⟩ := hcl
        simp only [ex_cons, lineEx, takes, hcc] at h
        rcases Bool.eq_false_or_eq_true (c f) with ht | ht
        · simp only [ht, if_true] at h
          -- the label is not defined before
          have hbefore : ∀ y ∈ a, dfn y ≠ some l := by
            intro y hy hd
            rw [hab, Fwd, List.pairwise_append] at hf
            exact hf.2.2 y hy (.jump m l) (by simp) l hd rfl
          have hd : defOf l code = (defOf l b).map (· + (a ++ [Line.jump m l]).length) := by
            have : code = (a ++ [Line.jump m l]) ++ b := by simp [hab]
            rw [this]
            apply defOf_append
            intro y hy
            rcases List.mem_append.1 hy with hy | hy
            · exact hbefore y hy
            · rw [List.mem_singleton.1 hy]; simp [dfn]
          cases hdb : defOf l b with
          | none =>
            rw [hdb] at hd
            have := ex_skip env b l f (defOf_none.1 hdb)
            rw [this] at h
            obtain ⟨rfl, rfl⟩ := Prod.mk.inj h
            exact .leave hg hcc ht (by simpa using hd)
          | some k =>
            rw [hdb] at hd
            obtain ⟨b1, b2, rfl, rfl, hb1⟩ := defOf_split hdb
            rw [ex_append, ex_skip env b1 l f hb1, ex_cons] at h
            simp only [lineEx, if_true] at h
            refine .jump hg hcc ht (k := (a ++ [Line.jump m l] ++ b1).length) (by rw [hd]; simp; omega) ?_
            have := ih (.label l :: b2 : List (Line α)).length (by rw [← hn]; simp; omega)
              (a ++ [Line.jump m l] ++ b1) (.label l :: b2) (by simp [hab]) f (by simpa [lineEx] using h) rfl
            exact this
        · simp only [ht] at h
          exact .skip hg hcc ht (next _ (by simpa using h))

/-- Runs are deterministic. -/
theorem Run.det {code : List (Line α)} {pc : Nat} {f : Flags} {x y : Exit} {f1 f2 : Flags}
    (h1 : Run env code pc f x f1) (h2 : Run env code pc f y f2) : x = y ∧ f1 = f2 := by
  have nolen : ∀ {pc : Nat} {l : Line α}, code[pc]? = some l → pc ≠ code.length := by
    intro pc l h e; subst e; simp at h
  induction h1 with
  | done h =>
    cases h2 with
    | done => exact ⟨rfl, rfl⟩
    | ins h' => exact (nolen h' h).elim
    | label h' => exact (nolen h' h).elim
    | skip h' => exact (nolen h' h).elim
    | jump h' => exact (nolen h' h).elim
    | leave h' => exact (nolen h' h).elim
  | ins h _ ih =>
    cases h2 with
    | done h' => exact (nolen h h').elim
    | ins h' r => rw [h] at h'; cases h'; exact ih r
    | label h' => rw [h] at h'; cases h'
    | skip h' => rw [h] at h'; cases h'
    | jump h' => rw [h] at h'; cases h'
    | leave h' => rw [h] at h'; cases h'
  | label h _ ih =>
    cases h2 with
    | done h' => exact (nolen h h').elim
    | ins h' r => rw [h] at h'; cases h'
    | label h' r => exact ih r
    | skip h' => rw [h] at h'; cases h'
    | jump h' => rw [h] at h'; cases h'
    | leave h' => rw [h] at h'; cases h'
  | skip h hc ht _ ih =>
    cases h2 with
    | done h' => exact (nolen h h').elim
    | ins h' r => rw [h] at h'; cases h'
    | label h' r => rw [h] at h'; cases h'
    | skip h' _ _ r => exact ih r
    | jump h' hc' ht' => rw [h] at h'; cases h'; rw [hc] at hc'; cases hc'; rw [ht] at ht'; cases ht'
    | leave h' hc' ht' => rw [h] at h'; cases h'; rw [hc] at hc'; cases hc'; rw [ht] at ht'; cases ht'
  | jump h hc ht hd _ ih =>
    cases h2 with
    | done h' => exact (nolen h h').elim
    | ins h' r => rw [h] at h'; cases h'
    | label h' r => rw [h] at h'; cases h'
    | skip h' hc' ht' r => rw [h] at h'; cases h'; rw [hc] at hc'; cases hc'; rw [ht] at ht'; cases ht'
    | jump h' hc' ht' hd' r => rw [h] at h'; cases h'; rw [hd] at hd'; cases hd'; exact ih r
    | leave h' hc' ht' hd' => rw [h] at h'; cases h'; rw [hd] at hd'; cases hd'
  | leave h hc ht hd =>
    cases h2 with
    | done h' => exact (nolen h h').elim
    | ins h' r => rw [h] at h'; cases h'
    | label h' r => rw [h] at h'; cases h'
    | skip h' hc' ht' r => rw [h] at h'; cases h'; rw [hc] at hc'; cases hc'; rw [ht] at ht'; cases ht'
    | jump h' hc' ht' hd' r => rw [h] at h'; cases h'; rw [hd] at hd'; cases hd'
    | leave h' hc' ht' hd' => rw [h] at h'; cases h'; exact ⟨rfl, rfl⟩

end
end Verif.Hll
