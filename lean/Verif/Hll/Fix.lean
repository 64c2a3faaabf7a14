import Verif.Hll.Exec
/-! Invariants of the generated code and the effect of the edits on it. -/
namespace Verif.Hll

section
variable {α : Type} (env : Env α)

/-- Labels of a piece of code: `L` or allocated between `lo` and `hi`. -/
structure Seg (code : List (Line α)) (lo hi L : Nat) : Prop where
  clean : ∀ x ∈ code, clean x
  ment : ∀ x ∈ code, ∀ l, ment x = some l → l = L ∨ (lo < l ∧ l ≤ hi)
  dfn : ∀ x ∈ code, ∀ l, dfn x = some l → lo < l ∧ l ≤ hi
  fwd : Fwd code

theorem Seg.nil (lo hi L : Nat) : Seg ([] : List (Line α)) lo hi L where
  clean := by simp
  ment := by simp
  dfn := by simp
  fwd := by simp [Fwd]

theorem Seg.mono {code : List (Line α)} {lo hi L lo' hi' : Nat} (h : Seg code lo hi L) (h1 : lo' ≤ lo) (h2 : hi ≤ hi') :
    Seg code lo' hi' L where
  clean := h.clean
  ment := fun x hx l hl => by have := h.ment x hx l hl; omega
  dfn := fun x hx l hl => by have := h.dfn x hx l hl; omega
  fwd := h.fwd

theorem Seg.append {a b : List (Line α)} {lo mi hi L : Nat} (ha : Seg a lo mi L) (hb : Seg b mi hi L) (hL : L ≤ lo)
    (h1 : lo ≤ mi) (h2 : mi ≤ hi) : Seg (a ++ b) lo hi L where
  clean := fun x hx => (List.mem_append.1 hx).elim (ha.clean x) (hb.clean x)
  ment := fun x hx l hl => by
    rcases List.mem_append.1 hx with h | h
    · have := ha.ment x h l hl; omega
    · have := hb.ment x h l hl; omega
  dfn := fun x hx l hl => by
    rcases List.mem_append.1 hx with h | h
    · have := ha.dfn x h l hl; omega
    · have := hb.dfn x h l hl; omega
  fwd := by
    unfold Fwd
    rw [List.pairwise_append]
    refine ⟨ha.fwd, hb.fwd, ?_⟩
    intro x hx y hy l hd hm
    have := ha.dfn x hx l hd
    have := hb.ment y hy l hm
    omega

/-- A label definition at the end. -/
theorem Seg.snocLabel {a : List (Line α)} {lo hi L l : Nat} (ha : Seg a lo hi L) (hl : lo < l ∧ l ≤ hi)
    (hd : ∀ x ∈ a, Hll.dfn x ≠ some l) : Seg (a ++ [.label l]) lo hi L where
  clean := fun x hx => by
    rcases List.mem_append.1 hx with h | h
    · exact ha.clean x h
    · rw [List.mem_singleton.1 h]; trivial
  ment := fun x hx l' hl' => by
    rcases List.mem_append.1 hx with h | h
    · exact ha.ment x h l' hl'
    · rw [List.mem_singleton.1 h] at hl'; simp only [Hll.ment, Option.some.injEq] at hl'; omega
  dfn := fun x hx l' hl' => by
    rcases List.mem_append.1 hx with h | h
    · exact ha.dfn x h l' hl'
    · rw [List.mem_singleton.1 h] at hl'; simp only [Hll.dfn, Option.some.injEq] at hl'; omega
  fwd := by
    unfold Fwd
    rw [List.pairwise_append]
    refine ⟨ha.fwd, by simp, ?_⟩
    intro x hx y hy l' hd' hm
    rw [List.mem_singleton.1 hy] at hm
    simp only [Hll.ment, Option.some.injEq] at hm
    exact hd x hx (hm ▸ hd')

theorem dfn_repl {x : Line α} {o n l : Nat} : dfn (replLine o n x) = some l ↔ ∃ l', dfn x = some l' ∧ l = renL o n l' := by
  cases x <;> simp [dfn, replLine, renL, eq_comm]

theorem ment_repl {x : Line α} {o n l : Nat} : ment (replLine o n x) = some l ↔ ∃ l', ment x = some l' ∧ l = renL o n l' := by
  cases x <;> simp [ment, replLine, renL, eq_comm]

theorem clean_repl {x : Line α} {o n : Nat} (h : clean x) : clean (replLine o n x) := by
  cases x <;> simp_all [clean, replLine]

theorem fwd_ren {code : List (Line α)} {o n : Nat} (hf : Fwd code)
    (hx : ∀ x ∈ code, ∀ l, dfn x = some l → l ≠ o ∧ l ≠ n) : Fwd (code.map (replLine o n)) := by
  unfold Fwd
  rw [List.pairwise_map]
  refine List.Pairwise.imp_of_mem ?_ hf
  intro x y hx' hy' h l hd hm
  obtain ⟨l1, h1, e1⟩ := dfn_repl.1 hd
  obtain ⟨l2, h2, e2⟩ := ment_repl.1 hm
  have hl := hx x hx' l1 h1
  have : l1 = l2 := by
    unfold renL at e1 e2
    rw [if_neg hl.1] at e1
    by_cases h : l2 = o
    · rw [if_pos h] at e2; omega
    · rw [if_neg h] at e2; omega
  exact h l1 h1 (this ▸ h2)

/-- Meaning of a condition: value and flags afterwards. -/
abbrev Sem := Flags → Bool × Flags

/-- The code jumps to `L` if the value is `m`; else it falls through or goes to a label of `X`. -/
def Inv (code : List (Line α)) (L : Nat) (m : Bool) (X : List Nat) (f : Sem) : Prop :=
  ∀ σ, ∃ r, ex env code (none, σ) = (r, (f σ).2) ∧
    if (f σ).1 = m then r = some L else r = none ∨ ∃ x ∈ X, r = some x

/-- The line at `lastjmp`: a jump, or nothing. -/
inductive Last (L : Nat) : List (Line α) → (Flags → Bool) → Prop
  | jump {mn : Mnem} {c : Flags → Bool} : jumpCond mn.chars = some c →
      (∃ mn', invertJump mn = some mn' ∧ jumpCond mn'.chars = some (fun f => !c f)) ∨
        (invertJump mn = none ∧ c = fun _ => true) → Last L [.jump mn L] c
  | empty : Last L [] (fun _ => false)

def postOf (T : Nat) : List (Line α) := if T = 0 then [] else [.label T]

/-- The code up to the last jump, the last jump, and the label behind it. -/
structure LJ (pre J : List (Line α)) (c : Flags → Bool) (L : Nat) (m : Bool) (X : List Nat) (f : Sem) (T : Nat) : Prop where
  last : Last L J c
  sem : ∀ σ, ∃ r, ex env pre (none, σ) = (r, (f σ).2) ∧
    (r = none → c (f σ).2 = ((f σ).1 == m)) ∧
    ∀ l, r = some l → if (f σ).1 = m then l = L else (l = T ∧ T ≠ 0) ∨ l ∈ X

theorem Last.ex {L : Nat} {J : List (Line α)} {c : Flags → Bool} (h : Last L J c) (f : Flags) :
    ex env J (none, f) = (if c f then some L else none, f) := by
  cases h with
  | jump h =>
    simp only [ex_cons, ex_nil, lineEx, takes, h]
    split <;> simp_all
  | empty => rfl

theorem Last.dfn {L : Nat} {J : List (Line α)} {c : Flags → Bool} (h : Last L J c) : ∀ x ∈ J, Hll.dfn x = none := by
  cases h <;> simp [Hll.dfn]

/-- `LJ` implies `Inv`. -/
theorem LJ.inv {pre J : List (Line α)} {c : Flags → Bool} {L : Nat} {m : Bool} {X : List Nat} {f : Sem} {T : Nat}
    (h : LJ env pre J c L m X f T) (hTL : T ≠ L) : Inv env (pre ++ J ++ postOf T) L m X f := by
  intro σ
  obtain ⟨r, hr, h1, h2⟩ := h.sem σ
  rw [ex_append, ex_append, hr]
  cases r with
  | none =>
    have h1 := h1 rfl
    rw [h.last.ex]
    by_cases hm : (f σ).1 = m
    · rw [h1]; simp only [hm, beq_self_eq_true, if_true]
      refine ⟨_, ?_, rfl⟩
      unfold postOf
      split
      · rfl
      · simp only [ex_cons, ex_nil, lineEx]; rw [if_neg (fun e => hTL e.symm)]
    · have : c (f σ).2 = false := by rw [h1]; simp [hm]
      rw [this]
      refine ⟨none, ?_, by rw [if_neg hm]; exact .inl rfl⟩
      unfold postOf
      split <;> rfl
  | some l =>
    have h2 := h2 l rfl
    have hJ : ex env J (some l, (f σ).2) = (some l, (f σ).2) := ex_skip env J l _ (fun x hx => by rw [h.last.dfn x hx]; simp)
    rw [hJ]
    by_cases hm : (f σ).1 = m
    · rw [if_pos hm] at h2
      refine ⟨some l, ?_, by rw [if_pos hm, h2]⟩
      unfold postOf
      split
      · rfl
      · simp only [ex_cons, ex_nil, lineEx]; rw [if_neg (fun e => hTL (by omega))]
    · rw [if_neg hm] at h2
      by_cases hl : l = T ∧ T ≠ 0
      · refine ⟨none, ?_, by rw [if_neg hm]; exact .inl rfl⟩
        unfold postOf
        rw [if_neg hl.2]
        simp only [ex_cons, ex_nil, lineEx, if_pos hl.1]
      · have hlX : l ∈ X := h2.resolve_left hl
        refine ⟨some l, ?_, by rw [if_neg hm]; exact .inr ⟨l, hlX, rfl⟩⟩
        unfold postOf
        split
        · rfl
        · simp only [ex_cons, ex_nil, lineEx]; rw [if_neg (fun e => hl ⟨e, by omega⟩)]

/-! ### The edits -/

/-- InvertJump + new target. -/
def invLine (J : List (Line α)) (t : Nat) : List (Line α) :=
  match J with
  | [.jump mn _] =>
    match invertJump mn with
    | some mn' => [.jump mn' t]
    | none => []
  | _ => [.jump jmpMnem t]

theorem invLine_ex {L t : Nat} {J : List (Line α)} {c : Flags → Bool} (h : Last L J c) (f : Flags) :
    ex env (invLine J t) (none, f) = (if c f then none else some t, f) := by
  cases h with
  | jump hc hi =>
    rcases hi with ⟨mn', hi, hc'⟩ | ⟨hi, rfl⟩
    · simp only [invLine, hi, ex_cons, ex_nil, lineEx, takes, hc']
      split <;> simp_all
    · simp [invLine, hi]
  | empty =>
    have : jumpCond jmpMnem.chars = some fun _ => true := by rfl
    simp [invLine, lineEx, takes, this]

theorem invLine_dfn {L t : Nat} {J : List (Line α)} {c : Flags → Bool} (h : Last L J c) :
    ∀ x ∈ invLine J t, Hll.dfn x = none ∧ clean x ∧ ment x = some t := by
  cases h with
  | jump hc hi =>
    rcases hi with ⟨mn', hi, hc'⟩ | ⟨hi, rfl⟩
    · simp [invLine, hi, Hll.dfn, clean, hc', ment]
    · simp [invLine, hi]
  | empty => 
    have : jumpCond jmpMnem.chars = some fun _ => true := by rfl
    simp [invLine, Hll.dfn, clean, ment, this]

/-- The result of the edit: a false value goes to `t`, a true one falls through. -/
def fixed (pre J : List (Line α)) (L T t n : Nat) : List (Line α) :=
  ((pre ++ invLine J t).map (fun x => replLine L n (if T = 0 then x else replLine T t x))) ++ [.label n]

def Cont (code : List (Line α)) (m : Bool) (t : Nat) (f : Sem) : Prop :=
  ∀ σ, ex env code (none, σ) = (if (f σ).1 = m then none else some t, (f σ).2)

theorem repl_self (o : Nat) (x : Line α) : replLine o o x = x := by
  cases x <;> simp [replLine]
  all_goals intro h; exact h.symm

theorem replaceT (T t : Nat) : (fun x : Line α => if T = 0 then x else replLine T t x) =
    if T = 0 then id else replLine T t := by
  funext x; split <;> rfl

/-- The edit is correct. `lo < t ≤ hi1`, `n = hi1 + 1`. -/
theorem fix_ok {pre J : List (Line α)} {c : Flags → Bool} {lo hi hi1 L : Nat} {m : Bool} {X : List Nat} {f : Sem} {T t : Nat}
    (h : LJ env pre J c L m X f T) (hseg : Seg (pre ++ J ++ postOf T) lo hi L) (hL : L ≤ lo) (hhi : hi ≤ hi1)
    (ht : lo < t ∧ t ≤ hi1) (hX : ∀ x ∈ X, x = t)
    (htd : ∀ x ∈ pre ++ J ++ postOf T, dfn x ≠ some t) :
    Seg (fixed pre J L T t (hi1 + 1)) lo (hi1 + 1) L ∧ Cont env (fixed pre J L T t (hi1 + 1)) m t f ∧
      (∀ x ∈ fixed pre J L T t (hi1 + 1), dfn x ≠ some t) := by
  -- facts about the definitions in `pre`
  have hpre : ∀ x ∈ pre, ∀ l, dfn x = some l → lo < l ∧ l ≤ hi ∧ l ≠ t ∧ (T ≠ 0 → l ≠ T) := by
    intro x hx l hd
    have h1 := hseg.dfn x (by simp [hx]) l hd
    refine ⟨h1.1, h1.2, fun e => htd x (by simp [hx]) (e ▸ hd), fun hT e => ?_⟩
    have hf := hseg.fwd
    unfold Fwd at hf
    rw [List.pairwise_append] at hf
    exact hf.2.2 x (by simp [hx]) (.label T) (by simp [postOf, hT]) l hd (by simp [ment, e])
  have hTr : T ≠ 0 → lo < T ∧ T ≤ hi := fun hT => hseg.dfn (.label T) (by simp [postOf, hT]) T rfl
  have htT : T ≠ 0 → T ≠ t := fun hT e => htd (.label T) (by simp [postOf, hT]) (by simp [dfn, e])
  -- both renamings at once
  let mid : List (Line α) := (pre ++ invLine J t).map (fun x => if T = 0 then x else replLine T t x)
  have hdm : ∀ x ∈ pre ++ invLine J t, ∀ l, dfn x = some l → lo < l ∧ l ≤ hi ∧ l ≠ t ∧ (T ≠ 0 → l ≠ T) := by
    intro x hx l hd
    rcases List.mem_append.1 hx with hx | hx
    · exact hpre x hx l hd
    · rw [(invLine_dfn h.last x hx).1] at hd; simp at hd
  have hmid_d : ∀ x ∈ mid, ∀ l, dfn x = some l → lo < l ∧ l ≤ hi ∧ l ≠ t := by
    intro x hx l hd
    obtain ⟨y, hy, rfl⟩ := List.mem_map.1 hx
    by_cases hT : T = 0
    · rw [if_pos hT] at hd; have := hdm y hy l hd; omega
    · rw [if_neg hT] at hd
      obtain ⟨l', hl', rfl⟩ := dfn_repl.1 hd
      have := hdm y hy l' hl'
      unfold renL; rw [if_neg (this.2.2.2 hT)]; omega
  have hmid_fwd : Fwd mid := by
    have h0 : Fwd (pre ++ invLine J t) := by
      have hf := hseg.fwd
      unfold Fwd at hf ⊢
      rw [List.append_assoc, List.pairwise_append] at hf
      rw [List.pairwise_append]
      refine ⟨hf.1, ?_, ?_⟩
      · rw [List.pairwise_iff_forall_sublist]
        intro a b hab l hd
        have ha : a ∈ invLine J t := hab.subset (by simp)
        rw [(invLine_dfn h.last a ha).1] at hd; simp at hd
      · intro x hx y hy l hd
        rw [(invLine_dfn h.last y hy).2.2]
        have := hpre x hx l hd
        simp only [ne_eq, Option.some.injEq]; omega
    show Fwd (List.map _ _)
    rw [replaceT]
    by_cases hT : T = 0
    · simp only [hT, if_true, List.map_id]; exact h0
    · rw [if_neg hT]
      exact fwd_ren h0 (fun x hx l hd => ⟨(hdm x hx l hd).2.2.2 hT, (hdm x hx l hd).2.2.1⟩)
  have hmid_m : ∀ x ∈ mid, ∀ l, ment x = some l → l = L ∨ (lo < l ∧ l ≤ hi1) := by
    intro x hx l hm
    obtain ⟨y, hy, rfl⟩ := List.mem_map.1 hx
    have hy' : ∀ l', ment y = some l' → l' = L ∨ (lo < l' ∧ l' ≤ hi1) := by
      intro l' hl'
      rcases List.mem_append.1 hy with hy | hy
      · have := hseg.ment y (by simp [hy]) l' hl'; omega
      · rw [(invLine_dfn h.last y hy).2.2] at hl'; simp only [Option.some.injEq] at hl'; omega
    by_cases hT : T = 0
    · rw [if_pos hT] at hm; exact hy' l hm
    · rw [if_neg hT] at hm
      obtain ⟨l', hl', rfl⟩ := ment_repl.1 hm
      have := hy' l' hl'
      unfold renL
      split <;> omega
  have hmid_c : ∀ x ∈ mid, clean x := by
    intro x hx
    obtain ⟨y, hy, rfl⟩ := List.mem_map.1 hx
    have : clean y := by
      rcases List.mem_append.1 hy with hy | hy
      · exact hseg.clean y (by simp [hy])
      · exact (invLine_dfn h.last y hy).2.1
    split
    · exact this
    · exact clean_repl this
  have hfix : fixed pre J L T t (hi1 + 1) = mid.map (replLine L (hi1 + 1)) ++ [.label (hi1 + 1)] := by
    simp only [fixed, mid, List.map_map]; rfl
  have hmd2 : ∀ x ∈ mid.map (replLine L (hi1 + 1)), ∀ l, dfn x = some l → lo < l ∧ l ≤ hi ∧ l ≠ t := by
    intro x hx l hd
    obtain ⟨y, hy, rfl⟩ := List.mem_map.1 hx
    obtain ⟨l', hl', rfl⟩ := dfn_repl.1 hd
    have := hmid_d y hy l' hl'
    unfold renL; rw [if_neg (by omega)]; exact this
  refine ⟨?_, ?_, ?_⟩
  · rw [hfix]
    apply Seg.snocLabel
    · refine ⟨?_, ?_, ?_, ?_⟩
      · intro x hx
        obtain ⟨y, hy, rfl⟩ := List.mem_map.1 hx
        exact clean_repl (hmid_c y hy)
      · intro x hx l hl
        obtain ⟨y, hy, rfl⟩ := List.mem_map.1 hx
        obtain ⟨l', hl', rfl⟩ := ment_repl.1 hl
        have := hmid_m y hy l' hl'
        unfold renL
        split <;> omega
      · intro x hx l hl
        have := hmd2 x hx l hl; omega
      · exact fwd_ren hmid_fwd (fun x hx l hd => by have := hmid_d x hx l hd; omega)
    · omega
    · intro x hx hd
      have := hmd2 x hx _ hd; omega
  · intro σ
    obtain ⟨r, hr, h1, h2⟩ := h.sem σ
    -- run of the edited code before renaming
    have e0 : ex env (pre ++ invLine J t) (none, σ) =
        (r.elim (if c (f σ).2 then none else some t) some, (f σ).2) := by
      rw [ex_append, hr]
      cases r with
      | none => simp only [invLine_ex env h.last, Option.elim]
      | some l => exact ex_skip env _ _ _ (fun x hx => by rw [(invLine_dfn h.last x hx).1]; simp)
    -- T -> t
    have e1 : ex env mid (none, σ) = (r.elim (if c (f σ).2 then none else some t)
        (fun _ => if (f σ).1 = m then some L else some t), (f σ).2) := by
      have hrl : ∀ l, r = some l → if (f σ).1 = m then l = L else (l = T ∧ T ≠ 0) ∨ l = t := by
        intro l hl
        have := h2 l hl
        split
        · next hm => rw [if_pos hm] at this; exact this
        · next hm => rw [if_neg hm] at this; exact this.imp id (hX l)
      by_cases hT : T = 0
      · have : mid = pre ++ invLine J t := by
          simp only [mid, hT, if_true, List.map_id']
        rw [this, e0]
        cases r with
        | none => rfl
        | some l =>
          have := hrl l rfl
          by_cases hm : (f σ).1 = m
          · rw [if_pos hm] at this; simp [hm, this]
          · rw [if_neg hm] at this; simp [hm]; rcases this with h | h
            · exact (h.2 hT).elim
            · exact h
      · have : mid = (pre ++ invLine J t).map (replLine T t) := by
          simp only [mid, hT, if_false]
        rw [this]
        have := ex_ren env T t (pre ++ invLine J t) (none, σ)
          (fun x hx l hd => ⟨(hdm x hx l hd).2.2.2 hT, (hdm x hx l hd).2.2.1⟩)
        simp only [renS, Option.map_none] at this
        rw [this, e0]
        cases r with
        | none => 
          rcases Bool.eq_false_or_eq_true (c (f σ).2) with hc | hc
          · simp [hc]
          · simp only [hc, Option.elim, Option.map_some, renL, Bool.false_eq_true, if_false]
            rw [if_neg (fun e => htT hT e.symm)]
        | some l =>
          have := hrl l rfl
          have hTr := hTr hT
          by_cases hm : (f σ).1 = m
          · rw [if_pos hm] at this; subst this
            simp only [hm, if_true, Option.elim, Option.map_some, renL]
            rw [if_neg (by omega)]
          · rw [if_neg hm] at this
            simp only [hm, if_false, Option.elim, Option.map_some, renL]
            rcases this with ⟨rfl, _⟩ | rfl
            · simp
            · rw [if_neg (fun e => htT hT e.symm)]
    -- L -> n
    rw [hfix, ex_append]
    have e2 := ex_ren env L (hi1 + 1) mid (none, σ) (fun x hx l hd => by have := hmid_d x hx l hd; omega)
    simp only [renS, Option.map_none] at e2
    rw [e2, e1]
    cases r with
    | none =>
      have h1 := h1 rfl
      simp only [Option.elim]
      rw [h1]
      by_cases hm : (f σ).1 = m
      · simp [hm, lineEx]
      · simp only [hm, if_false, beq_iff_eq, Option.elim, Option.map_some, renL, ex_cons, ex_nil, lineEx]
        rw [if_neg (show ¬ t = L by omega), if_neg (by omega)]
    | some l =>
      by_cases hm : (f σ).1 = m
      · simp [hm, lineEx, renL]
      · simp only [hm, if_false, Option.elim, Option.map_some, renL, ex_cons, ex_nil, lineEx]
        rw [if_neg (show ¬ t = L by omega), if_neg (by omega)]
  · rw [hfix]
    intro x hx hd
    rcases List.mem_append.1 hx with hx | hx
    · exact (hmd2 x hx _ hd).2.2 rfl
    · rw [List.mem_singleton.1 hx] at hd; simp only [dfn, Option.some.injEq] at hd; omega

end
end Verif.Hll
