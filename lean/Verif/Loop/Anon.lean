import Verif.Loop.Spec
/-! # C61: anonymous labels -/
namespace Verif.Loop

/-- The value of a decimal number. -/
def decVal (t : Text) : Nat := t.foldl (fun a c => a * 10 + (c.toNat - 48)) 0

theorem decVal_printU (n : Nat) : decVal (printU n) = n := by
  induction n using Nat.strongRecOn with
  | ind n ih =>
    have hd : (Char.ofNat ('0'.toNat + n % 10)).toNat - 48 = n % 10 := by
      have : n % 10 < 10 := Nat.mod_lt _ (by decide)
      generalize n % 10 = m at this
      match m, this with
      | 0, _ | 1, _ | 2, _ | 3, _ | 4, _ | 5, _ | 6, _ | 7, _ | 8, _ | 9, _ => decide
    rw [printU, decVal, List.foldl_append]
    simp only [List.foldl_cons, List.foldl_nil, hd]
    split
    · simp only [List.foldl_nil]; omega
    · have := ih (n / 10) (by omega)
      rw [decVal] at this
      rw [this]; omega

theorem decVal_zeros (k : Nat) (t : Text) : decVal (List.replicate k '0' ++ t) = decVal t := by
  induction k with
  | zero => rfl
  | succ k ih =>
    rw [List.replicate_succ, List.cons_append, decVal, List.foldl_cons]
    exact ih

/-- Different numbers make different names. -/
theorem labelName_inj {m n : Nat} (h : labelName m = labelName n) : m = n := by
  unfold labelName at h
  simp only [List.append_assoc] at h
  have h := List.append_cancel_left h
  have h := congrArg decVal h
  rwa [decVal_zeros, decVal_zeros, decVal_printU, decVal_printU] at h

/-- The names cannot be written as identifiers, so that they do not collide with the user's labels. -/
theorem labelName_amp (n : Nat) : '&' ∈ labelName n := by simp [labelName]

def isAnon : Line × Option Nat → Bool
  | (.anon _, _) => true
  | (.other, _) => false

theorem isAnon_iff (x : Line × Option Nat) : isAnon x = true ↔ ∃ d s, x = (.anon d, s) := by
  match x with
  | (.anon d, s) => simp [isAnon]
  | (.other, s) => simp [isAnon]

/-- Anonymous labels in lines `0..k`. -/
def cntTo (src : List (Line × Option Nat)) (k : Nat) : Nat := (src.take (k + 1)).countP isAnon

theorem cntTo_mono (src : List (Line × Option Nat)) {i j : Nat} (h : i ≤ j) : cntTo src i ≤ cntTo src j := by
  unfold cntTo
  have : src.take (j + 1) = src.take (i + 1) ++ (src.drop (i + 1)).take (j - i) := by
    rw [show j + 1 = (i + 1) + (j - i) by omega, List.take_add]
  rw [this, List.countP_append]
  omega

theorem cntTo_succ (src : List (Line × Option Nat)) (k : Nat) :
    cntTo src (k + 1) = cntTo src k + if (src[k + 1]?.any isAnon) then 1 else 0 := by
  unfold cntTo
  rw [List.take_succ, List.countP_append]
  cases src[k + 1]? with
  | none => simp
  | some x => cases h : isAnon x <;> simp [h]

theorem cntTo_lt (src : List (Line × Option Nat)) {i j : Nat} (h : i < j) {d s} (hj : src[j]? = some (.anon d, s)) :
    cntTo src i < cntTo src j := by
  obtain ⟨j, rfl⟩ : ∃ j', j = j' + 1 := ⟨j - 1, by omega⟩
  have := cntTo_mono src (show i ≤ j by omega)
  rw [cntTo_succ, hj]
  simp [isAnon]; omega

theorem cntTo_eq (src : List (Line × Option Nat)) (i j : Nat) (h : i ≤ j)
    (hn : ∀ k, i < k → k ≤ j → ∀ d s, src[k]? ≠ some (.anon d, s)) : cntTo src j = cntTo src i := by
  induction j with
  | zero => have : i = 0 := by omega
            rw [this]
  | succ j ih =>
    by_cases hij : i = j + 1
    · rw [hij]
    · rw [cntTo_succ, ih (by omega) (fun k h1 h2 => hn k h1 (by omega))]
      have : src[j + 1]?.any isAnon = false := by
        cases hx : src[j + 1]? with
        | none => rfl
        | some x =>
          match x with
          | (.other, s) => rfl
          | (.anon d, s) => exact absurd hx (hn (j + 1) (by omega) (by omega) d s)
      rw [this]; simp

theorem cntTo_le (src : List (Line × Option Nat)) (k : Nat) : cntTo src k ≤ src.countP isAnon := by
  unfold cntTo
  exact (List.take_sublist _ _).countP_le

theorem cntTo_cons (x : Line × Option Nat) (src : List (Line × Option Nat)) (k : Nat) :
    cntTo (x :: src) (k + 1) = (if isAnon x then 1 else 0) + cntTo src k := by
  unfold cntTo
  rw [List.take_succ_cons, List.countP_cons]; omega

theorem cntTo_zero (x : Line × Option Nat) (src : List (Line × Option Nat)) :
    cntTo (x :: src) 0 = (if isAnon x then 1 else 0) := by
  simp [cntTo, List.countP_cons]

theorem pass_cnt (src : List (Line × Option Nat)) : ∀ (cnt line : Nat), cnt < 2 ^ 32 → ∀ i, i < src.length →
    (pass cnt line src).1[i]? = some ((cnt + cntTo src i) % 2 ^ 32) := by
  induction src with
  | nil => intro cnt line _ i hi; simp at hi
  | cons x src ih =>
    intro cnt line hc i hi
    match x with
    | (.anon d, s) =>
      match i with
      | 0 => simp only [pass, define, List.getElem?_cons_zero, cntTo_zero, isAnon, if_true]
      | i + 1 =>
        simp only [pass, define, List.getElem?_cons_succ]
        rw [ih _ _ (Nat.mod_lt _ (by decide)) i (by simpa using hi), cntTo_cons]
        simp only [isAnon, if_true]
        congr 1; omega
    | (.other, s) =>
      match i with
      | 0 =>
        simp only [pass, define, List.getElem?_cons_zero, cntTo_zero, isAnon, Bool.false_eq_true, if_false]
        congr 1; omega
      | i + 1 =>
        simp only [pass, define, List.getElem?_cons_succ]
        rw [ih _ _ hc i (by simpa using hi), cntTo_cons]
        simp [isAnon]

theorem pass_defs (src : List (Line × Option Nat)) : ∀ (cnt line : Nat), cnt < 2 ^ 32 → ∀ e : Def,
    e ∈ (pass cnt line src).2 ↔ ∃ k d s, src[k]? = some (.anon d, s) ∧
      e = { name := labelName ((cnt + cntTo src k) % 2 ^ 32), scope := if d then none else s, line := line + k } := by
  induction src with
  | nil => intro cnt line _ e; simp [pass]
  | cons x src ih =>
    intro cnt line hc e
    match x with
    | (.anon d, s) =>
      simp only [pass, define, List.mem_append, List.mem_singleton]
      rw [ih _ _ (Nat.mod_lt _ (by decide))]
      constructor
      · rintro (rfl | ⟨k, d', s', h1, h2⟩)
        · exact ⟨0, d, s, rfl, by simp only [cntTo_zero, isAnon, if_true, Nat.add_zero]⟩
        · refine ⟨k + 1, d', s', by simpa using h1, ?_⟩
          rw [h2, cntTo_cons]
          simp only [isAnon, if_true, Def.mk.injEq, true_and]
          refine ⟨?_, by omega⟩
          congr 1; omega
      · rintro ⟨k, d', s', h1, h2⟩
        match k with
        | 0 =>
          simp only [List.getElem?_cons_zero, Option.some.injEq, Prod.mk.injEq, Line.anon.injEq] at h1
          obtain ⟨rfl, rfl⟩ := h1
          left; rw [h2]; simp only [cntTo_zero, isAnon, if_true, Nat.add_zero]
        | k + 1 =>
          right
          refine ⟨k, d', s', by simpa using h1, ?_⟩
          rw [h2, cntTo_cons]
          simp only [isAnon, if_true, Def.mk.injEq, true_and]
          refine ⟨?_, by omega⟩
          congr 1; omega
    | (.other, s) =>
      simp only [pass, define, List.nil_append]
      rw [ih _ _ hc]
      constructor
      · rintro ⟨k, d', s', h1, h2⟩
        refine ⟨k + 1, d', s', by simpa using h1, ?_⟩
        rw [h2, cntTo_cons]
        simp [isAnon]; omega
      · rintro ⟨k, d', s', h1, h2⟩
        match k with
        | 0 => simp at h1
        | k + 1 =>
          refine ⟨k, d', s', by simpa using h1, ?_⟩
          rw [h2, cntTo_cons]
          simp [isAnon]; omega

theorem find_unique {ds : List Def} {p : Def → Bool} {n : Nat} (hu : ∀ a ∈ ds, ∀ b ∈ ds, p a = true → p b = true → a.line = b.line) :
    (ds.find? p).map (·.line) = some n ↔ ∃ e ∈ ds, p e = true ∧ e.line = n := by
  constructor
  · intro h
    cases hf : ds.find? p with
    | none => rw [hf] at h; cases h
    | some e => rw [hf] at h; cases h; exact ⟨e, List.mem_of_find?_eq_some hf, List.find?_some hf, rfl⟩
  · rintro ⟨e, he, hp, rfl⟩
    cases hf : ds.find? p with
    | none => rw [List.find?_eq_none] at hf; exact absurd hp (hf e he)
    | some e' => simp [hu e' (List.mem_of_find?_eq_some hf) e he (List.find?_some hf) hp]

theorem search_iff {ds : List Def} (name : Text) (hu : ∀ a ∈ ds, ∀ b ∈ ds, a.name = name → b.name = name → a.line = b.line)
    (scope : Option Nat) (n : Nat) : (search ds scope name).map (·.line) = some n ↔
      ∃ e ∈ ds, e.name = name ∧ (e.scope = none ∨ e.scope = scope) ∧ e.line = n := by
  have hfind : ∀ sc : Option Nat, (ds.find? (fun d => d.scope == sc && d.name == name)).map (·.line) = some n ↔
      ∃ e ∈ ds, e.name = name ∧ e.scope = sc ∧ e.line = n := by
    intro sc
    rw [find_unique]
    · simp only [Bool.and_eq_true, beq_iff_eq]
      constructor
      · rintro ⟨e, h1, ⟨h2, h3⟩, h4⟩; exact ⟨e, h1, h3, h2, h4⟩
      · rintro ⟨e, h1, h3, h2, h4⟩; exact ⟨e, h1, ⟨h2, h3⟩, h4⟩
    · intro a ha b hb h1 h2
      simp only [Bool.and_eq_true, beq_iff_eq] at h1 h2
      exact hu a ha b hb h1.2 h2.2
  unfold search
  match scope with
  | none =>
    rw [hfind]
    simp only [or_self]
  | some p =>
    simp only
    cases hl : ds.find? (fun d => d.scope == some p && d.name == name) with
    | none =>
      have hno : ∀ e ∈ ds, e.name = name → e.scope ≠ some p := by
        rw [List.find?_eq_none] at hl
        intro e he hn hs
        exact hl e he (by simp [hs, hn])
      rw [Option.none_or, hfind]
      constructor
      · rintro ⟨e, h1, h2, h3, h4⟩; exact ⟨e, h1, h2, .inl h3, h4⟩
      · rintro ⟨e, h1, h2, h3 | h3, h4⟩
        · exact ⟨e, h1, h2, h3, h4⟩
        · exact absurd h3 (hno e h1 h2)
    | some e0 =>
      have hm := List.mem_of_find?_eq_some hl
      have hp := List.find?_some hl
      simp only [Bool.and_eq_true, beq_iff_eq] at hp
      simp only [Option.some_or, Option.map_some, Option.some.injEq]
      constructor
      · intro h; exact ⟨e0, hm, hp.2, .inr hp.1, h⟩
      · rintro ⟨e, h1, h2, _, h4⟩; rw [← h4]; exact hu e0 hm e h1 hp.2 h2

/-- Which label a reference stands for, in terms of the count. -/
theorem resolve_iff (src : List (Line × Option Nat)) (hsz : src.countP isAnon + 1 < 2 ^ 32) (i : Nat) (hi : i < src.length)
    (fwd : Bool) (k : Nat) : resolve src i fwd = some k ↔
      cntTo src k = cntTo src i + (if fwd then 1 else 0) ∧ (∃ d s, src[k]? = some (.anon d, s)) ∧ Visible src i k := by
  have hcnt := pass_cnt src 0 0 (by decide) i hi
  have hdef := pass_defs src 0 0 (by decide)
  have hmod : ∀ k, (0 + cntTo src k) % 2 ^ 32 = cntTo src k := by
    intro k; have := cntTo_le src k; omega
  have hmod2 : (cntTo src i + (if fwd then 1 else 0)) % 2 ^ 32 = cntTo src i + (if fwd then 1 else 0) := by
    have := cntTo_le src i; split <;> omega
  unfold resolve
  rcases hp : pass 0 0 src with ⟨cs, ds⟩
  rw [hp] at hcnt hdef
  simp only at hcnt hdef
  have hc : cs.getD i 0 = cntTo src i := by rw [List.getD, hcnt, hmod]; rfl
  simp only [hc, hmod2]
  rw [search_iff]
  · have hsc : (src.getD i (.other, none)).2 = src[i]?.bind (·.2) := by
      rw [List.getD, List.getElem?_eq_getElem hi]; rfl
    rw [hsc]
    constructor
    · rintro ⟨e, he, hn, hs, rfl⟩
      obtain ⟨k, d, s, h1, rfl⟩ := (hdef e).1 he
      simp only [Nat.zero_add] at hn hs ⊢
      rw [Nat.mod_eq_of_lt (by have := cntTo_le src k; omega)] at hn
      refine ⟨labelName_inj hn, ⟨d, s, h1⟩, ?_⟩
      cases d
      · right; refine ⟨s, h1, ?_⟩
        rcases hs with h | h
        · exact .inl h
        · exact .inr h.symm
      · exact .inl ⟨s, h1⟩
    · rintro ⟨hk, ⟨d, s, h1⟩, hv⟩
      refine ⟨_, (hdef _).2 ⟨k, d, s, h1, rfl⟩, ?_, ?_, by simp⟩
      · rw [hmod, hk]
      · rcases hv with ⟨s', h⟩ | ⟨s', h, h2⟩
        · rw [h1] at h; cases h; exact .inl rfl
        · rw [h1] at h; cases h
          rcases h2 with h2 | h2
          · exact .inl (by simp [h2])
          · exact .inr (by simp [h2])
  · intro a ha b hb h1 h2
    obtain ⟨k, d, s, g1, rfl⟩ := (hdef a).1 ha
    obtain ⟨k', d', s', g2, rfl⟩ := (hdef b).1 hb
    simp only [Nat.zero_add] at h1 h2 ⊢
    rw [Nat.mod_eq_of_lt (by have := cntTo_le src k; omega)] at h1
    rw [Nat.mod_eq_of_lt (by have := cntTo_le src k'; omega)] at h2
    have e : cntTo src k = cntTo src k' := labelName_inj (h1.trans h2.symm)
    rcases Nat.lt_trichotomy k k' with h | h | h
    · have := cntTo_lt src h g2; omega
    · exact h
    · have := cntTo_lt src h g1; omega

/-- C61: `@B` stands for the nearest `@@:` at or before its line, if that label can be seen there; otherwise it is undefined.
It never stands for another label. -/
theorem anon_back (src : List (Line × Option Nat)) (hsz : src.countP isAnon + 1 < 2 ^ 32) (i : Nat) (hi : i < src.length)
    (k : Nat) : resolve src i false = some k ↔ IsPrev src i k ∧ Visible src i k := by
  rw [resolve_iff src hsz i hi]
  simp only [Bool.false_eq_true, if_false, Nat.add_zero]
  constructor
  · rintro ⟨h1, ⟨d, s, h2⟩, h3⟩
    refine ⟨⟨?_, ⟨d, s, h2⟩, ?_⟩, h3⟩
    · rcases Nat.lt_or_ge i k with h | h
      · have := cntTo_lt src h h2; omega
      · exact h
    · intro j hj hji d' s' hs
      have := cntTo_lt src hj hs
      have := cntTo_mono src hji
      omega
  · rintro ⟨⟨h1, h2, h3⟩, h4⟩
    exact ⟨(cntTo_eq src k i h1 h3).symm, h2, h4⟩

/-- C61: `@F` stands for the nearest `@@:` behind its line, if that label can be seen there; otherwise it is undefined. -/
theorem anon_fwd (src : List (Line × Option Nat)) (hsz : src.countP isAnon + 1 < 2 ^ 32) (i : Nat) (hi : i < src.length)
    (k : Nat) : resolve src i true = some k ↔ IsNext src i k ∧ Visible src i k := by
  rw [resolve_iff src hsz i hi]
  simp only [if_true]
  constructor
  · rintro ⟨h1, ⟨d, s, h2⟩, h3⟩
    have hik : i < k := by
      rcases Nat.lt_or_ge i k with h | h
      · exact h
      · have := cntTo_mono src h; omega
    refine ⟨⟨hik, ⟨d, s, h2⟩, ?_⟩, h3⟩
    intro j hj hjk d' s' hs
    have := cntTo_lt src hj hs
    have := cntTo_lt src hjk h2
    omega
  · rintro ⟨⟨h1, ⟨d, s, h2⟩, h3⟩, h4⟩
    refine ⟨?_, ⟨d, s, h2⟩, h4⟩
    obtain ⟨k, rfl⟩ : ∃ k', k = k' + 1 := ⟨k - 1, by omega⟩
    rw [cntTo_succ, h2, cntTo_eq src i k (by omega) (fun j a b => h3 j a (by omega))]
    rfl

/-- Three labels, the second in a procedure: from the line behind it, outside of the procedure, it cannot be seen. -/
example : resolve [(.anon false, none), (.other, some 1), (.anon false, some 1), (.other, some 1), (.other, none), (.anon false, none)] 3 false
      = some 2 ∧
    resolve [(.anon false, none), (.other, some 1), (.anon false, some 1), (.other, some 1), (.other, none), (.anon false, none)] 4 false
      = none ∧
    resolve [(.anon false, none), (.other, some 1), (.anon false, some 1), (.other, some 1), (.other, none), (.anon false, none)] 3 true
      = some 5 := by decide +kernel

end Verif.Loop
