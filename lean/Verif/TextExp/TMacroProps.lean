import Verif.TextExp.TMacro
/-!
# C80: text macros in ordinary lines
-/
namespace Verif.TextExp
open Verif.Lex (Str lit strparm maxString skipSp isSpace)

/-! ## Specification -/

/-- A row of tokens with at most `d` text macros inside of each other, and its full expansion. -/
inductive Full (W : Text → Option (List Tok)) : Nat → List Tok → List Tok → Prop
  | nil {d} : Full W d [] []
  | other {d t r o} : Full W d r o → Full W d (.other t :: r) (.other t :: o)
  | plain {d n r o} : W n = none → Full W d r o → Full W d (.id n :: r) (.id n :: o)
  | repl {d n v o r o'} : W n = some v → Full W d v o → Full W (d + 1) r o' → Full W (d + 1) (.id n :: r) (o ++ o')

/-- No text macro is left. -/
def Clean (W : Text → Option (List Tok)) (t : List Tok) : Prop := ∀ n, Tok.id n ∈ t → W n = none

/-- ExpandTMacro with enough rounds. -/
def Yields (W : Text → Option (List Tok)) (level : Nat) (t : List Tok) (r : Res) : Prop := ∃ F, ∀ f, F ≤ f → expandT W f level t = r

/-- `\` in front of blanks and a `;`. -/
def Continues (v : Str) : Prop := ∃ a b, v = a ++ 92 :: b ∧ (skipSp b).head? = some 59

/-! ## Proofs -/

theorem firstMacro_clean (W) (p r : List Tok) (h : Clean W p) :
    firstMacro W (p ++ r) = (firstMacro W r).map fun x => (p ++ x.1, x.2) := by
  induction p with
  | nil => simp
  | cons t p ih =>
    have := ih (fun n hn => h n (by simp [hn]))
    cases t with
    | other t => simp only [List.cons_append, firstMacro, this, Option.map_map]; rfl
    | id n =>
      have hn : W n = none := h n (by simp)
      simp only [List.cons_append, firstMacro, this, hn, Option.map_map]; rfl

theorem clean_append {W} {a b : List Tok} (ha : Clean W a) (hb : Clean W b) : Clean W (a ++ b) := by
  intro n hn
  rcases List.mem_append.mp hn with h | h
  · exact ha n h
  · exact hb n h

theorem clean_other {W} (t : Text) : Clean W [.other t] := by intro n hn; simp at hn
theorem clean_id {W} {n : Text} (h : W n = none) : Clean W [.id n] := by intro m hm; simp at hm; subst hm; exact h

theorem yields_done {W level} {t : List Tok} (hl : level < maxNesting) (h : Clean W t) : Yields W level t (.ok t) := by
  refine ⟨1, fun f hf => ?_⟩
  obtain ⟨f, rfl⟩ : ∃ g, f = g + 1 := ⟨f - 1, by omega⟩
  have := firstMacro_clean W t [] h
  simp only [List.append_nil, firstMacro, Option.map_none] at this
  simp only [expandT, this, Nat.not_le.mpr hl, ge_iff_le, if_false]

theorem yields_macro {W level} {p v o r : List Tok} {n : Text} {x : Res} (hl : level < maxNesting) (hp : Clean W p) (hv : W n = some v)
    (h1 : Yields W (level + 1) v (.ok o)) (h2 : Yields W level (p ++ o ++ r) x) : Yields W level (p ++ .id n :: r) x := by
  obtain ⟨F1, h1⟩ := h1
  obtain ⟨F2, h2⟩ := h2
  refine ⟨max F1 F2 + 1, fun f hf => ?_⟩
  obtain ⟨f, rfl⟩ : ∃ g, f = g + 1 := ⟨f - 1, by omega⟩
  have := firstMacro_clean W p (.id n :: r) hp
  simp only [firstMacro, hv, Option.map_some, List.append_nil] at this
  simp only [expandT, this, Nat.not_le.mpr hl, ge_iff_le, if_false, h1 f (by omega), h2 f (by omega)]

theorem yields_deep {W level} {p v r : List Tok} {n : Text} (hp : Clean W p) (hv : W n = some v)
    (h1 : Yields W (level + 1) v .tooDeep) : Yields W level (p ++ .id n :: r) .tooDeep := by
  obtain ⟨F1, h1⟩ := h1
  refine ⟨F1 + 1, fun f hf => ?_⟩
  obtain ⟨f, rfl⟩ : ∃ g, f = g + 1 := ⟨f - 1, by omega⟩
  have := firstMacro_clean W p (.id n :: r) hp
  simp only [firstMacro, hv, Option.map_some, List.append_nil] at this
  simp only [expandT, this, h1 f (by omega)]
  split <;> rfl

theorem full_yields {W d} {t o : List Tok} (h : Full W d t o) : ∀ level, level + d = 19 →
    Clean W o ∧ ∀ p, Clean W p → Yields W level (p ++ t) (.ok (p ++ o)) := by
  induction h with
  | nil =>
    intro level hl
    refine ⟨by intro n hn; simp at hn, fun p hp => ?_⟩
    rw [List.append_nil]
    exact yields_done (by simp [maxNesting]; omega) hp
  | @other d t r o _ ih =>
    intro level hl
    obtain ⟨h1, h2⟩ := ih level hl
    refine ⟨clean_append (clean_other t) h1, fun p hp => ?_⟩
    have := h2 (p ++ [.other t]) (clean_append hp (clean_other t))
    simpa using this
  | @plain d n r o hn _ ih =>
    intro level hl
    obtain ⟨h1, h2⟩ := ih level hl
    refine ⟨clean_append (clean_id hn) h1, fun p hp => ?_⟩
    have := h2 (p ++ [.id n]) (clean_append hp (clean_id hn))
    simpa using this
  | @repl d n v o r o' hv _ _ ih1 ih2 =>
    intro level hl
    obtain ⟨a1, a2⟩ := ih1 (level + 1) (by omega)
    obtain ⟨b1, b2⟩ := ih2 level hl
    refine ⟨clean_append a1 b1, fun p hp => ?_⟩
    have h1 := a2 [] (by intro n hn; simp at hn)
    have h2 := b2 (p ++ o) (clean_append hp a1)
    exact yields_macro (by simp [maxNesting]; omega) hp hv h1 (by simpa using h2)

theorem full_or_deep (W) : ∀ d (t : List Tok) level, level + d = 19 →
    (∃ o, Full W d t o) ∨ ∀ p, Clean W p → Yields W level (p ++ t) .tooDeep := by
  intro d
  induction d with
  | zero =>
    intro t level hl
    induction t with
    | nil => exact .inl ⟨[], .nil⟩
    | cons x t ih =>
      have push : ∀ x, Clean W [x] → (∀ p, Clean W p → Yields W level (p ++ t) .tooDeep) →
          ∀ p, Clean W p → Yields W level (p ++ x :: t) .tooDeep := by
        intro x hx h p hp
        have := h (p ++ [x]) (clean_append hp hx)
        simpa using this
      cases x with
      | other s =>
        rcases ih with ⟨o, h⟩ | h
        · exact .inl ⟨_, .other h⟩
        · exact .inr (push _ (clean_other s) h)
      | id n =>
        cases hv : W n with
        | none =>
          rcases ih with ⟨o, h⟩ | h
          · exact .inl ⟨_, .plain hv h⟩
          · exact .inr (push _ (clean_id hv) h)
        | some v =>
          right
          intro p hp
          refine yields_deep hp hv ⟨1, fun f hf => ?_⟩
          obtain ⟨f, rfl⟩ : ∃ g, f = g + 1 := ⟨f - 1, by omega⟩
          have : level + 1 ≥ maxNesting := by simp [maxNesting]; omega
          simp only [expandT, this, if_true]
  | succ d ihd =>
    intro t level hl
    induction t with
    | nil => exact .inl ⟨[], .nil⟩
    | cons x t ih =>
      have push : ∀ x, Clean W [x] → (∀ p, Clean W p → Yields W level (p ++ t) .tooDeep) →
          ∀ p, Clean W p → Yields W level (p ++ x :: t) .tooDeep := by
        intro x hx h p hp
        have := h (p ++ [x]) (clean_append hp hx)
        simpa using this
      cases x with
      | other s =>
        rcases ih with ⟨o, h⟩ | h
        · exact .inl ⟨_, .other h⟩
        · exact .inr (push _ (clean_other s) h)
      | id n =>
        cases hv : W n with
        | none =>
          rcases ih with ⟨o, h⟩ | h
          · exact .inl ⟨_, .plain hv h⟩
          · exact .inr (push _ (clean_id hv) h)
        | some v =>
          rcases ihd v (level + 1) (by omega) with ⟨o, ho⟩ | ho
          · obtain ⟨a1, a2⟩ := full_yields ho (level + 1) (by omega)
            rcases ih with ⟨o', h⟩ | h
            · exact .inl ⟨_, .repl hv ho h⟩
            · right
              intro p hp
              exact yields_macro (by simp [maxNesting]; omega) hp hv (a2 [] (by intro n hn; simp at hn)) (h _ (clean_append hp a1))
          · right
            intro p hp
            exact yields_deep hp hv (ho [] (by intro n hn; simp at hn))

/-- **C80** (expansion): the text is replaced by its full expansion, in which no text macro is left; when there is none within 19
levels, the error is reported. The expansion always ends. -/
theorem C80_expand_partial (W : Text → Option (List Tok)) (t : List Tok) :
    (∀ o, Full W 19 t o → Yields W 0 t (.ok o) ∧ Clean W o) ∧
    ((¬ ∃ o, Full W 19 t o) → Yields W 0 t .tooDeep) := by
  constructor
  · intro o h
    obtain ⟨h1, h2⟩ := full_yields h 0 rfl
    exact ⟨h2 [] (by intro n hn; simp at hn), h1⟩
  · intro h
    rcases full_or_deep W 19 t 0 rfl with h' | h'
    · exact absurd h' h
    · exact h' [] (by intro n hn; simp at hn)

theorem skip_escape (v r : Str) (hr : ∀ c, r.head? = some c → isSpace c = false) (hne : r ≠ []) :
    skipSp (escape v ++ r) ≠ [] ∧ ((skipSp (escape v ++ r)).head? = some 59 → (skipSp v).head? = some 59 ∨ skipSp v = [] ∧ r.head? = some 59) := by
  induction v with
  | nil =>
    cases r with
    | nil => exact absurd rfl hne
    | cons c r =>
      have := hr c rfl
      simp [escape, skipSp, List.dropWhile, this]
  | cons c v ih =>
    by_cases hc : c = 60 ∨ c = 62 ∨ c = 33
    · have : isSpace 33 = false := by decide
      simp [escape, hc, skipSp, List.dropWhile, this]
    · by_cases hs : isSpace c = true
      · simp only [escape, hc, if_false, skipSp, List.cons_append, List.dropWhile, hs] at ih ⊢
        exact ih
      · have hs : isSpace c = false := by simpa using hs
        simp only [escape, hc, if_false, skipSp, List.cons_append, List.dropWhile, hs]
        simp

theorem lit_escape (dflt : Bool) (f2 : Nat) (hs : strparm f2 = true) (v rest : Str) (more : List Str) (hc : ¬ Continues v) :
    ∀ (n : Nat) (dst : Str), n + v.length < maxString →
    lit dflt f2 0 n (escape v ++ 62 :: rest) dst more = .closed (dst ++ v) (n + v.length) rest more := by
  induction v with
  | nil =>
    intro n dst hn
    rw [escape, List.nil_append, lit.eq_def]
    have : ¬ n ≥ maxString := by simp at hn; omega
    simp [this]
  | cons c v ih =>
    have hc' : ¬ Continues v := by
      rintro ⟨a, b, h1, h2⟩
      exact hc ⟨c :: a, b, by rw [h1]; rfl, h2⟩
    intro n dst hn
    have hlt : ¬ n ≥ maxString := by simp at hn; omega
    have hr := ih hc' (n + 1) (dst ++ [c]) (by simp at hn; omega)
    have hlen : n + (c :: v).length = n + 1 + v.length := by simp; omega
    have happ : dst ++ c :: v = dst ++ [c] ++ v := by simp
    rw [hlen, happ]
    by_cases hx : c = 60 ∨ c = 62 ∨ c = 33
    · rw [escape, if_pos hx, List.cons_append, List.cons_append, lit.eq_def]
      simp [hlt, hs, hr]
    · have h1 : c ≠ 60 := fun e => hx (.inl e)
      have h2 : c ≠ 62 := fun e => hx (.inr (.inl e))
      have h3 : c ≠ 33 := fun e => hx (.inr (.inr e))
      rw [escape, if_neg hx, List.cons_append, lit.eq_def]
      by_cases h4 : c = 92
      · have hcl : Verif.Lex.concatLine (c :: (escape v ++ 62 :: rest)) n more = none := by
          have hsk := skip_escape v (62 :: rest) (by intro d hd; simp at hd; subst hd; decide) (by simp)
          have hno : ¬ (skipSp v).head? = some 59 := fun e => hc ⟨[], v, by rw [h4]; rfl, e⟩
          unfold Verif.Lex.concatLine
          simp only [List.drop_succ_cons, List.drop_zero]
          have hh : ¬ (skipSp (escape v ++ 62 :: rest) = [] ∨ Verif.Num.hd (skipSp (escape v ++ 62 :: rest)) = 59) := by
            rintro (e | e)
            · exact hsk.1 e
            · have : (skipSp (escape v ++ 62 :: rest)).head? = some 59 := by
                cases hk : skipSp (escape v ++ 62 :: rest) with
                | nil => exact absurd hk hsk.1
                | cons x y => rw [hk] at e; simp [Verif.Num.hd] at e; simp [e]
              rcases hsk.2 this with h | ⟨_, h⟩
              · exact hno h
              · simp at h
          rw [if_neg hh]
        simp only [hlt, if_false, h1, h2, h3, hs, h4, if_true]
        subst h4
        simp
        split
        · rename_i h; rw [hcl] at h; cases h
        · simpa using hr
      · simp [hlt, h1, h2, h3, h4, hs, hr]

/-- **C80** (arguments of string directives): the value of a text macro, put between brackets, is read back as it was: `<`, `>`, `!`,
quotes, anything. Partial: a `\\` in front of a `;` (`C80_defect_continuation`). -/
theorem C80_bracket_partial (dflt : Bool) (f2 : Nat) (hs : strparm f2 = true) (v rest : Str) (more : List Str) (hc : ¬ Continues v)
    (hn : v.length < maxString) :
    ∃ s, bracket v ++ rest = 60 :: s ∧ lit dflt f2 0 0 s [] more = .closed v v.length rest more := by
  refine ⟨escape v ++ 62 :: rest, by simp [bracket], ?_⟩
  have := lit_escape dflt f2 hs v rest more hc 0 [] (by omega)
  simpa using this

/-- **C80** (defect): with the value `a\;b` the next source line `l` is taken for a continuation, and `;b>` with the rest of the line
is lost. -/
theorem C80_defect_continuation (dflt : Bool) (f2 : Nat) (hs : strparm f2 = true) (rest l : Str) (more : List Str) (n : Nat) (dst : Str)
    (hn : n + 2 < maxString) :
    lit dflt f2 0 n (escape [97, 92, 59, 98] ++ 62 :: rest) dst (l :: more) = lit dflt f2 0 (n + 1) (skipSp l) (dst ++ [97]) more := by
  have e : escape [97, 92, 59, 98] = [97, 92, 59, 98] := by decide
  have h1 : ¬ n ≥ maxString := by omega
  have h2 : ¬ n + 1 ≥ maxString := by omega
  have hcl : Verif.Lex.concatLine (92 :: 59 :: 98 :: 62 :: rest) (n + 1) (l :: more) = some (skipSp l, more) := by
    have : isSpace 59 = false := by decide
    simp [Verif.Lex.concatLine, skipSp, List.dropWhile, this, Verif.Num.hd]
  rw [e]
  simp only [List.cons_append, List.nil_append]
  rw [lit.eq_def]
  simp only [h1, if_false, hs]
  simp
  rw [lit.eq_def]
  simp only [h2, if_false, hs]
  simp
  split
  · rename_i h; rw [hcl] at h; cases h; rfl
  · rename_i h; rw [hcl] at h; cases h

/-! ## Concrete cases -/

/-- `A` is `B + 1`, `B` is `x`. -/
def w0 : Text → Option (List Tok) := fun n =>
  if n = ['A'] then some [.id ['B'], .other ['+'], .other ['1']] else if n = ['B'] then some [.id ['x']] else
  if n = ['T'] then some [.id ['T']] else none

example : Full w0 19 [.other ['['], .id ['A'], .other [']'], .id ['B']]
    [.other ['['], .id ['x'], .other ['+'], .other ['1'], .other [']'], .id ['x']] :=
  .other (.repl (v := [.id ['B'], .other ['+'], .other ['1']]) (by decide)
    (.repl (v := [.id ['x']]) (by decide) (.plain (by decide) .nil) (.other (.other .nil)))
    (.other (.repl (v := [.id ['x']]) (by decide) (.plain (by decide) .nil) .nil)))
example : expandT w0 9 0 [.other ['['], .id ['A'], .other [']'], .id ['B']] =
    .ok [.other ['['], .id ['x'], .other ['+'], .other ['1'], .other [']'], .id ['x']] := by decide
example : expandT w0 30 0 [.id ['T']] = .tooDeep := by decide

/-- `a<b!"` is written `<a!<b!!">` -/
example : bracket [97, 60, 98, 33, 34] = [60, 97, 33, 60, 98, 33, 33, 34, 62] := by decide
example : ¬ Continues [97, 60, 98, 33, 34] := by
  rintro ⟨a, b, h, _⟩
  have : (92 : Nat) ∈ [97, 60, 98, 33, 34] := by rw [h]; simp
  revert this; decide
example : strparm 2 = true := by decide

end Verif.TextExp
