import Verif.MacroRun.Proofs
/-!
# C75: EXITM and GOTO
-/
namespace Verif.MacroRun
open Verif.CondAsm (State World maxIfNesting Same)

/-! ## Labels -/

theorem memieq_iff (s t : Text) : memieq s t = true ↔ (s.take t.length).map lower = t.map lower := by
  induction t generalizing s with
  | nil => simp [memieq]
  | cons b t ih =>
    cases s with
    | nil => simp [memieq]
    | cons a s => simp [memieq, ih]

theorem isId_noSpace (c : Char) (h : isIdChar c = true) : isSpace c = false := by
  cases hs : isSpace c with
  | false => rfl
  | true =>
    simp only [isSpace, Bool.or_eq_true, beq_iff_eq] at hs
    rcases hs with ((((rfl | rfl) | rfl) | rfl) | rfl) | rfl <;> exact absurd h (by decide)

theorem isId_lower (c : Char) : isIdChar (lower c) = isIdChar c := by
  by_cases h : 65 ≤ c.toNat ∧ c.toNat ≤ 90
  · have : ∀ n : Nat, n ≤ 90 → 65 ≤ n → isIdChar (lower (Char.ofNat n)) = isIdChar (Char.ofNat n) := by decide
    have := this c.toNat h.2 h.1
    rwa [Char.ofNat_toNat] at this
  · have : lower c = c := by
      unfold lower Char.toLower
      rw [dif_neg]
      rintro ⟨h1, h2⟩
      apply h
      exact ⟨UInt32.le_iff_toNat_le.mp h1, UInt32.le_iff_toNat_le.mp h2⟩
    rw [this]

theorem lower_id {a b : Char} (h : lower a = lower b) (hb : isIdChar b = true) : isIdChar a = true := by
  rw [← isId_lower a, h, isId_lower b, hb]

/-- The destination of a GOTO is a label of this name, in lower or upper case. -/
theorem isDest_iff (bl name more target : Text) (hb : ∀ c ∈ bl, isSpace c = true) (hn : ∀ c ∈ name, isIdChar c = true)
    (hne : name ≠ []) (hm : ∀ c, more.head? = some c → isIdChar c = false) (ht : ∀ c ∈ target, isIdChar c = true) :
    isDest (bl ++ name ++ more) target = sameName name target := by
  have hdrop : (bl ++ name ++ more).dropWhile isSpace = name ++ more := by
    have : (bl ++ (name ++ more)).dropWhile isSpace = (name ++ more).dropWhile isSpace := by
      rw [List.dropWhile_append_of_pos]
      simpa using hb
    rw [List.append_assoc, this]
    cases name with
    | nil => exact absurd rfl hne
    | cons c cs => simp [isId_noSpace c (hn c (by simp))]
  unfold isDest
  simp only [hdrop]
  rw [Bool.eq_iff_iff]
  simp only [Bool.and_eq_true, memieq_iff, sameName, beq_iff_eq, Bool.not_eq_true']
  rcases Nat.lt_trichotomy name.length target.length with h | h | h
  · -- the name is shorter: the next character of the line is no identifier character
    constructor
    · rintro ⟨h1, _⟩
      exfalso
      rw [List.take_append] at h1
      rw [List.take_of_length_le (by omega)] at h1
      have hl := congrArg List.length h1
      simp only [List.length_map, List.length_append, List.length_take] at hl
      cases more with
      | nil => simp at hl; omega
      | cons d ds =>
        have hd := hm d rfl
        have hg := congrArg (fun l => l[name.length]?) h1
        rw [List.getElem?_map, List.getElem?_map, List.getElem?_append_right (by omega), Nat.sub_self] at hg
        rw [show target.length - name.length = (target.length - name.length - 1) + 1 from by omega, List.take_succ_cons,
          List.getElem?_cons_zero, List.getElem?_eq_getElem h] at hg
        simp only [Option.map_some, Option.some.injEq] at hg
        have hid := ht target[name.length] (List.getElem_mem _)
        exact absurd (lower_id hg hid) (by rw [hd]; simp)
    · intro h1
      have := congrArg List.length h1
      simp at this; omega
  · have hd : List.drop target.length (name ++ more) = more := by rw [← h, List.drop_left]
    rw [← h, List.take_left]
    rw [← h] at hd
    rw [hd]
    constructor
    · exact fun h => h.1
    · intro h1
      refine ⟨h1, ?_⟩
      cases more with
      | nil => rfl
      | cons d ds => simpa using hm d rfl
  · constructor
    · rintro ⟨_, h2⟩
      exfalso
      have hg : (List.drop target.length (name ++ more)).head? = some name[target.length] := by
        rw [List.head?_drop, List.getElem?_append_left h, List.getElem?_eq_getElem h]
      rw [hg] at h2
      have := hn name[target.length] (List.getElem_mem _)
      simp [this] at h2
    · intro h1
      have := congrArg List.length h1
      simp at this; omega

mutual
theorem find_noLabels (l : Text) (c : Code) (h : c.noLabels = true) (rest : List Line) :
    findLabel l (c.flat ++ rest) = findLabel l rest := by
  cases c with
  | nil => rfl
  | line n r => simpa [Code.flat, findLabel] using find_noLabels l r h rest
  | exitm r => simpa [Code.flat, findLabel] using find_noLabels l r h rest
  | goto t r => simpa [Code.flat, findLabel] using find_noLabels l r h rest
  | label b n m r => simp [Code.noLabels] at h
  | block c b a r =>
    simp only [Code.noLabels, Bool.and_eq_true] at h
    simp only [Code.flat, List.cons_append, findLabel, List.append_assoc]
    rw [find_noLabels l b h.1.1, find_noAlts l a h.1.2, find_noLabels l r h.2]
theorem find_noAlts (l : Text) (a : Alts) (h : a.noLabels = true) (rest : List Line) :
    findLabel l (a.flat ++ rest) = findLabel l rest := by
  cases a with
  | endif => simp [Alts.flat, findLabel]
  | els b =>
    simp only [Alts.flat, List.cons_append, findLabel, List.append_assoc]
    rw [find_noLabels l b h]; simp [findLabel]
  | elseif c b a =>
    simp only [Alts.noLabels, Bool.and_eq_true] at h
    simp only [Alts.flat, List.cons_append, findLabel, List.append_assoc]
    rw [find_noLabels l b h.1, find_noAlts l a h.2]
end

theorem findLabel_behind (l : Text) (hl : ∀ c ∈ l, isIdChar c = true) (prog : Code) (hw : prog.WF) :
    findLabel l prog.flat = (prog.behind l).map Code.flat := by
  induction prog using Code.rec (motive_2 := fun _ => True) with
  | nil => rfl
  | line n r ih => simpa [Code.flat, findLabel, Code.behind] using ih hw
  | exitm r ih => simpa [Code.flat, findLabel, Code.behind] using ih hw
  | goto t r ih => simpa [Code.flat, findLabel, Code.behind] using ih hw
  | label b n m r ih =>
    obtain ⟨h1, h2, h3, h4, h5⟩ := hw
    simp only [Code.flat, findLabel, Code.behind, isDest_iff b n m l h1 h2 h3 h4 hl]
    by_cases hs : sameName n l = true
    · simp [hs]
    · rw [Bool.not_eq_true] at hs
      simp [hs, ih h5]
  | block c b a r _ _ ih =>
    obtain ⟨h1, h2, h3⟩ := hw
    simp only [Code.flat, findLabel, Code.behind]
    rw [find_noLabels l b h1, find_noAlts l a h2, ih h3]
  | _ => trivial

theorem behind_keeps (l : Text) (prog c : Code) (h : prog.behind l = some c) (hg : prog.gotoNames) :
    c.depth ≤ prog.depth ∧ c.gotoNames := by
  induction prog using Code.rec (motive_2 := fun _ => True) with
  | nil => simp [Code.behind] at h
  | line n r ih => exact ih h hg
  | exitm r ih => exact ih h hg
  | goto t r ih => exact ih h hg.2
  | label b n m r ih =>
    simp only [Code.behind] at h
    by_cases hs : sameName n l = true
    · simp only [hs, if_true, Option.some.injEq] at h
      subst h
      exact ⟨Nat.le_refl _, hg⟩
    · rw [Bool.not_eq_true] at hs
      simp only [hs, Bool.false_eq_true, if_false] at h
      exact ih h hg
  | block c b a r _ _ ih =>
    have := ih h hg.2.2
    exact ⟨by simp only [Code.depth]; omega, this.2⟩
  | _ => trivial

mutual
theorem exec_goto {σ : Type} (W : World σ) (c : Code) (w w' : σ) (ev : List Event) (l : Text) (hg : c.gotoNames)
    (h : c.exec W w = some (w', ev, .goto l)) : ∀ x ∈ l, isIdChar x = true := by
  cases c with
  | nil => simp [Code.exec] at h
  | line n r =>
    simp only [Code.exec, Option.bind_eq_some_iff, Option.some.injEq] at h
    obtain ⟨⟨w1, ev1, k1⟩, h1, h2⟩ := h
    simp only [Prod.mk.injEq] at h2
    obtain ⟨rfl, rfl, rfl⟩ := h2
    exact exec_goto W r _ _ _ l hg h1
  | exitm r => simp [Code.exec] at h
  | goto t r =>
    simp only [Code.exec, Option.some.injEq, Prod.mk.injEq, Ctl.goto.injEq] at h
    obtain ⟨_, _, rfl⟩ := h
    exact hg.1
  | label b n m r => exact exec_goto W r _ _ _ l hg h
  | block c b a r =>
    simp only [Code.exec, Option.bind_eq_some_iff] at h
    obtain ⟨t, ht, ⟨w1, ev1, k1⟩, h1, h2⟩ := h
    cases k1 with
    | done =>
      simp only [Option.bind_eq_some_iff, Option.some.injEq] at h2
      obtain ⟨⟨w2, ev2, k2⟩, h3, h4⟩ := h2
      simp only [Prod.mk.injEq] at h4
      obtain ⟨rfl, rfl, rfl⟩ := h4
      exact exec_goto W r _ _ _ l hg.2.2 h3
    | exitm => simp at h2
    | goto l' =>
      simp only [Option.some.injEq, Prod.mk.injEq, Ctl.goto.injEq] at h2
      obtain ⟨_, _, rfl⟩ := h2
      cases t with
      | true => exact exec_goto W b _ _ _ l' hg.1 (by simpa using h1)
      | false => exact exec_gotoA W a _ _ _ l' hg.2.1 (by simpa using h1)
theorem exec_gotoA {σ : Type} (W : World σ) (a : Alts) (w w' : σ) (ev : List Event) (l : Text) (hg : a.gotoNames)
    (h : a.exec W w = some (w', ev, .goto l)) : ∀ x ∈ l, isIdChar x = true := by
  cases a with
  | endif => simp [Alts.exec] at h
  | els b => exact exec_goto W b _ _ _ l hg h
  | elseif c b a =>
    simp only [Alts.exec, Option.bind_eq_some_iff, Option.some.injEq] at h
    obtain ⟨t, ht, ⟨w1, ev1, k1⟩, h1, h2⟩ := h
    simp only [Prod.mk.injEq] at h2
    obtain ⟨_, _, rfl⟩ := h2
    cases t with
    | true => exact exec_goto W b _ _ _ l hg.1 (by simpa using h1)
    | false => exact exec_gotoA W a _ _ _ l hg.2 (by simpa using h1)
end

/-! ## Running -/

/-- one round of the loop: what happens at the end of the text `c`, at an EXITM, and at a GOTO -/
theorem round {σ : Type} (W : World σ) (prog : Code) (hw : prog.WF) (s : State) (hd : s.lvl + prog.depth ≤ maxIfNesting)
    (jumped : Bool) (s1 : State) (hs : Same s.lvl s s1) (c : Code) (hc : s.lvl + c.depth ≤ maxIfNesting)
    (hg : c.gotoNames) (w w' : σ) (ev : List Event) (k : Ctl) (he : c.exec W w = some (w', ev, k)) :
    match k with
    | .done => ∃ s', SameBlocks s s' ∧ ∀ n, runLines W prog.flat s.lvl (n + 1) jumped (s1, w) c.flat = some ((s', w'), ev, false)
    | .exitm => ∃ s', SameBlocks s s' ∧ ∀ n, runLines W prog.flat s.lvl (n + 1) jumped (s1, w) c.flat = some ((s', w'), ev, true)
    | .goto l =>
      match prog.behind l with
      | none => ∃ s', SameBlocks s s' ∧ ∀ n,
          runLines W prog.flat s.lvl (n + 1) jumped (s1, w) c.flat = some ((s', w'), ev ++ [.noLabel l], false)
      | some c' => ∃ s2, Same s.lvl s s2 ∧ ∀ n, runLines W prog.flat s.lvl (n + 1) jumped (s1, w) c.flat =
          (runLines W prog.flat s.lvl n true (s2, w') c'.flat).map fun (x, ev', b) => (x, ev ++ ev', b) := by
  have hL := exec_code W c s1 w w' ev k hs.1 hs.2.2.1 (by rw [hs.2.1]; exact hc) he
  rw [hs.2.1] at hL
  unfold Leaves at hL
  cases k with
  | done =>
    simp only [if_true] at hL
    obtain ⟨s', hs', hr⟩ := hL
    have := hr []
    simp only [List.append_nil, lines, pre] at this
    refine ⟨s', Same.trans hs hs', fun n => ?_⟩
    rw [runLines, this]
  | exitm =>
    rw [if_neg (by simp)] at hL
    obtain ⟨s', s'', t, h1, h2, h3, hs'', hr, hk⟩ := hL
    have h4 := hr []
    have h5 := hk []
    simp only [List.append_nil, skipMacro] at h4 h5
    cases jumped with
    | false =>
      refine ⟨s'', Same.trans hs hs'', fun n => ?_⟩
      rw [runLines, h4]
      simp [h5]
    | true =>
      obtain ⟨s3, hs3, hk3⟩ := skip_code prog { s' with lvl := s.lvl } h1 h2 hd
      have h6 := hk3 []
      simp only [List.append_nil, skipMacro] at h6
      refine ⟨s3, ⟨hs3.1, hs3.2.1, hs3.2.2.1, fun i hi => ?_⟩, fun n => ?_⟩
      · rw [hs3.2.2.2 i hi]
        show s'.elseBits.getLsbD i = _
        rw [h3 i hi, hs.2.2.2 i hi]
      · rw [runLines, h4]
        simp [h6]
  | goto l =>
    rw [if_neg (by simp)] at hL
    obtain ⟨s', s'', t, h1, h2, h3, hs'', hr, hk⟩ := hL
    have h4 := hr []
    have h5 := hk []
    simp only [List.append_nil, skipMacro] at h4 h5
    have hf := findLabel_behind l (exec_goto W c w w' ev l hg he) prog hw
    simp only
    cases hb : prog.behind l with
    | none =>
      rw [hb] at hf
      refine ⟨s'', Same.trans hs hs'', fun n => ?_⟩
      rw [runLines, h4]
      simp only [hf, Option.map_none]
      simp [h5]
    | some c' =>
      rw [hb] at hf
      refine ⟨{ s' with lvl := s.lvl }, ⟨h1, rfl, h2, fun i hi => ?_⟩, fun n => ?_⟩
      · show s'.elseBits.getLsbD i = _
        rw [h3 i hi, hs.2.2.2 i hi]
      · rw [runLines, h4]
        simp only [hf, Option.map_some]

theorem runs_conv {σ : Type} (W : World σ) (prog : Code) (hw : prog.WF) (hg : prog.gotoNames) (s : State)
    (hd : s.lvl + prog.depth ≤ maxIfNesting) (w w' : σ) (c : Code) (ev : List Event) (x : Bool) (h : Runs W prog w c w' ev x)
    (hc : s.lvl + c.depth ≤ maxIfNesting) (hcg : c.gotoNames) :
    ∀ (s1 : State) (jumped : Bool), Same s.lvl s s1 →
    ∃ N, ∃ s', SameBlocks s s' ∧ ∀ n, N ≤ n → runLines W prog.flat s.lvl n jumped (s1, w) c.flat = some ((s', w'), ev, x) := by
  have step : ∀ (P : State → Prop) (f : Nat → Option ((State × σ) × List Event × Bool)) (r : State → (State × σ) × List Event × Bool),
      (∃ s', P s' ∧ ∀ n, f (n + 1) = some (r s')) → ∃ N, ∃ s', P s' ∧ ∀ n, N ≤ n → f n = some (r s') := by
    rintro P f r ⟨s', hp, hf⟩
    refine ⟨1, s', hp, fun n hn => ?_⟩
    obtain ⟨m, rfl⟩ : ∃ m, n = m + 1 := ⟨n - 1, by omega⟩
    exact hf m
  induction h with
  | @done w c w' ev he =>
    intro s1 jumped hs
    exact step _ (fun n => runLines W prog.flat s.lvl n jumped (s1, w) c.flat) (fun s' => ((s', w'), ev, false))
      (round W prog hw s hd jumped s1 hs _ hc hcg _ _ _ _ he)
  | @exitm w c w' ev he =>
    intro s1 jumped hs
    exact step _ (fun n => runLines W prog.flat s.lvl n jumped (s1, w) c.flat) (fun s' => ((s', w'), ev, true))
      (round W prog hw s hd jumped s1 hs _ hc hcg _ _ _ _ he)
  | @noLabel w c w' ev l he hb =>
    intro s1 jumped hs
    have h0 := round W prog hw s hd jumped s1 hs _ hc hcg _ _ _ _ he
    simp only [hb] at h0
    exact step _ (fun n => runLines W prog.flat s.lvl n jumped (s1, w) c.flat) (fun s' => ((s', w'), ev ++ [.noLabel l], false)) h0
  | @jump w c w' ev l c' w'' ev' x he hb _ ih =>
    intro s1 jumped hs
    have h0 := round W prog hw s hd jumped s1 hs _ hc hcg _ _ _ _ he
    simp only [hb] at h0
    obtain ⟨s2, hs2, h2⟩ := h0
    have hk := behind_keeps l prog c' hb hg
    obtain ⟨N, s', hs', hN⟩ := ih (by omega) hk.2 s2 true hs2
    refine ⟨N + 1, s', hs', fun n hn => ?_⟩
    obtain ⟨m, rfl⟩ : ∃ m, n = m + 1 := ⟨n - 1, by omega⟩
    rw [h2 m, hN m (by omega)]; rfl

theorem conv_runs {σ : Type} (W : World σ) (prog : Code) (hw : prog.WF) (hg : prog.gotoNames) (s : State)
    (hd : s.lvl + prog.depth ≤ maxIfNesting) (hok : ∀ l c, prog.behind l = some c → ∀ w, (c.exec W w).isSome = true) (n : Nat) :
    ∀ (c : Code) (w : σ), (c.exec W w).isSome = true → s.lvl + c.depth ≤ maxIfNesting → c.gotoNames →
    ∀ (s1 : State) (jumped : Bool), Same s.lvl s s1 → ∀ r ev x,
      runLines W prog.flat s.lvl n jumped (s1, w) c.flat = some (r, ev, x) → SameBlocks s r.1 ∧ Runs W prog w c r.2 ev x := by
  induction n with
  | zero => intro c w _ _ _ s1 j _ r ev x h; simp [runLines] at h
  | succ n ih =>
    intro c w he hc hcg s1 jumped hs r ev x h
    obtain ⟨⟨w1, ev1, k⟩, he⟩ := Option.isSome_iff_exists.mp he
    have h0 := round W prog hw s hd jumped s1 hs _ hc hcg _ _ _ _ he
    cases k with
    | done =>
      obtain ⟨s', hs', hr⟩ := h0
      rw [hr n] at h
      simp only [Option.some.injEq, Prod.mk.injEq] at h
      obtain ⟨rfl, rfl, rfl⟩ := h
      exact ⟨hs', .done he⟩
    | exitm =>
      obtain ⟨s', hs', hr⟩ := h0
      rw [hr n] at h
      simp only [Option.some.injEq, Prod.mk.injEq] at h
      obtain ⟨rfl, rfl, rfl⟩ := h
      exact ⟨hs', .exitm he⟩
    | goto l =>
      cases hb : prog.behind l with
      | none =>
        simp only [hb] at h0
        obtain ⟨s', hs', hr⟩ := h0
        rw [hr n] at h
        simp only [Option.some.injEq, Prod.mk.injEq] at h
        obtain ⟨rfl, rfl, rfl⟩ := h
        exact ⟨hs', .noLabel he hb⟩
      | some c' =>
        simp only [hb] at h0
        obtain ⟨s2, hs2, hr⟩ := h0
        rw [hr n] at h
        simp only [Option.map_eq_some_iff] at h
        obtain ⟨⟨y, ev', b⟩, h1, h2⟩ := h
        simp only [Prod.mk.injEq] at h2
        obtain ⟨rfl, rfl, rfl⟩ := h2
        have hk := behind_keeps l prog c' hb hg
        have := ih c' w1 (hok l c' hb w1) (by omega) hk.2 s2 true hs2 _ _ _ h1
        exact ⟨this.1, .jump he hb this.2⟩

/-- **C75.** A macro does what its lines say: lines one after the other, IF blocks by their conditions, GOTO goes on behind the
label, EXITM ends it; and after it the IF blocks that are open are those that were open before, wherever EXITM and GOTO stood.
`Runs` is the meaning; the macro ends after a finite number of jumps, `N` of them suffice. -/
theorem C75_run {σ : Type} (W : World σ) (prog : Code) (hw : prog.WF) (hg : prog.gotoNames) (s : State) (ha : s.curr = .active)
    (hf : s.falseLvl = 0) (hd : s.lvl + prog.depth ≤ 20) (w w' : σ) (ev : List Event) (x : Bool)
    (h : Runs W prog w prog w' ev x) :
    ∃ N s', SameBlocks s s' ∧ ∀ n, N ≤ n → runMacro W n prog.flat (s, w) = some ((s', w'), ev, x) :=
  runs_conv W prog hw hg s hd w w' prog ev x h hd hg s false ⟨ha, rfl, hf, fun _ _ => rfl⟩

/-- **C75**, the other direction: if the conditions can be evaluated, whatever the macro does is what its lines say. -/
theorem C75_converse {σ : Type} (W : World σ) (prog : Code) (hw : prog.WF) (hg : prog.gotoNames) (s : State)
    (ha : s.curr = .active) (hf : s.falseLvl = 0) (hd : s.lvl + prog.depth ≤ 20) (w w' : σ) (s' : State) (ev : List Event)
    (x : Bool) (n : Nat) (hp : (prog.exec W w).isSome = true)
    (hok : ∀ l c, prog.behind l = some c → ∀ w, (c.exec W w).isSome = true)
    (h : runMacro W n prog.flat (s, w) = some ((s', w'), ev, x)) : SameBlocks s s' ∧ Runs W prog w prog w' ev x :=
  conv_runs W prog hw hg s hd hok n prog w hp hd hg s false ⟨ha, rfl, hf, fun _ _ => rfl⟩ _ ev x h

/-- **C75**, labels: a GOTO finds a label of the same name in upper or lower case, with any blanks in front of the name. -/
theorem C75_label (bl name more target : Text) (hb : ∀ c ∈ bl, isSpace c = true) (hn : ∀ c ∈ name, isIdChar c = true)
    (hne : name ≠ []) (hm : ∀ c, more.head? = some c → isIdChar c = false) (ht : ∀ c ∈ target, isIdChar c = true) :
    isDest (bl ++ name ++ more) target = true ↔ name.map lower = target.map lower := by
  rw [isDest_iff bl name more target hb hn hne hm ht]; simp [sameName]

/-- **C75**, a defect: a GOTO to a label inside of an IF block. The ENDIF of that block closes the block of the caller, whatever
the caller's state: its own ENDIF is then an error, or its ELSE part is lost. -/
theorem C75_defect_into_block {σ : Type} (W : World σ) (s : State) (w : σ) (ha : s.curr = .active) (hf : s.falseLvl = 0) (m : Nat)
    (hl : s.lvl = m + 1) (c : CondAsm.Cond) (n : Nat) :
    runMacro W (n + 2) [.goto "x".toList, .cond (.dir (.ifx c)), .label "x".toList, .cond (.dir (.endif false))] (s, w) =
      some (({ s with lvl := m }, w), [], false) := by
  have hd : isDest "x".toList "x".toList = true := by decide
  have h1 : CondAsm.step W (s, w) (.dir (.endif false)) = (({ s with lvl := m }, w), []) := by
    simp [CondAsm.step, CondAsm.prepare, CondAsm.condAsmDirective, hf, hl, ha, CondAsm.finish]
  have h3 : lines W (s, w) [.cond (.dir (.endif false))] = (({ s with lvl := m }, w), [], .done, []) := by
    rw [lines_cond, h1]; rfl
  have h4 : ∀ t, lines W (s, w) (.goto "x".toList :: t) = ((s, w), [], .goto "x".toList, t) := by
    intro t; simp [lines, ha]
  rw [runMacro, runLines, h4]
  simp only [findLabel, hd, if_true]
  rw [show ({ s with lvl := s.lvl } : State) = s from rfl, runLines, h3]
  rfl

end Verif.MacroRun
