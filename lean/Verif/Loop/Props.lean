import Verif.Loop.Spec
/-! # C59-C61: loop directives and anonymous labels -/
namespace Verif.Loop

theorem low32_eq {v : Int} (h0 : -2 ^ 31 ≤ v) (h1 : v < 2 ^ 31) : low32 v = v := by
  unfold low32
  rw [BitVec.toInt_ofInt]
  exact Int.bmod_eq_of_le (by simpa using h0) (by simpa using h1)

theorem low32_zero {v : Int} (h0 : -2 ^ 32 < v) (h1 : v < 2 ^ 32) : low32 v = 0 ↔ v = 0 := by
  unfold low32
  rw [BitVec.toInt_ofInt]
  constructor
  · intro h
    have := (Int.dvd_of_bmod_eq_zero h)
    omega
  · rintro rfl; rfl

/-! ## REPEAT -/

theorem repeatLoop_eq {σ : Type} (body : σ → σ × Bool) (k : Nat) : ∀ (value n : Int) (s : σ), (n - value).toNat = k →
    repeatLoop body value n s = times body k s := by
  induction k with
  | zero =>
    intro value n s h
    rw [repeatLoop, if_neg (by omega)]; rfl
  | succ k ih =>
    intro value n s h
    rw [repeatLoop, if_pos (by omega), times]
    rcases hb : body s with ⟨s', _ | _⟩
    · simpa using ih (value + 1) n s' (by omega)
    · simp

/-- C59: `REPEAT n` assembles its body n times (no time for a negative n), if no EXITM ends it before. Proved for the 32-bit
values of n; see `repeat_high_bits_lost`. -/
theorem repeat_partial {σ : Type} (body : σ → σ × Bool) (n : Int) (h0 : -2 ^ 31 ≤ n) (h1 : n < 2 ^ 31) (s : σ) :
    repeatDir true body (.const n false) s = times body n.toNat s := by
  rw [repeatDir, if_pos rfl]
  apply repeatLoop_eq
  simp [firstValue, low32_eq h0 h1]

/-- Without EXITM the body is assembled exactly `n` times. -/
theorem repeat_count (n : Nat) (h1 : n < 2 ^ 31) (m : Nat) :
    repeatDir true (fun k : Nat => (k + 1, false)) (.const n false) m = m + n := by
  rw [repeat_partial _ _ (by omega) (by omega)]
  simp only [Int.toNat_natCast]
  clear h1
  induction n generalizing m with
  | zero => rfl
  | succ n ih => rw [times]; simp only [Bool.false_eq_true, if_false]; rw [ih]; omega

/-- EXITM ends it. -/
theorem repeat_exitm {σ : Type} (body : σ → σ × Bool) (n : Int) (h0 : 0 < n) (h1 : n < 2 ^ 31) (s : σ)
    (he : (body s).2 = true) : repeatDir true body (.const n false) s = (body s).1 := by
  rw [repeat_partial _ _ (by omega) h1]
  obtain ⟨k, hk⟩ : ∃ k, n.toNat = k + 1 := ⟨n.toNat - 1, by omega⟩
  rw [hk, times, if_pos he]

/-- An erroneous count is no count. -/
theorem repeat_error {σ : Type} (body : σ → σ × Bool) (e : Ev) (he : ∀ v, e ≠ .const v false) (s : σ) :
    repeatDir true body e s = s := by
  have : firstValue e = 0 := by
    match e with
    | .error => rfl
    | .other => rfl
    | .const v true => rfl
    | .const v false => exact absurd rfl (he v)
  rw [repeatDir, if_pos rfl, this, repeatLoop]; simp

/-- The claim is false for larger numbers: `REPEAT 100000000h` assembles nothing and `REPEAT 80000000h` neither, without an
error message. -/
theorem repeat_high_bits_lost {σ : Type} (body : σ → σ × Bool) (s : σ) :
    repeatDir true body (.const (2 ^ 32) false) s = s ∧ repeatDir true body (.const (2 ^ 31) false) s = s := by
  have h1 : low32 (2 ^ 32) = 0 := by decide +kernel
  have h2 : low32 (2 ^ 31) < 0 := by decide +kernel
  constructor
  · rw [repeatDir, if_pos rfl, repeatLoop, if_neg]; simp only [firstValue, Bool.false_eq_true, if_false]; omega
  · rw [repeatDir, if_pos rfl, repeatLoop, if_neg]
    simp only [firstValue, Bool.false_eq_true, if_false]; omega

example : repeatDir true (fun l : List Nat => (l.length :: l, l.length == 3)) (.const 10 false) [] = [3, 2, 1, 0] := by
  rw [repeat_partial _ _ (by decide) (by decide)]; decide +kernel

/-! ## WHILE -/

/-- The condition of a WHILE as the manual has it. -/
def Holds {σ : Type} (eval : σ → Ev) (s : σ) : Prop := ∃ v r, eval s = .const v r ∧ v ≠ 0

theorem nextValue_holds {σ : Type} (eval : σ → Ev) (hv : ∀ s v r, eval s = .const v r → -2 ^ 32 < v ∧ v < 2 ^ 32) (s : σ) :
    nextValue (eval s) ≠ 0 ↔ Holds eval s := by
  unfold Holds
  cases he : eval s with
  | error => simp [nextValue]
  | other => simp [nextValue]
  | const v r =>
    have := low32_zero (hv s v r he).1 (hv s v r he).2
    simp only [nextValue, ne_eq, this]
    constructor
    · intro h; exact ⟨v, r, rfl, h⟩
    · rintro ⟨v', r', h1, h2⟩; cases h1; exact h2

theorem whileLoop_rel {σ : Type} (body : σ → σ × Bool) (eval : σ → Ev)
    (hv : ∀ s v r, eval s = .const v r → -2 ^ 32 < v ∧ v < 2 ^ 32) (value : Int) (s t : σ)
    (h : whileLoop body eval value s = some t) : value = nextValue (eval s) → WhileRel (Holds eval) body s t := by
  refine whileLoop.partial_correctness body eval
    (fun value s t => value = nextValue (eval s) → WhileRel (Holds eval) body s t) ?_ value s t h
  intro f ih value s t hf hval
  split at hf
  case isTrue h0 =>
    cases hf
    exact .done fun hc => (nextValue_holds eval hv s).2 hc (hval ▸ h0)
  case isFalse h0 =>
    have hc : Holds eval s := (nextValue_holds eval hv s).1 (hval ▸ h0)
    split at hf
    case h_1 s' hb =>
      cases hf
      have : t = (body s).1 := by rw [hb]
      rw [this]
      exact .exit hc (by rw [hb])
    case h_2 s' hb =>
      have : s' = (body s).1 := by rw [hb]
      subst this
      exact .step hc (by rw [hb]) (ih _ _ _ hf rfl)

theorem rel_whileLoop {σ : Type} (body : σ → σ × Bool) (eval : σ → Ev)
    (hv : ∀ s v r, eval s = .const v r → -2 ^ 32 < v ∧ v < 2 ^ 32) {s t : σ}
    (h : WhileRel (Holds eval) body s t) : whileLoop body eval (nextValue (eval s)) s = some t := by
  induction h with
  | @done s hc =>
    rw [whileLoop, if_pos]
    exact Classical.byContradiction fun hn => hc ((nextValue_holds eval hv s).1 hn)
  | @exit s hc he =>
    rw [whileLoop, if_neg ((nextValue_holds eval hv s).2 hc)]
    rcases hb : body s with ⟨s', _ | _⟩
    · rw [hb] at he; cases he
    · rfl
  | @step s t hc he _ ih =>
    rw [whileLoop, if_neg ((nextValue_holds eval hv s).2 hc)]
    rcases hb : body s with ⟨s', _ | _⟩
    · rw [hb] at ih; exact ih
    · rw [hb] at he; cases he

theorem first_next (e : Ev) (h : ∀ v, e ≠ .const v true) : firstValue e = nextValue e := by
  match e with
  | .error => rfl
  | .other => rfl
  | .const v true => exact absurd rfl (h v)
  | .const v false => rfl

/-- C59: WHILE assembles its body as long as the condition, evaluated anew before each round, is a constant other than 0, and
no EXITM is met; it ends in the state in which that stops, and it does not end if it never stops. Proved for conditions with
values of at most 32 bits and a sign. -/
theorem while_partial {σ : Type} (body : σ → σ × Bool) (eval : σ → Ev)
    (hv : ∀ s v r, eval s = .const v r → -2 ^ 32 < v ∧ v < 2 ^ 32) (s t : σ) (hr : ∀ v, eval s ≠ .const v true) :
    whileDir true body eval s = some t ↔ WhileRel (Holds eval) body s t := by
  rw [whileDir, if_pos rfl, first_next _ hr]
  exact ⟨fun h => whileLoop_rel body eval hv _ s t h rfl, rel_whileLoop body eval hv⟩

/-- The claim is false for larger values: `WHILE 100000000h` assembles nothing. -/
theorem while_high_bits_lost {σ : Type} (body : σ → σ × Bool) (s : σ) :
    whileDir true body (fun _ => .const (2 ^ 32) false) s = some s ∧ Holds (fun _ : σ => .const (2 ^ 32) false) s := by
  constructor
  · rw [whileDir, if_pos rfl, whileLoop, if_pos]; decide +kernel
  · exact ⟨2 ^ 32, false, rfl, by decide⟩

/-- A loop without lines is never run: `WHILE 1` / `ENDM` ends. -/
theorem empty_body {σ : Type} (body : σ → σ × Bool) (b2 : Text → σ → σ × Bool) (eval : σ → Ev) (e : Ev) (t : Text) (s : σ) :
    whileDir false body eval s = some s ∧ repeatDir false body e s = s ∧ forcDir false b2 t s = s := ⟨rfl, rfl, rfl⟩

/-- Counting down. -/
example : whileDir true (fun l : Int × Nat => ((l.1 - 1, l.2 + 1), false)) (fun l => .const (if l.1 < 0 then 0 else min l.1 100) false)
    (3, 0) = some (0, 3) := by
  rw [while_partial]
  · refine .step ?_ rfl (.step ?_ rfl (.step ?_ rfl (.done ?_)))
    · exact ⟨3, false, rfl, by decide⟩
    · exact ⟨2, false, rfl, by decide⟩
    · exact ⟨1, false, rfl, by decide⟩
    · rintro ⟨v, r, h, h0⟩
      simp at h
      exact h0 h.1.symm
  · intro s v r h
    simp only [Ev.const.injEq] at h
    split at h <;> omega
  · intro v; simp

/-! ## FORC -/

theorem cut_literal (inner blanks : Text) (h : '>' ∉ blanks) : cutLit (inner ++ '>' :: blanks) = inner := by
  unfold cutLit
  have h1 : ∀ (l : Text), '>' ∉ l → ∀ r, (l ++ '>' :: r).dropWhile (· ≠ '>') = '>' :: r := by
    intro l
    induction l with
    | nil => intro _ r; simp
    | cons a l ih =>
      intro hl r
      have ha : a ≠ '>' := fun e => hl (e ▸ List.mem_cons_self)
      simp only [List.cons_append, List.dropWhile_cons, ne_eq, ha, not_false_eq_true, decide_true, if_true]
      exact ih (fun e => hl (List.mem_cons_of_mem _ e)) r
  have h2 := h1 blanks.reverse (by simpa using h) inner.reverse
  simp only [List.reverse_append, List.reverse_cons, List.append_assoc, List.singleton_append] at h2 ⊢
  rw [h2]; simp

theorem forcArg_esc (d : Char) (hd : d ≠ nul) : forcArg ['!', d, nul] 2 = [d] := by
  have hb : isSpace '!' = false := by decide
  have ht : copyStr ['!', d, nul] 0 1 = [d] := by
    rw [copyStr.eq_def]; simp only [List.getD, List.getElem?_cons_zero, Option.getD_some]
    rw [copyStr.eq_def]; simp
  have ht2 : copyStr ['!', d, nul] 0 2 = [d] := by
    rw [copyStr.eq_def]; simp only [List.getD, List.getElem?_cons_zero, Option.getD_some]
    rw [copyStr.eq_def]; simp
  have hw : [d].takeWhile (· ≠ nul) = [d] := by simp [hd]
  unfold forcArg
  by_cases h : isSpace d = true
  · have : trimLen ['!', d, nul] 2 = 1 := by simp [trimLen, h, hb]
    rw [this, ht, hw]
  · have : trimLen ['!', d, nul] 2 = 2 := by simp [trimLen, h]
    rw [this, ht2, hw]

theorem forcArg_end : forcArg ['!', nul, nul] 2 = [] := by decide +kernel

theorem forcArg_plain (c : Char) (hc : c ≠ nul) (h1 : c ≠ '!') (h2 : isSpace c = false) : forcArg [c, nul, nul] 1 = [c] := by
  have : trimLen [c, nul, nul] 1 = 1 := by simp [trimLen, h2]
  have ht : copyStr [c, nul, nul] 0 1 = [c] := by
    rw [copyStr.eq_def]; simp only [List.getD, List.getElem?_cons_zero, Option.getD_some, h1]
    rw [copyStr.eq_def]; simp
  unfold forcArg
  rw [this, ht]; simp [hc]

theorem forcLoop_none {σ : Type} (body : Text → σ → σ × Bool) (parm : Text) (s : σ) (h : forcTok parm = none) :
    forcLoop body parm s = s := by
  rw [forcLoop.eq_def]; split
  · rfl
  · rename_i hh; rw [h] at hh; cases hh

theorem forcLoop_some {σ : Type} (body : Text → σ → σ × Bool) (parm : Text) (s : σ) {b : Text} {n : Nat} {r : Text}
    (h : forcTok parm = some (b, n, r)) : forcLoop body parm s =
      if (body (forcArg b n) s).2 then (body (forcArg b n) s).1 else forcLoop body r (body (forcArg b n) s).1 := by
  rw [forcLoop.eq_def]; split
  · rename_i hh; rw [h] at hh; cases hh
  · rename_i hh; rw [h] at hh; cases hh
    rcases hb : body (forcArg b n) s with ⟨s', _ | _⟩ <;> simp [hb]

/-- C60: FORC assembles its body once for each character of the list, in order, with that character as argument; a character
with a `!` before it loses the `!` (and a `!` at the end gives an empty argument). -/
theorem forc_each {σ : Type} (body : Text → σ → σ × Bool) (parm : Text) (h : nul ∉ parm) (s : σ) :
    forcDir true body parm s = forEach body (chars parm) s := by
  rw [forcDir, if_pos rfl]
  fun_induction chars parm generalizing s with
  | case1 => rw [forcLoop_none _ _ _ rfl]; rfl
  | case2 => rw [forcLoop_some _ _ _ rfl, forcArg_end, forcLoop_none _ [] _ rfl]; rfl
  | case3 c t ih =>
    have hc : c ≠ nul := fun e => h (by simp [e])
    rw [forcLoop_some _ _ _ rfl, forcArg_esc c hc, forEach, ih (fun e => h (by simp [e]))]
  | case4 c t h1 h2 ih =>
    have hc : c ≠ nul := fun e => h (by simp [e])
    have hne : c ≠ '!' := by
      rintro rfl
      match t with
      | [] => exact h1 rfl rfl
      | d :: t' => exact h2 d t' rfl rfl
    have htl := ih (fun e => h (by simp [e]))
    by_cases hs : isSpace c = true
    · have : forcTok (c :: t) = some (['!', c, nul], 2, t) := by rw [forcTok.eq_def]; simp [hne, hs]
      rw [forcLoop_some _ _ _ this, forcArg_esc c hc, forEach, htl]
    · have hs : isSpace c = false := by simpa using hs
      have : forcTok (c :: t) = some ([c, nul, nul], 1, t) := by rw [forcTok.eq_def]; simp [hne, hs]
      rw [forcLoop_some _ _ _ this, forcArg_plain c hc hne hs, forEach, htl]

/-- C60 with the source: `FORC x, <...>`. -/
theorem forc_literal {σ : Type} (body : Text → σ → σ × Bool) (inner blanks : Text) (hb : '>' ∉ blanks) (h : nul ∉ inner) (s : σ) :
    forcDir true body (cutLit (inner ++ '>' :: blanks)) s = forEach body (chars inner) s := by
  rw [cut_literal _ _ hb, forc_each body inner h]

/-- A list without `!`: one round for each character. -/
theorem chars_plain (t : Text) (h : '!' ∉ t) : chars t = t.map ([·]) := by
  fun_induction chars t with
  | case1 => rfl
  | case2 => simp at h
  | case3 => simp at h
  | case4 c t _ _ ih => rw [ih (fun e => h (by simp [e]))]; rfl

example : forcDir true (fun a l => (l ++ [a], a == ['z'])) (cutLit "a !>!!<b z x>  ".toList) [] =
    ["a".toList, " ".toList, ">".toList, "!".toList, "<".toList, "b".toList, " ".toList, "z".toList] := by
  rw [show "a !>!!<b z x>  ".toList = "a !>!!<b z x".toList ++ '>' :: "  ".toList from rfl,
    forc_literal _ _ _ (by decide) (by decide)]
  decide +kernel

/-! ## FOR -/

theorem groups_split (toks : List Tok) (h : toks ≠ []) : ∃ g rest, toks = g ++ rest ∧ (∀ x ∈ g, x ≠ .comma) ∧
    isEnd rest = true ∧ groups toks = g :: groups rest.tail := by
  induction toks with
  | nil => exact absurd rfl h
  | cons x t ih =>
    by_cases hx : x = .comma
    · subst hx
      exact ⟨[], .comma :: t, rfl, by simp, rfl, rfl⟩
    · have hg : groups (x :: t) = match groups t with
          | [] => [[x]]
          | g :: gs => (x :: g) :: gs := by
        cases x with
        | comma => exact absurd rfl hx
        | item => rfl
        | lit => rfl
      by_cases ht : t = []
      · subst ht
        exact ⟨[x], [], rfl, by simp [hx], rfl, by rw [hg]; rfl⟩
      · obtain ⟨g, rest, h1, h2, h3, h4⟩ := ih ht
        refine ⟨x :: g, rest, by rw [h1]; rfl, ?_, h3, ?_⟩
        · intro y hy
          rcases List.mem_cons.1 hy with rfl | hy
          · exact hx
          · exact h2 y hy
        · rw [hg, h4]

theorem trimLen_rtrim (t u : Text) : (t ++ u).take (trimLen (t ++ u) t.length) = rtrim t := by
  generalize hn : t.length = n
  induction n generalizing t u with
  | zero => have : t = [] := List.length_eq_zero_iff.1 hn; subst this; simp [trimLen, rtrim]
  | succ n ih =>
    obtain ⟨t', c, rfl⟩ : ∃ t' c, t = t' ++ [c] := by
      have : t ≠ [] := by rintro rfl; cases hn
      exact ⟨t.dropLast, t.getLast this, (List.dropLast_concat_getLast this).symm⟩
    have hl : t'.length = n := by simpa using hn
    have hc : (t' ++ [c] ++ u).getD n nul = c := by
      simp [List.getD, List.getElem?_append, hl]
    rw [trimLen, hc]
    by_cases hs : isSpace c = true
    · rw [if_pos hs]
      have := ih t' ([c] ++ u) hl
      rw [← List.append_assoc] at this
      rw [this]
      simp [rtrim, hs]
    · rw [if_neg hs]
      simp only [rtrim, List.reverse_append, List.reverse_cons, List.reverse_nil, List.nil_append, List.singleton_append,
        List.dropWhile_cons, hs]
      have : n + 1 = (t' ++ [c]).length := by simp [hl]
      rw [this, List.take_left]
      simp

theorem rtrim_append (a b : Text) (c : Char) (h : c ∈ b) (hc : isSpace c = false) : rtrim (a ++ b) = a ++ rtrim b := by
  unfold rtrim
  rw [List.reverse_append, List.dropWhile_append]
  have : (b.reverse.dropWhile isSpace).isEmpty = false := by
    rw [List.isEmpty_eq_false_iff]
    intro h0
    have hall : ∀ l : Text, l.dropWhile isSpace = [] → ∀ x ∈ l, isSpace x = true := by
      intro l
      induction l with
      | nil => simp
      | cons a l ih =>
        intro h1
        by_cases ha : isSpace a = true
        · rw [List.dropWhile_cons, if_pos ha] at h1
          intro x hx
          rcases List.mem_cons.1 hx with rfl | hx
          · exact ha
          · exact ih h1 x hx
        · rw [List.dropWhile_cons, if_neg ha] at h1; cases h1
    have := hall _ h0 c (by simpa using h)
    rw [hc] at this; cases this
  rw [if_neg (by simp [this])]
  simp

theorem takeArg_items (g rest : List Tok) (hg : ∀ x ∈ g, ∃ t b, x = .item t b) (hw : ∀ x ∈ g, x.wf) (hr : isEnd rest = true) :
    takeArg (g ++ rest) = (rtrim (g.flatMap srcText), rest) := by
  have h0 : takeArg rest = ([], rest) := by
    match rest, hr with
    | [], _ => rfl
    | .comma :: t, _ => rfl
    | .item _ _ :: _, h => cases h
    | .lit _ _ :: _, h => cases h
  induction g with
  | nil => rw [List.nil_append, h0]; rfl
  | cons x g ih =>
    obtain ⟨t, b, rfl⟩ := hg x List.mem_cons_self
    have ih := ih (fun y hy => hg y (List.mem_cons_of_mem _ hy)) (fun y hy => hw y (List.mem_cons_of_mem _ hy))
    rw [List.cons_append, takeArg, ih]
    simp only [List.flatMap_cons, srcText]
    match g, hg, hw with
    | [], _, _ =>
      have := trimLen_rtrim (t ++ b) []
      simp only [List.append_nil] at this
      simp only [List.nil_append, hr, if_true, List.flatMap_nil, List.append_nil, this]
      simp [rtrim]
    | y :: g', hg, hw =>
      obtain ⟨t2, b2, rfl⟩ := hg y (by simp)
      obtain ⟨⟨c, hc1, hc2⟩, _⟩ := hw (.item t2 b2) (by simp)
      have : c ∈ ((Tok.item t2 b2 :: g').flatMap srcText) := by
        simp only [List.flatMap_cons, srcText, List.mem_append]
        exact .inl (.inl (List.mem_of_getLast? hc1))
      rw [rtrim_append _ _ c this hc2]
      have he : isEnd (Tok.item t2 b2 :: g' ++ rest) = false := rfl
      rw [he]
      simp only [Bool.false_eq_true, if_false, List.take_length]

theorem forLoop_nil {σ : Type} (body : Text → σ → σ × Bool) (pm : Parm) (s : σ) : forLoop body pm [] s = (s, false) := by
  rw [forLoop.eq_def]

theorem forLoop_cons {σ : Type} (body : Text → σ → σ × Bool) (pm : Parm) (toks : List Tok) (h : toks ≠ []) (s : σ) :
    forLoop body pm toks s = match forArg pm toks with
      | none => (s, true)
      | some (a, rest) => if (body a s).2 then ((body a s).1, false) else forLoop body pm rest.tail (body a s).1 := by
  match toks, h with
  | t :: ts, _ =>
    rw [forLoop.eq_def]
    simp only
    split
    · rename_i hh; rw [hh]
    · rename_i a rest hh
      rw [hh]
      simp only
      rcases hb : body a s with ⟨s', _ | _⟩ <;> simp

theorem forLoop_groups {σ : Type} (body : Text → σ → σ × Bool) (pm : Parm) (n : Nat) : ∀ (toks : List Tok), toks.length = n →
    (∀ x ∈ toks, x.wf) → (∀ g ∈ groups toks, Plain g) → ∀ s,
    forLoop body pm toks s = forEachArg body ((groups toks).map (groupArg pm)) s := by
  induction n using Nat.strongRecOn with
  | ind n ih =>
    intro toks hn hw hp s
    by_cases h0 : toks = []
    · subst h0; rw [forLoop_nil]; rfl
    obtain ⟨g, rest, h1, h2, h3, h4⟩ := groups_split toks h0
    rw [forLoop_cons _ _ _ h0, h4, List.map_cons]
    have hrec : ∀ s, rest ≠ [] ∨ g ≠ [] → forLoop body pm rest.tail s = forEachArg body ((groups rest.tail).map (groupArg pm)) s := by
      intro s hne
      have hlen : rest.tail.length < n := by
        rw [← hn, h1, List.length_append, List.length_tail]
        rcases hne with h | h
        · have := List.length_pos_iff.2 h; omega
        · have := List.length_pos_iff.2 h; omega
      refine ih _ hlen rest.tail rfl (fun x hx => hw x ?_) (fun y hy => hp y ?_) s
      · rw [h1]; exact List.mem_append_right _ (List.mem_of_mem_tail hx)
      · rw [h4]; exact List.mem_cons_of_mem _ hy
    by_cases hg : g = []
    · subst hg
      simp only [List.nil_append] at h1
      have hrest : rest ≠ [] := h1 ▸ h0
      rw [h1, forArg, if_pos h3, groupArg, if_pos rfl]
      cases pm.required
      · simp only [Bool.false_eq_true, if_false, forEachArg]
        rw [hrec _ (.inl hrest)]
      · rfl
    · have hend : isEnd toks = false := by
        rw [h1]
        match g, hg, h2 with
        | .comma :: _, _, h2 => exact absurd rfl (h2 .comma (by simp))
        | .item _ _ :: _, _, _ => rfl
        | .lit _ _ :: _, _, _ => rfl
      have harg : takeArg toks = (groupText g, rest) := by
        rw [h1]
        rcases hp g (by rw [h4]; simp) with hit | ⟨inner, b, rfl⟩
        · rw [takeArg_items g rest hit (fun x hx => hw x (by rw [h1]; exact List.mem_append_left _ hx)) h3]
          congr 1
          unfold groupText
          split
          · obtain ⟨t, b, h⟩ := hit _ List.mem_cons_self; cases h
          · rfl
        · rw [List.singleton_append, takeArg]
          have : takeArg rest = ([], rest) := by
            match rest, h3 with
            | [], _ => rfl
            | .comma :: t, _ => rfl
            | .item _ _ :: _, h => cases h
            | .lit _ _ :: _, h => cases h
          rw [this]; simp [groupText]
      rw [forArg, if_neg (by simp [hend]), harg, groupArg, if_neg hg]
      simp only [forEachArg]
      rw [hrec _ (.inr hg)]

/-- C60: FOR assembles its body once for each item of the list, in order; an item is the source text between two commas without
blanks around it, an item in `<>` loses the brackets, and an empty item stands for the default value or, if the argument is
required, ends the loop with an error. Nothing is done for a comma at the very end. Partial: for items that are not a literal
joined with something else (`for_blank_lost`), and for items without `%`, `{}` and macro functions. -/
theorem for_each_partial {σ : Type} (body : Text → σ → σ × Bool) (pm : Parm) (toks : List Tok) (hw : ∀ x ∈ toks, x.wf)
    (hp : ∀ g ∈ groups toks, Plain g) (s : σ) :
    forDir true body pm toks [] s = forEachArg body ((groups toks).map (groupArg pm)) s := by
  rw [forDir, if_pos rfl, addBlank, if_neg (by simp)]
  exact forLoop_groups body pm _ toks rfl hw hp s

/-- A blank behind a literal is lost: `FOR x, <<a> b>` has the argument `ab`, not `a b`. -/
theorem for_blank_lost : forDir true (fun a l => (l ++ [a], false)) ⟨false, none⟩
    [.lit ['a'] [' '], .item ['b'] []] [] [] = ([['a', 'b']], false) := by
  rw [forDir, if_pos rfl, addBlank, if_neg (by simp), forLoop_cons _ _ _ (by simp)]
  rw [show forArg ⟨false, none⟩ [.lit ['a'] [' '], .item ['b'] []] = some (['a', 'b'], []) by decide +kernel]
  simp [forLoop_nil]

/-- A blank behind the last comma makes an empty argument even if arguments are required or have a default value:
`FOR x:REQ, <a, >` is accepted, `FOR x:REQ, <a,,b>` is not. -/
theorem for_required_blank :
    forDir true (fun a l => (l ++ [a], false)) ⟨true, none⟩ [.item ['a'] [], .comma] [' '] [] = ([['a'], []], false) ∧
    forDir true (fun a l => (l ++ [a], false)) ⟨true, none⟩ [.item ['a'] [], .comma, .comma, .item ['b'] []] [] [] = ([['a']], true) := by
  constructor
  · rw [forDir, if_pos rfl, addBlank, if_pos (by simp)]
    rw [forLoop_groups _ _ _ _ rfl]
    · decide +kernel
    · intro x hx
      simp only [List.cons_append, List.nil_append, List.mem_cons, List.not_mem_nil, or_false] at hx
      rcases hx with rfl | rfl | rfl
      · exact ⟨⟨'a', rfl, by decide⟩, by simp⟩
      · trivial
      · simp [Tok.wf]
    · intro g hg
      simp only [groups, List.cons_append, List.nil_append, List.mem_cons, List.not_mem_nil, or_false] at hg
      rcases hg with rfl | rfl
      · exact .inl (by simp)
      · exact .inr ⟨_, _, rfl⟩
  · rw [for_each_partial]
    · decide +kernel
    · intro x hx
      simp only [List.mem_cons, List.not_mem_nil, or_false] at hx
      rcases hx with rfl | rfl | rfl | rfl
      · exact ⟨⟨'a', rfl, by decide⟩, by simp⟩
      · trivial
      · trivial
      · exact ⟨⟨'b', rfl, by decide⟩, by simp⟩
    · intro g hg
      simp only [groups, List.mem_cons, List.not_mem_nil, or_false] at hg
      rcases hg with rfl | rfl | rfl <;> exact .inl (by simp)

/-- `FOR x:=<d>, <a b ,<1,2>,,>` -/
example : forDir true (fun a l => (l ++ [a], false)) ⟨false, some ['d']⟩
    [.item ['a'] [' '], .item ['b'] [' '], .comma, .lit ['1', ',', '2'] [], .comma, .comma] [] [] =
    ([['a', ' ', 'b'], ['1', ',', '2'], ['d']], false) := by
  rw [for_each_partial]
  · decide +kernel
  · intro x hx
    simp only [List.mem_cons, List.not_mem_nil, or_false] at hx
    rcases hx with rfl | rfl | rfl | rfl | rfl | rfl
    · exact ⟨⟨'a', rfl, by decide⟩, by decide⟩
    · exact ⟨⟨'b', rfl, by decide⟩, by decide⟩
    · trivial
    · simp [Tok.wf]
    · trivial
    · trivial
  · intro g hg
    simp only [groups, List.mem_cons, List.not_mem_nil, or_false] at hg
    rcases hg with rfl | rfl | rfl
    · exact .inl (by simp)
    · exact .inr ⟨_, _, rfl⟩
    · exact .inl (by simp)

end Verif.Loop
