import Verif.Lex.Model
/-! The loop of the tokenizer never runs out of rounds: every round consumes a character or a line. -/
namespace Verif.Lex
open Verif.Num (hd toLower isIdChar getNumber)

/-- What is left to read. -/
def mu (s : Str) (more : List Str) : Nat := s.length + (more.map fun l => l.length + 2).sum

theorem skipSp_le (s : Str) : (skipSp s).length ≤ s.length := by
  unfold skipSp; exact (List.dropWhile_sublist _).length_le

theorem concatLine_mu {src : Str} {n : Nat} {more : List Str} {s' : Str} {ms : List Str} (h : concatLine src n more = some (s', ms)) :
    s'.length + (ms.map fun l => l.length + 2).sum + 1 ≤ (more.map fun l => l.length + 2).sum := by
  unfold concatLine at h
  split at h
  · split at h
    · cases h
    · rename_i l ms'
      simp only [Option.some.injEq, Prod.mk.injEq] at h
      obtain ⟨h1, h2⟩ := h
      subst h2
      have := skipSp_le l
      rw [← h1]
      simp only [List.length_append, List.map_cons, List.sum_cons]
      split <;> simp <;> omega
  · cases h

theorem quoted_le {q : Nat} : ∀ {s : Str} {n : Nat} {t : Str} {m : Nat} {b : Bool} {r : Str}, quoted q s n = some (t, m, b, r) → r.length ≤ s.length
  | [], n, t, m, b, r, h => by
    simp only [quoted] at h
    split at h
    · cases h
    · split at h
      · cases h
      · simp only [Option.some.injEq, Prod.mk.injEq] at h; simp [← h.2.2.2]
  | [c], n, t, m, b, r, h => by
    unfold quoted at h
    split at h
    · cases h
    · split at h
      · simp only [Option.some.injEq, Prod.mk.injEq] at h; simp [← h.2.2.2]
      · simp only [Option.map_eq_some_iff] at h
        obtain ⟨⟨t', m', b', r'⟩, h1, h2⟩ := h
        have := quoted_le h1
        simp only [Prod.mk.injEq] at h2
        simp only [← h2.2.2.2, List.length_cons]; omega
  | c :: d :: s, n, t, m, b, r, h => by
    unfold quoted at h
    split at h
    · cases h
    · split at h
      · split at h
        · simp only [Option.map_eq_some_iff] at h
          obtain ⟨⟨t', m', b', r'⟩, h1, h2⟩ := h
          have := quoted_le h1
          simp only [Prod.mk.injEq] at h2
          simp only [← h2.2.2.2, List.length_cons]; omega
        · simp only [Option.some.injEq, Prod.mk.injEq] at h; simp [← h.2.2.2]
      · simp only [Option.map_eq_some_iff] at h
        obtain ⟨⟨t', m', b', r'⟩, h1, h2⟩ := h
        have := quoted_le h1
        simp only [Prod.mk.injEq] at h2
        simp only [← h2.2.2.2, List.length_cons] at this ⊢; omega

theorem lit_mu {dflt : Bool} {f2 level n : Nat} {src dst : Str} {more : List Str} :
    ∀ {t m r ms}, lit dflt f2 level n src dst more = .closed t m r ms → mu r ms < mu src more := by
  fun_induction lit dflt f2 level n src dst more <;> intro t m r ms hh
  all_goals try (cases hh; done)
  case case3 l ms' ih =>
    have := ih hh
    have := skipSp_le l
    simp only [mu, List.map_cons, List.sum_cons, List.length_nil] at *; omega
  case case6 => cases hh; simp [mu]
  case case8 h ih =>
    have := ih hh
    have := inQuote_lt h
    simp only [mu, List.length_cons] at *; omega
  case case12 h ih =>
    have := ih hh
    have := concatLine_mu h
    simp only [mu, List.length_cons] at *; omega
  case case5 ih => have := ih hh; simp only [mu, List.length_cons] at *; omega
  case case7 ih => have := ih hh; simp only [mu, List.length_cons] at *; omega
  case case9 ih => have := ih hh; simp only [mu, List.length_cons] at *; omega
  case case10 ih => have := ih hh; simp only [mu, List.length_cons] at *; omega
  case case13 ih => have := ih hh; simp only [mu, List.length_cons] at *; omega
  case case14 ih => have := ih hh; simp only [mu, List.length_cons] at *; omega

theorem RawRes.push_done {c : Str} {x : RawRes} {t n r m} (h : x.push c = .done t n r m) : ∃ t', x = .done t' n r m ∧ t = c ++ t' := by
  cases x <;> simp [RawRes.push] at h
  simp [h]

theorem RawRes.push_empty {c : Str} {x : RawRes} {r m} (h : x.push c = .empty r m) : x = .empty r m := by
  cases x <;> simp [RawRes.push] at h
  simp [h]

theorem raw_mu {dflt tl : Bool} {n : Nat} {src : Str} {more : List Str} :
    (∀ {t m r ms}, raw dflt tl n src more = .done t m r ms → mu r ms ≤ mu src more) ∧
    (∀ {r ms}, raw dflt tl n src more = .empty r ms → mu r ms < mu src more) := by
  fun_induction raw dflt tl n src more
  case case4 h _ ih =>
    have := concatLine_mu h
    simp only [mu, List.length_cons] at *
    exact ⟨fun hh => by have := ih.1 hh; omega, fun hh => by have := ih.2 hh; omega⟩
  case case5 h _ =>
    have := concatLine_mu h
    refine ⟨fun hh => by (cases hh), fun hh => ?_⟩
    cases hh
    simp only [mu, List.length_cons] at *; omega
  case case1 => exact ⟨fun hh => by (cases hh), fun hh => by (cases hh)⟩
  case case2 => exact ⟨fun hh => by cases hh; exact Nat.le_refl _, fun hh => by (cases hh)⟩
  case case3 => exact ⟨fun hh => by cases hh; exact Nat.le_refl _, fun hh => by (cases hh)⟩
  case case8 => exact ⟨fun hh => by (cases hh), fun hh => by (cases hh)⟩
  all_goals
    rename_i ih
    refine ⟨fun hh => ?_, fun hh => ?_⟩
    · obtain ⟨t', h1, -⟩ := RawRes.push_done hh
      have := ih.1 h1; simp only [mu, List.length_cons] at *; omega
    · have h1 := RawRes.push_empty hh
      have := ih.2 h1; simp only [mu, List.length_cons] at *; omega

theorem raw_mu_lt {dflt tl : Bool} {c : Nat} {s : Str} {more : List Str}
    (hc : ¬ (isSpace c = true ∨ c = 44 ∨ c = 41 ∨ c = 37 ∨ c = 59 ∧ dflt = true))
    {t m r ms} (h : raw dflt tl 0 (c :: s) more = .done t m r ms) : mu r ms < mu (c :: s) more := by
  rw [raw.eq_def] at h
  simp only [hc, if_false] at h
  split at h
  · simp [maxString] at *
  · split at h
    · split at h
      · split at h
        · rename_i h0; exact absurd rfl h0
        · cases h
      · obtain ⟨t', h1, -⟩ := RawRes.push_done h
        have := raw_mu.1 h1; simp only [mu, List.length_cons] at *; omega
    · split at h
      · split at h
        · obtain ⟨t', h1, -⟩ := RawRes.push_done h
          have := raw_mu.1 h1; simp only [mu, List.length_cons] at *; omega
        · cases h
      · obtain ⟨t', h1, -⟩ := RawRes.push_done h
        have := raw_mu.1 h1; simp only [mu, List.length_cons] at *; omega

/-- the input after one token is shorter -/
def Out.Short (o : Out) (input : Str) (more : List Str) : Prop :=
  (∀ t r f ms, o = .tok t r f ms → mu r ms < mu input more) ∧ (∀ r e ms, o = .empty r e ms → mu r ms < mu input more)

theorem Out.Short.mk_tok {t r f ms input more} (h : mu r ms < mu input more) : (Out.tok t r f ms).Short input more :=
  ⟨fun _ _ _ _ e => by cases e; exact h, fun _ _ _ e => by (cases e)⟩
theorem Out.Short.mk_empty {r e ms input more} (h : mu r ms < mu input more) : (Out.empty r e ms).Short input more :=
  ⟨fun _ _ _ _ e => by (cases e), fun _ _ _ e => by cases e; exact h⟩
theorem Out.Short.mk_error {input more} : Out.error.Short input more := ⟨fun _ _ _ _ e => by (cases e), fun _ _ _ e => by (cases e)⟩
theorem Out.Short.mk_outside {input more} : Out.outside.Short input more := ⟨fun _ _ _ _ e => by (cases e), fun _ _ _ e => by (cases e)⟩

theorem ite_short {p : Prop} [Decidable p] {a b : Out} {i m} (h1 : p → a.Short i m) (h2 : ¬ p → b.Short i m) : (if p then a else b).Short i m := by
  split
  · exact h1 ‹_›
  · exact h2 ‹_›

theorem getString_short {cfg f2 c s more} (hc : ¬ (isSpace c = true ∨ c = 44 ∨ c = 41 ∨ c = 37 ∨ c = 59 ∧ cfg.dflt = true)) :
    (getString cfg f2 (c :: s) more).Short (c :: s) more := by
  unfold getString
  split
  · exact .mk_error
  rename_i c' s' heq
  cases heq
  split
  · split
    · exact .mk_error
    · rename_i h
      have := quoted_le h
      apply Out.Short.mk_tok
      simp only [mu, List.length_cons]; omega
  · split
    · exact .mk_outside
    · split
      · split
        · rename_i h
          have := lit_mu h
          apply Out.Short.mk_tok
          simp only [mu, List.length_cons] at *; omega
        · exact .mk_error
        · split
          · split
            · rename_i h
              have := raw_mu.1 h
              apply Out.Short.mk_tok
              simp only [mu, List.length_cons] at *; omega
            · exact .mk_outside
            · exact .mk_error
          · exact .mk_outside
      · split
        · rename_i h
          exact .mk_tok (raw_mu_lt hc h)
        · rename_i h
          exact .mk_empty (raw_mu.2 h)
        · exact .mk_error

theorem scanFloat_split : ∀ (dec e : Bool) (s : Str), (scanFloat dec e s).1 ++ (scanFloat dec e s).2 = s
  | _, _, [] => rfl
  | dec, e, [c] => by unfold scanFloat; split <;> rfl
  | dec, e, c :: d :: s => by
    unfold scanFloat
    split
    · simp only [List.cons_append, scanFloat_split dec e (d :: s)]
    · split
      · simp only [List.cons_append, scanFloat_split true e (d :: s)]
      · split
        · split
          · simp only [List.cons_append, scanFloat_split dec true s]
          · simp only [List.cons_append, scanFloat_split dec true (d :: s)]
        · rfl

theorem scanFloat_digit (c : Nat) (s : Str) (h : isDigit c = true) : (scanFloat false false (c :: s)).1 ≠ [] := by
  cases s with
  | nil => simp [scanFloat, h]
  | cons d s => simp [scanFloat, h]

theorem hd_cons (c : Nat) (s : Str) : hd (c :: s) = c := rfl
theorem hd_nil : hd [] = 0 := rfl

/-- the number is a prefix of the input -/
def NumShape (input : Str) (t : Verif.Num.NumTok) : Prop :=
  ∃ n, t.text = input.take n ∧ t.rest = input.drop n ∧ (0 < n ∨ t.kind = .float ∧ n = 0)

theorem ite_shape {input : Str} {p : Prop} [Decidable p] {a b : Verif.Num.NumTok} (h1 : NumShape input a) (h2 : NumShape input b) :
    NumShape input (if p then a else b) := by split <;> assumption

theorem getNumber_shape (radix : Nat) (input : Str) (hi : isDigit (hd input) = true) : NumShape input (getNumber radix input) := by
  have hpos : 0 < (if hd input = 48 ∧ toLower (hd (input.drop 1)) = 120 then 2 else 0) +
      ((if hd input = 48 ∧ toLower (hd (input.drop 1)) = 120 then input.drop 2 else input).takeWhile Verif.Num.isHexChar).length := by
    split
    · omega
    · cases input with
      | nil => simp [hd, isDigit] at hi
      | cons c s =>
        have hx : Verif.Num.isHexChar c = true := by
          rw [hd_cons] at hi
          simp only [isDigit, decide_eq_true_eq] at hi
          simp only [Verif.Num.isHexChar, decide_eq_true_eq]
          exact .inl hi
        simp [hx]
  have hmk : ∀ base dlen extra k, 0 < k → NumShape input
      (let n := k + extra
       if base ≠ 0 then ⟨.num, base, dlen, input.take n, input.drop n⟩
       else
         let n' := n + ((input.drop n).takeWhile isIdChar).length
         ⟨.badNum, 0, 0, input.take n', input.drop n'⟩) := by
    intro base dlen extra k hk
    exact ite_shape ⟨_, rfl, rfl, .inl (by omega)⟩ ⟨_, rfl, rfl, .inl (by omega)⟩
  have hfl : ∀ k, 0 < k → NumShape input ⟨.float, 0, 0, input.take k, input.drop k⟩ := fun k hk => ⟨k, rfl, rfl, .inl hk⟩
  unfold getNumber
  refine ite_shape ⟨0, rfl, rfl, .inr ⟨rfl, rfl⟩⟩ (ite_shape (hmk _ _ _ _ hpos) (ite_shape (hfl _ (by omega)) (ite_shape (hmk _ _ _ _ hpos)
    (ite_shape (ite_shape (hmk _ _ _ _ hpos) (hmk _ _ _ _ hpos)) (ite_shape (ite_shape (hmk _ _ _ _ hpos) (hmk _ _ _ _ hpos))
    (ite_shape (ite_shape (hmk _ _ _ _ hpos) (hmk _ _ _ _ hpos)) (ite_shape (hmk _ _ _ _ hpos) (hmk _ _ _ _ hpos))))))))

theorem getNum_short {cfg f2 c s more} (h : isDigit c = true) : (getNum cfg f2 (c :: s) more).Short (c :: s) more := by
  unfold getNum
  obtain ⟨n, ht, hr, hn⟩ := getNumber_shape cfg.radix (c :: s) (by simpa [hd_cons] using h)
  have hlt : 0 < n → mu (getNumber cfg.radix (c :: s)).rest more < mu (c :: s) more := by
    intro hn
    rw [hr]
    simp only [mu, List.length_drop, List.length_cons]; omega
  dsimp only
  cases k : (getNumber cfg.radix (c :: s)).kind with
  | num => exact .mk_tok (hlt (by simpa [k] using hn))
  | badNum => exact .mk_tok (hlt (by simpa [k] using hn))
  | float =>
    simp only
    split
    · apply Out.Short.mk_tok
      have h1 := scanFloat_split false false (c :: s)
      have h2 := scanFloat_digit c s h
      have h3 := congrArg List.length h1
      rw [List.length_append] at h3
      have : (scanFloat false false (c :: s)).1.length ≠ 0 := by simpa using h2
      simp only [mu]; omega
    · rename_i ht'
      apply Out.Short.mk_tok
      apply hlt
      rcases hn with hn | ⟨-, rfl⟩
      · exact hn
      · simp [ht] at ht'

theorem dropWhile_le (p : Nat → Bool) (s : Str) : (s.dropWhile p).length ≤ s.length := (List.dropWhile_sublist _).length_le

theorem getId_short {cfg f2 c s more} : (getId cfg f2 (c :: s) more).Short (c :: s) more := by
  unfold getId
  split
  · exact .mk_error
  rename_i c' s' heq
  cases heq
  have h1 := dropWhile_le isIdChar s
  have h2 := skipSp_le (s.dropWhile isIdChar)
  dsimp only
  repeat' split
  all_goals first
    | exact .mk_error
    | exact .mk_outside
    | (apply Out.Short.mk_tok; simp only [mu, List.length_cons]; omega)

theorem getBack_short {f2 c s more} : (getBack f2 s more).Short (c :: s) more := by
  unfold getBack
  have h1 := dropWhile_le (fun c => c ≠ 96 && c ≠ 59) s
  simp only
  split
  · apply Out.Short.mk_tok
    simp only [mu, List.length_cons, List.length_drop] at *
    omega
  · exact .mk_error

theorem getSpecial_short {cfg idx prev f2 c s more} (hs : isSpace c = false) (hc : ¬ (c = 59 ∧ cfg.dflt = true)) :
    (getSpecial cfg idx prev f2 (c :: s) more).Short (c :: s) more := by
  unfold getSpecial
  split
  · exact .mk_error
  rename_i c' s' heq
  cases heq
  have h2 := skipSp_le s
  have ht : ∀ t r f, r.length ≤ s.length → (Out.tok t r f more).Short (c :: s) more := fun t r f h =>
    .mk_tok (by simp only [mu, List.length_cons]; omega)
  have hd1 : (s.drop 1).length ≤ s.length := by simp
  refine ite_short (fun h1 => ite_short (fun h2 => ht _ _ _ hd1) fun _ => ht _ _ _ (Nat.le_refl _)) fun n1 => ?_
  refine ite_short (fun h1 => ite_short (fun h2 => ht _ _ _ hd1) fun _ => ht _ _ _ (Nat.le_refl _)) fun n2 => ?_
  refine ite_short (fun h1 => ite_short (fun h2 => ht _ _ _ (by simp)) fun _ => ite_short (fun h2 => .mk_empty (by simp [mu])) fun _ => ht _ _ _ (Nat.le_refl _)) fun n3 => ?_
  refine ite_short (fun h1 => ht _ _ _ (Nat.le_refl _)) fun n4 => ?_
  refine ite_short (fun h1 => ht _ _ _ (Nat.le_refl _)) fun n5 => ?_
  refine ite_short (fun h1 => ite_short (fun h2 => .mk_outside) fun _ => ht _ _ _ ?_) fun n6 => ?_
  · split
    · simp only [List.length_drop]; omega
    · exact h2
  refine ite_short (fun h1 => ite_short (fun h2 => .mk_outside) fun _ => ht _ _ _ h2) fun n7 => ?_
  refine ite_short (fun h1 => ht _ _ _ (Nat.le_refl _)) fun n8 => ?_
  refine ite_short (fun h1 => ite_short (fun _ => ite_short (fun _ => ht _ _ _ hd1) fun _ => ht _ _ _ (Nat.le_refl _))
    fun _ => ite_short (fun _ => ht _ _ _ hd1) fun _ => ht _ _ _ (Nat.le_refl _)) fun n9 => ?_
  refine ite_short (fun h1 => ht _ _ _ (Nat.le_refl _)) fun n10 => ?_
  apply getString_short
  rintro (h | h | h | h | h)
  · rw [hs] at h; cases h
  · exact n5 (by simp [h])
  · exact n5 (by simp [h])
  · exact n3 h
  · exact hc h

theorem getToken_short {cfg idx prev f2 c s more} (hs : isSpace c = false) (hc : ¬ (c = 59 ∧ cfg.dflt = true)) :
    (getToken cfg idx prev f2 (c :: s) more).Short (c :: s) more := by
  unfold getToken
  dsimp only
  repeat' split
  · exact getNum_short ‹_›
  · exact getId_short
  · exact getId_short
  · exact getBack_short
  · exact getSpecial_short hs hc

theorem skipSp_hd (s : Str) : skipSp s = [] ∨ ∃ c t, skipSp s = c :: t ∧ isSpace c = false := by
  unfold skipSp
  cases h : s.dropWhile isSpace with
  | nil => exact .inl rfl
  | cons c t =>
    refine .inr ⟨c, t, rfl, ?_⟩
    have := List.head?_dropWhile_not isSpace s
    rw [h] at this
    simpa using this

theorem loop_step {cfg : Cfg} {n : Nat} {toks : List Token} {exp : Bool} {f2 : Nat} {input : Str} {more : List Str} {c : Nat} {t : Str}
    (h : skipSp input = c :: t) (hc : ¬ (c = 59 ∧ cfg.dflt = true)) :
    loop cfg (n + 1) toks exp f2 input more =
      match getToken cfg toks.length toks.getLast? f2 (c :: t) more with
      | .error => .error
      | .outside => .outside
      | .empty rest e more' => loop cfg n toks (exp || e) f2 rest more'
      | .tok t rest f2' more' =>
        if isComment toks t then startComment toks exp rest more'
        else if toks.length + 1 ≥ maxToken then .error
        else loop cfg n (toks ++ [t]) exp f2' rest more' := by
  have h1 : (if hd (skipSp input) = 59 ∧ cfg.dflt = true then [] else skipSp input) = c :: t := by
    rw [h, if_neg (by simpa [hd_cons] using hc)]
  rw [loop.eq_def]
  dsimp only
  rw [h1, if_neg (by simp)]
  rfl

theorem loop_end {cfg : Cfg} {n : Nat} {toks : List Token} {exp : Bool} {f2 : Nat} {input : Str} {more : List Str}
    (h : skipSp input = [] ∨ (hd (skipSp input) = 59 ∧ cfg.dflt = true)) :
    loop cfg (n + 1) toks exp f2 input more =
      if toks.length > 1 ∧ toks.getLast? = some ⟨.sym, [44]⟩ ∧ cfg.source = true ∧ isMultiLine cfg toks = true then
        match more with
        | [] => .done toks exp none []
        | l :: ms => if skipSp l = [] then .done toks exp none ms else loop cfg n toks exp f2 (skipSp l) ms
      else .done toks exp none more := by
  have h1 : (if hd (skipSp input) = 59 ∧ cfg.dflt = true then [] else skipSp input) = [] := by
    rcases h with h | h
    · rw [h]; simp
    · rw [if_pos h]
  rw [loop.eq_def]
  dsimp only
  rw [h1, if_pos rfl]
  rfl

theorem loop_cases (cfg : Cfg) (input : Str) :
    (skipSp input = [] ∨ (hd (skipSp input) = 59 ∧ cfg.dflt = true)) ∨
    ∃ c t, skipSp input = c :: t ∧ isSpace c = false ∧ ¬ (c = 59 ∧ cfg.dflt = true) := by
  rcases skipSp_hd input with h0 | ⟨c, t, h0, hsp⟩
  · exact .inl (.inl h0)
  · by_cases hc : c = 59 ∧ cfg.dflt = true
    · exact .inl (.inr (by rw [h0]; exact hc))
    · exact .inr ⟨c, t, h0, hsp, hc⟩

theorem loop_fuel (cfg : Cfg) : ∀ (n : Nat) (toks : List Token) (exp : Bool) (f2 : Nat) (input : Str) (more : List Str),
    mu input more < n → loop cfg n toks exp f2 input more ≠ .fuel
  | 0, _, _, _, _, _, h => by omega
  | n + 1, toks, exp, f2, input, more, h => by
    rcases loop_cases cfg input with h0 | ⟨c, t, h0, hsp, hc⟩
    · rw [loop_end h0]
      split
      · split
        · intro e; cases e
        · rename_i l ms
          split
          · intro e; cases e
          · apply loop_fuel
            have := skipSp_le l
            simp only [mu, List.map_cons, List.sum_cons] at *; omega
      · intro e; cases e
    · rw [loop_step h0 hc]
      have hle := skipSp_le input
      rw [h0] at hle
      have hsh := getToken_short (cfg := cfg) (idx := toks.length) (prev := toks.getLast?) (f2 := f2) (s := t) (more := more) hsp hc
      cases hg : getToken cfg toks.length toks.getLast? f2 (c :: t) more with
      | error => intro e; cases e
      | outside => intro e; cases e
      | empty r e ms =>
        apply loop_fuel
        have := hsh.2 r e ms hg
        simp only [mu, List.length_cons] at *; omega
      | tok t' r f ms =>
        dsimp only
        split
        · unfold startComment
          split <;> intro e <;> cases e
        · split
          · intro e; cases e
          · apply loop_fuel
            have := hsh.1 t' r f ms hg
            simp only [mu, List.length_cons] at *; omega

/-- More rounds than needed do not change the result. -/
theorem loop_mono (cfg : Cfg) : ∀ (n : Nat) (toks : List Token) (exp : Bool) (f2 : Nat) (input : Str) (more : List Str) (k : Nat),
    loop cfg n toks exp f2 input more ≠ .fuel → loop cfg (n + k) toks exp f2 input more = loop cfg n toks exp f2 input more
  | 0, toks, exp, f2, input, more, k, h => absurd (by rw [loop.eq_def]) h
  | n + 1, toks, exp, f2, input, more, k, h => by
    have e1 : n + 1 + k = (n + k) + 1 := by omega
    rw [e1]
    rcases loop_cases cfg input with h0 | ⟨c, t, h0, hsp, hc⟩
    · rw [loop_end h0] at h ⊢
      rw [loop_end h0]
      split
      · rename_i hm
        rw [if_pos hm] at h
        split
        · rfl
        · simp only at h
          split
          · rfl
          · rename_i hl
            rw [if_neg hl] at h
            exact loop_mono _ _ _ _ _ _ _ _ h
      · rfl
    · rw [loop_step h0 hc] at h ⊢
      rw [loop_step h0 hc]
      cases hg : getToken cfg toks.length toks.getLast? f2 (c :: t) more with
      | error => rfl
      | outside => rfl
      | empty r e ms =>
        rw [hg] at h
        exact loop_mono _ _ _ _ _ _ _ _ h
      | tok t' r f ms =>
        rw [hg] at h
        dsimp only at h ⊢
        split
        · rfl
        · rename_i h1
          rw [if_neg h1] at h
          split
          · rfl
          · rename_i h2
            rw [if_neg h2] at h
            exact loop_mono _ _ _ _ _ _ _ _ h

/-- The result does not depend on the number of rounds, if there are enough. -/
theorem loop_eq {cfg : Cfg} {n m : Nat} {toks : List Token} {exp : Bool} {f2 : Nat} {input : Str} {more : List Str}
    (hn : mu input more < n) (hm : mu input more < m) : loop cfg n toks exp f2 input more = loop cfg m toks exp f2 input more := by
  have h1 := loop_mono cfg (mu input more + 1) toks exp f2 input more (n - (mu input more + 1)) (loop_fuel _ _ _ _ _ _ _ (by omega))
  have h2 := loop_mono cfg (mu input more + 1) toks exp f2 input more (m - (mu input more + 1)) (loop_fuel _ _ _ _ _ _ _ (by omega))
  rw [show mu input more + 1 + (n - (mu input more + 1)) = n by omega] at h1
  rw [show mu input more + 1 + (m - (mu input more + 1)) = m by omega] at h2
  rw [h1, h2]

/-- The bound on the rounds in `tokenize` is never reached. -/
theorem tokenize_fuel (cfg : Cfg) (inside : Option Nat) (line : Str) (more : List Str) : tokenize cfg inside line more ≠ .fuel := by
  unfold tokenize
  cases inside with
  | some d => intro e; cases e
  | none => exact loop_fuel _ _ _ _ _ _ _ (by simp only [mu]; omega)
end Verif.Lex
