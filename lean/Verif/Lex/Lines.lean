import Verif.Lex.Lossless
import Verif.Num.Scan
/-! A line written as a sequence of lexemes has the tokens of these lexemes. -/
namespace Verif.Lex
open Verif.Num (hd toLower isIdChar getNumber)
open Spec

theorem skipSp_blank {sp : Str} (h : Blank sp) (s : Str) : skipSp (sp ++ s) = skipSp s := by
  unfold skipSp
  induction sp with
  | nil => rfl
  | cons c sp ih =>
    have hc : isSpace c = true := h c (by simp)
    simp only [List.cons_append, List.dropWhile_cons, hc, if_true]
    exact ih fun x hx => h x (by simp [hx])

theorem skipSp_cons {c : Nat} {s : Str} (h : isSpace c = false) : skipSp (c :: s) = c :: s := by simp [skipSp, h]

theorem loop_skip (cfg : Cfg) (n : Nat) (toks : List Token) (exp : Bool) (f : Nat) {s s' : Str} (more : List Str) (h : skipSp s = skipSp s') :
    loop cfg n toks exp f s more = loop cfg n toks exp f s' more := by
  cases n with
  | zero => rw [loop.eq_def, loop.eq_def]
  | succ n =>
    rw [loop.eq_def]; conv => rhs; rw [loop.eq_def]
    dsimp only
    rw [h]

theorem idChar_takeWhile {s rest : Str} (h : ∀ x ∈ s, isIdChar x = true) (hr : isIdChar (hd rest) = false) :
    (s ++ rest).takeWhile isIdChar = s ∧ (s ++ rest).dropWhile isIdChar = rest := by
  induction s with
  | nil =>
    cases rest with
    | nil => exact ⟨rfl, rfl⟩
    | cons c r => have : isIdChar c = false := hr; simp [this]
  | cons c s ih =>
    have hc := h c (by simp)
    have := ih fun x hx => h x (by simp [hx])
    simp [hc, this]

theorem quoted_double {q : Nat} {rest : Str} (hr : hd rest ≠ q) (hq : q ≠ 0) : ∀ (s : Str) (n : Nat), n + s.length < 992 →
    quoted q (double q s ++ q :: rest) n = some (s ++ [q], n + s.length, true, rest)
  | [], n, hn => by
    have hn' : ¬ n ≥ maxString := by simp [maxString] at *; omega
    cases rest with
    | nil => simp [double, quoted, hn']
    | cons d r =>
      have : d ≠ q := hr
      simp [double, quoted, hn', this]
  | c :: s, n, hn => by
    simp only [List.length_cons] at hn
    have hn' : ¬ n ≥ maxString := by simp [maxString] at *; omega
    have ih := quoted_double hr hq s (n + 1) (by omega)
    have hne : ∃ x y, double q s ++ q :: rest = x :: y := by
      cases h : double q s ++ q :: rest with
      | nil => simp at h
      | cons x y => exact ⟨x, y, rfl⟩
    by_cases hc : c = q
    · subst hc
      simp only [double, if_true, List.cons_append]
      rw [quoted.eq_def]
      simp only [hn', if_false, if_true, ih, Option.map_some]
      simp; omega
    · simp only [double, hc, if_false, List.cons_append]
      obtain ⟨x, y, e⟩ := hne
      rw [e] at ih ⊢
      rw [quoted.eq_def]
      simp only [hn', if_false, hc, ih, Option.map_some]
      simp; omega

theorem lit_escape {dflt : Bool} {f : Nat} {rest : Str} {more : List Str} : ∀ (s dst : Str) (n : Nat), n + s.length < 992 →
    lit dflt f 0 n (escape s ++ 62 :: rest) dst more = .closed (dst ++ s) (n + s.length) rest more
  | [], dst, n, hn => by
    have hn' : ¬ n ≥ maxString := by simp [maxString] at *; omega
    rw [lit.eq_def]
    simp [escape, hn']
  | c :: s, dst, n, hn => by
    simp only [List.length_cons] at hn
    have hn' : ¬ n ≥ maxString := by simp [maxString] at *; omega
    have ih := lit_escape (dflt := dflt) (f := f) (rest := rest) (more := more) s (dst ++ [c]) (n + 1) (by omega)
    rw [lit.eq_def]
    by_cases hc : c ∈ [60, 62, 33, 34, 39, 92]
    · simp only [escape, hc, if_true, List.cons_append, hn', if_false]
      simp only [show ¬ (33 = 60) by decide, show ¬ (33 = 62) by decide, show ¬ ((33 = 34 ∨ 33 = 39) ∧ strparm f = false) by simp, if_false]
      rw [if_pos (by simp)]
      rw [ih]; simp; omega
    · simp only [escape, hc, if_false, List.cons_append, hn']
      simp only [List.mem_cons, List.not_mem_nil, or_false, not_or] at hc
      obtain ⟨h1, h2, h3, h4, h5, h6⟩ := hc
      simp only [h1, h2, h3, h4, h5, h6, if_false, false_and, or_self]
      rw [ih]; simp; omega

theorem number_value {radix : Nat} (h2 : 2 ≤ radix) (h16 : radix ≤ 16) {s rest : Str} {v : Nat}
    (hdig : isDigit (hd (s ++ rest)) = true) (h : Verif.Num.Spec.Literal radix (s ++ rest) v rest) :
    ∃ base len, getNumber radix (s ++ rest) = ⟨.num, base, len, s, rest⟩ ∧
      Verif.Num.limbsNat (Verif.Num.myatoi128 s base len) = v % 2 ^ 128 := by
  have h1 := Verif.Num.literal_correct radix h2 h16 _ _ _ h
  obtain ⟨n, ht, hr, hn⟩ := getNumber_shape radix (s ++ rest) hdig
  unfold Verif.Num.literal at h1
  dsimp only at h1
  split at h1
  · rename_i hk
    simp only [Option.some.injEq, Prod.mk.injEq] at h1
    have e : (getNumber radix (s ++ rest)).text = s := by
      have : (getNumber radix (s ++ rest)).text ++ (getNumber radix (s ++ rest)).rest = s ++ rest := by rw [ht, hr, List.take_append_drop]
      rw [h1.2] at this
      exact List.append_cancel_right this
    generalize getNumber radix (s ++ rest) = T at *
    obtain ⟨k, b, l, tx, rs⟩ := T
    simp only at *
    subst hk; subst e
    exact ⟨b, l, by rw [h1.2], h1.1⟩
  · cases h1

theorem endsOperand_iff (toks : List Token) : endsOperand toks.getLast? = true ↔ EndsOperand toks := by
  unfold endsOperand EndsOperand
  cases h : toks.getLast? with
  | none => simp
  | some t =>
    obtain ⟨k, x⟩ := t
    cases k <;> simp

theorem getId_name {cfg : Cfg} {f c : Nat} {s rest : Str} {more : List Str} (hs : ∀ x ∈ s, isIdChar x = true) (hlen : (c :: s).length ≤ 247)
    (hq : c :: s ≠ [63]) (hr : isIdChar (hd rest) = false) (hreg : ∀ tv, cfg.resword (c :: s) = .reg tv → hd (skipSp rest) ≠ 123)
    (hdot : c = 46 → cfg.resword (c :: s) ≠ .none ∨ cfg.dotname = true) :
    ∃ rest', skipSp rest' = skipSp rest ∧ getId cfg f (c :: s ++ rest) more =
      .tok ⟨nameKind (cfg.resword (c :: s)), c :: s⟩ rest' (match cfg.resword (c :: s) with | .directive _ _ df => if f = 0 then df else f | _ => f) more := by
  obtain ⟨e1, e2⟩ := idChar_takeWhile hs hr
  unfold getId
  simp only [List.cons_append, e1, e2]
  rw [if_neg (by simp only [maxId]; omega), if_neg hq]
  cases h : cfg.resword (c :: s) with
  | none =>
    refine ⟨rest, rfl, ?_⟩
    simp only
    rw [if_neg]
    · rfl
    · rintro ⟨h1, h2⟩
      rcases hdot h1 with h3 | h3
      · exact h3 h
      · rw [h2] at h3; cases h3
  | reg tv => exact ⟨skipSp rest, skipSp_idem _, by simp only; rw [if_neg (hreg tv h)]; rfl⟩
  | _ => exact ⟨rest, rfl, rfl⟩

theorem isIdStart_facts {c : Nat} (h : isIdStart c = true) : isDigit c = false ∧ isSpace c = false ∧ c ≠ 59 ∧ c ≠ 46 := by
  have h := of_decide_eq_true h
  simp only [toLower] at h
  simp only [isDigit, isSpace, decide_eq_false_iff_not]
  split at h <;> omega

/-- a character that begins neither a number nor a name -/
theorem getToken_special {cfg : Cfg} {idx : Nat} {prev : Option Token} {f c : Nat} {s : Str} {more : List Str}
    (h1 : isDigit c = false) (h2 : isIdStart c = false) (h3 : c = 46 → isIdChar (hd s) = false ∨ endsOperand prev = true) (h4 : c ≠ 96) :
    getToken cfg idx prev f (c :: s) more = getSpecial cfg idx prev f (c :: s) more := by
  unfold getToken
  simp only [hd_cons, h1, h2, h4, false_and, if_false, List.drop_succ_cons, List.drop_zero, Bool.false_eq_true]
  rw [if_neg]
  rintro ⟨a, b, c⟩
  rcases h3 a with h | h
  · rw [h] at b; cases b
  · rw [h] at c; cases c

/-- the result of one round -/
def StepTo (cfg : Cfg) (toks : List Token) (f : Nat) (lx : Lexeme) (t : Token) (rest : Str) (more : List Str) : Prop :=
  ∃ c s', lx.text ++ rest = c :: s' ∧ isSpace c = false ∧ c ≠ 59 ∧ isComment toks t = false ∧
    ∃ rest', skipSp rest' = skipSp rest ∧
      getToken cfg toks.length toks.getLast? f (lx.text ++ rest) more = .tok t rest' (flagsAfter cfg toks f lx) more

theorem isComment_false {toks : List Token} {t : Token} (h : t.kind ≠ .directive T_COMMENT DRT_CONDDIR) : isComment toks t = false := by
  cases hb : isComment toks t with
  | false => rfl
  | true =>
    exfalso; apply h
    unfold isComment at hb
    simp only [Bool.and_eq_true] at hb
    have := hb.2
    split at this
    · rename_i hk
      simp only [Bool.and_eq_true, decide_eq_true_eq] at this
      rw [hk, this.1, this.2]
    · cases this

theorem nameKind_comment {r : Res} (h : ∀ df, r ≠ .directive T_COMMENT DRT_CONDDIR df) : nameKind r ≠ .directive T_COMMENT DRT_CONDDIR := by
  cases r with
  | directive a b c =>
    intro e
    simp only [nameKind, Kind.directive.injEq] at e
    exact h c (by rw [e.1, e.2])
  | _ => exact nofun

theorem step_name {cfg toks f c s rest more} (hc : isIdStart c = true) (hs : ∀ x ∈ s, isIdChar x = true) (hlen : (c :: s).length ≤ 247)
    (hq : c :: s ≠ [63]) (hr : isIdChar (hd rest) = false) (hreg : ∀ tv, cfg.resword (c :: s) = .reg tv → hd (skipSp rest) ≠ 123)
    (hcom : ∀ df, cfg.resword (c :: s) ≠ .directive T_COMMENT DRT_CONDDIR df) :
    StepTo cfg toks f (.name (c :: s)) ⟨nameKind (cfg.resword (c :: s)), c :: s⟩ rest more := by
  obtain ⟨f1, f2, f3, f4⟩ := isIdStart_facts hc
  obtain ⟨r', h1, h2⟩ := getId_name (cfg := cfg) (f := f) (more := more) hs hlen hq hr hreg (fun h => absurd h f4)
  refine ⟨c, s ++ rest, rfl, f2, f3, isComment_false (nameKind_comment hcom), r', h1, ?_⟩
  unfold getToken
  simp only [Lexeme.text, List.cons_append, hd_cons, f1, hc, if_true, Bool.false_eq_true, if_false]
  exact h2

theorem step_dotted {cfg toks f c s rest more} (hc : isIdChar c = true) (hs : ∀ x ∈ s, isIdChar x = true) (hlen : (46 :: c :: s).length ≤ 247)
    (hr : isIdChar (hd rest) = false) (ho : ¬ EndsOperand toks) (hd0 : cfg.resword (46 :: c :: s) ≠ .none ∨ cfg.dotname = true)
    (hreg : ∀ tv, cfg.resword (46 :: c :: s) = .reg tv → hd (skipSp rest) ≠ 123)
    (hcom : ∀ df, cfg.resword (46 :: c :: s) ≠ .directive T_COMMENT DRT_CONDDIR df) :
    StepTo cfg toks f (.name (46 :: c :: s)) ⟨nameKind (cfg.resword (46 :: c :: s)), 46 :: c :: s⟩ rest more := by
  have hs' : ∀ x ∈ c :: s, isIdChar x = true := by
    intro x hx
    rcases List.mem_cons.1 hx with rfl | h
    · exact hc
    · exact hs x h
  obtain ⟨r', h1, h2⟩ := getId_name (cfg := cfg) (f := f) (c := 46) (more := more) hs' hlen (by simp) hr hreg (fun _ => hd0)
  refine ⟨46, c :: s ++ rest, rfl, rfl, by decide, isComment_false (nameKind_comment hcom), r', h1, ?_⟩
  unfold getToken
  have he : endsOperand toks.getLast? = false := by
    cases h : endsOperand toks.getLast? with
    | false => rfl
    | true => exact absurd ((endsOperand_iff toks).1 h) ho
  have e1 : isDigit 46 = false := rfl
  have e2 : isIdStart 46 = false := rfl
  simp only [Lexeme.text, List.cons_append, hd_cons, e1, e2, Bool.false_eq_true, if_false, List.drop_succ_cons, List.drop_zero, hc, he, true_and]
  exact h2

theorem step_back {cfg toks f s rest more} (hst : cfg.strict = false) (h96 : 96 ∉ s) (h59 : 59 ∉ s) :
    StepTo cfg toks f (.backquoted s) ⟨.id, s⟩ rest more := by
  refine ⟨96, s ++ 96 :: rest, by simp [Lexeme.text], rfl, by decide, isComment_false nofun, rest, rfl, ?_⟩
  unfold getToken
  have e1 : isDigit 96 = false := rfl
  have e2 : isIdStart 96 = false := rfl
  simp only [Lexeme.text, List.cons_append, hd_cons, e1, e2, Bool.false_eq_true, if_false, List.drop_succ_cons, List.drop_zero, hst,
    show ¬ (96 = 46) by decide, false_and, and_self, if_true]
  have : (s ++ [96] ++ rest).takeWhile (fun c => decide (c ≠ 96) && decide (c ≠ 59)) = s ∧
      (s ++ [96] ++ rest).dropWhile (fun c => decide (c ≠ 96) && decide (c ≠ 59)) = 96 :: rest := by
    clear e1 e2
    induction s with
    | nil => exact ⟨by simp, by simp⟩
    | cons x s ih =>
      simp only [List.mem_cons, not_or] at h96 h59
      have hx : (decide (x ≠ 96) && decide (x ≠ 59)) = true := by simp [Ne.symm h96.1, Ne.symm h59.1]
      have := ih h96.2 h59.2
      simp only [List.cons_append, List.takeWhile_cons, List.dropWhile_cons, hx, if_true, this, and_self]
  unfold getBack
  dsimp only
  rw [this.1, this.2, hd_cons, if_pos rfl]
  rfl

theorem step_number {cfg toks f c s v rest more base len} (hc : isDigit c = true)
    (h : getNumber cfg.radix (c :: s ++ rest) = ⟨.num, base, len, c :: s, rest⟩) :
    StepTo cfg toks f (.number (c :: s) v) ⟨.num base len, c :: s⟩ rest more := by
  refine ⟨c, s ++ rest, rfl, ?_, ?_, isComment_false nofun, rest, rfl, ?_⟩
  · have := of_decide_eq_true hc
    simp only [isSpace, decide_eq_false_iff_not]; omega
  · have := of_decide_eq_true hc
    omega
  · unfold getToken
    simp only [Lexeme.text, List.cons_append, hd_cons, hc, if_true]
    unfold getNum
    rw [← List.cons_append, h]
    rfl

theorem step_quoted {cfg toks f q s rest more} (hq : q = 34 ∨ q = 39) (hl : s.length < 992) (hr : hd rest ≠ q) :
    StepTo cfg toks f (.quoted q s) ⟨.str q s.length, q :: s ++ [q]⟩ rest more := by
  have e : (Lexeme.quoted q s).text ++ rest = q :: (double q s ++ q :: rest) := by simp [Lexeme.text]
  have hz := quoted_double hr (by omega) s 0 (by omega)
  refine ⟨q, _, e, by rcases hq with rfl | rfl <;> rfl, by omega, isComment_false nofun, rest, rfl, ?_⟩
  rw [e, getToken_special (by rcases hq with rfl | rfl <;> rfl) (by rcases hq with rfl | rfl <;> rfl) (by omega) (by omega)]
  unfold getSpecial
  rcases hq with rfl | rfl <;> simp [getString, hz, flagsAfter]

theorem step_literal {cfg toks f s rest more} (hf : cexpr f = false) (hl : s.length < 992) :
    StepTo cfg toks f (.literal s) ⟨.str 60 s.length, s⟩ rest more := by
  have e : (Lexeme.literal s).text ++ rest = 60 :: (escape s ++ 62 :: rest) := by simp [Lexeme.text]
  have hz := lit_escape (dflt := cfg.dflt) (f := f) (rest := rest) (more := more) s [] 0 (by omega)
  refine ⟨60, _, e, rfl, by omega, isComment_false nofun, rest, rfl, ?_⟩
  rw [e, getToken_special rfl rfl (by omega) (by omega)]
  unfold getSpecial
  simp [getString, hz, flagsAfter, hf]

theorem step_fits {cfg : Cfg} {toks : List Token} {f : Nat} {lx : Lexeme} {rest : Str} {t : Token} (more : List Str)
    (hm : Means cfg lx rest t) (hf : Fits cfg toks f lx rest) : StepTo cfg toks f lx t rest more := by
  cases hf with
  | name a b c d e g h => cases hm; exact step_name a b c d e g h
  | dotted a b c d e g h i => cases hm; exact step_dotted a b c d e g h i
  | backquoted a b c => cases hm; exact step_back a b c
  | number a b => cases hm with | number _ _ _ _ _ h => exact step_number a h
  | quoted a b c => cases hm; exact step_quoted a b c
  | literal a b => cases hm; exact step_literal a b
  | assign a =>
    cases hm
    refine ⟨61, rest, rfl, rfl, by decide, isComment_false (by decide), rest, rfl, ?_⟩
    show getToken _ _ _ _ (61 :: rest) _ = _
    rw [getToken_special rfl rfl (by omega) (by omega)]
    simp [getSpecial, a, flagsAfter]
  | compare2 a b =>
    cases hm
    simp only [List.mem_cons, List.not_mem_nil, or_false] at b
    rcases b with rfl | rfl | rfl | rfl | rfl | rfl <;>
      refine ⟨_, _, rfl, rfl, by decide, isComment_false nofun, rest, rfl, ?_⟩ <;>
      (simp only [Lexeme.text, List.cons_append, List.nil_append]; rw [getToken_special rfl rfl (by omega) (by omega)]; simp [getSpecial, a, flagsAfter, hd_cons])
  | compare1 a b c =>
    cases hm
    simp only [List.mem_cons, List.not_mem_nil, or_false] at b
    rcases b with rfl | rfl | rfl <;>
      refine ⟨_, _, rfl, rfl, by decide, isComment_false nofun, rest, rfl, ?_⟩ <;>
      (simp only [Lexeme.text, List.cons_append, List.nil_append]; rw [getToken_special rfl rfl (by omega) (by omega)]; simp [getSpecial, a, c, flagsAfter])
  | compareBit a b c =>
    cases hm
    simp only [List.mem_cons, List.not_mem_nil, or_false] at b
    rcases b with rfl | rfl <;>
      refine ⟨_, _, rfl, rfl, by decide, isComment_false nofun, rest, rfl, ?_⟩ <;>
      (simp only [Lexeme.text, List.cons_append, List.nil_append]; rw [getToken_special rfl rfl (by omega) (by omega)]; simp [getSpecial, a, c, flagsAfter])
  | punct a =>
    cases hm
    simp only [List.mem_cons, List.not_mem_nil, or_false] at a
    rcases a with rfl | rfl | rfl | rfl | rfl | rfl <;>
      refine ⟨_, _, rfl, rfl, by decide, isComment_false nofun, rest, rfl, ?_⟩ <;>
      (simp only [Lexeme.text, List.cons_append, List.nil_append]; rw [getToken_special rfl rfl (by omega) (by omega)]; simp [getSpecial, flagsAfter] <;> rfl)
  | colon a =>
    cases hm
    refine ⟨_, _, rfl, rfl, by decide, isComment_false nofun, rest, rfl, ?_⟩
    simp only [Lexeme.text, List.cons_append, List.nil_append]; rw [getToken_special rfl rfl (by omega) (by omega)]; simp [getSpecial, flagsAfter, a]
  | colon2 =>
    cases hm
    refine ⟨_, _, rfl, rfl, by decide, isComment_false nofun, rest, rfl, ?_⟩
    simp only [Lexeme.text, List.cons_append, List.nil_append]; rw [getToken_special rfl rfl (by omega) (by omega)]; simp [getSpecial, flagsAfter, hd_cons]
  | minus a =>
    cases hm
    refine ⟨_, _, rfl, rfl, by decide, isComment_false nofun, rest, rfl, ?_⟩
    simp only [Lexeme.text, List.cons_append, List.nil_append]; rw [getToken_special rfl rfl (by omega) (by omega)]; simp [getSpecial, flagsAfter, a]
  | arrow =>
    cases hm
    refine ⟨_, _, rfl, rfl, by decide, isComment_false nofun, rest, rfl, ?_⟩
    simp only [Lexeme.text, List.cons_append, List.nil_append]; rw [getToken_special rfl rfl (by omega) (by omega)]; simp [getSpecial, flagsAfter, hd_cons]
  | amp a =>
    cases hm
    refine ⟨_, _, rfl, rfl, by decide, isComment_false nofun, rest, rfl, ?_⟩
    simp only [Lexeme.text, List.cons_append, List.nil_append]; rw [getToken_special rfl rfl (by omega) (by omega)]; simp [getSpecial, flagsAfter, a]
  | percent a b =>
    cases hm
    refine ⟨_, _, rfl, rfl, by decide, isComment_false nofun, rest, rfl, ?_⟩
    have : ¬ (cfg.dflt = true ∧ toks = []) := fun h => b h.1 h.2
    simp only [Lexeme.text, List.cons_append, List.nil_append]; rw [getToken_special rfl rfl (by omega) (by omega)]; simp [getSpecial, flagsAfter, a, this]
  | dot a =>
    cases hm
    refine ⟨_, _, rfl, rfl, by decide, isComment_false nofun, rest, rfl, ?_⟩
    simp only [Lexeme.text, List.cons_append, List.nil_append]
    rw [getToken_special rfl rfl (fun _ => a.symm.imp id (endsOperand_iff toks).2) (by omega)]; simp [getSpecial, flagsAfter]
  | lbracket a b =>
    cases hm
    refine ⟨_, _, rfl, rfl, by decide, isComment_false nofun, skipSp rest, skipSp_idem _, ?_⟩
    simp only [Lexeme.text, List.cons_append, List.nil_append]; rw [getToken_special rfl rfl (by omega) (by omega)]; simp [getSpecial, flagsAfter, a, b]
  | rbracket a =>
    cases hm
    refine ⟨_, _, rfl, rfl, by decide, isComment_false nofun, skipSp rest, skipSp_idem _, ?_⟩
    simp only [Lexeme.text, List.cons_append, List.nil_append]; rw [getToken_special rfl rfl (by omega) (by omega)]; simp [getSpecial, flagsAfter, a]
  | query a =>
    cases hm
    refine ⟨_, _, rfl, rfl, by decide, isComment_false nofun, rest, rfl, ?_⟩
    obtain ⟨e1, e2⟩ := idChar_takeWhile (s := []) (rest := rest) (by simp) a
    simp only [List.nil_append] at e1 e2
    simp only [Lexeme.text, List.cons_append, List.nil_append]
    unfold getToken
    simp only [hd_cons, show isDigit 63 = false from rfl, show isIdStart 63 = true from rfl, Bool.false_eq_true, if_false, if_true]
    simp [getId, e1, e2, maxId, flagsAfter]

theorem stmtHead_eq (toks : List Token) : toks[if toks[1]? = some ⟨.sym, [58]⟩ then 2 else 0]? = stmtHead toks := by
  match toks with
  | [] => rfl
  | [t] => rfl
  | a :: ⟨k, s⟩ :: r =>
    by_cases h : (⟨k, s⟩ : Token) = ⟨.sym, [58]⟩
    · rw [if_pos (by simp [h])]
      rw [h]
      simp [stmtHead, List.head?_eq_getElem?]
    · rw [if_neg (by simpa using h)]
      unfold stmtHead
      split
      · rename_i e
        simp only [List.cons.injEq] at e
        exact absurd e.2.1 h
      · rfl

theorem isMultiLine_iff (cfg : Cfg) (toks : List Token) : isMultiLine cfg toks = true ↔
    (∀ dt s, toks[1]? ≠ some ⟨.directive T_EQU dt, s⟩) ∧ ∀ t, stmtHead toks = some t → ¬ OneLine cfg t := by
  unfold isMultiLine
  dsimp only
  rw [stmtHead_eq]
  have he : isEqu toks = true ↔ ∃ dt s, toks[1]? = some ⟨.directive T_EQU dt, s⟩ := by
    unfold isEqu
    cases h : toks[1]? with
    | none => simp
    | some t =>
      obtain ⟨k, s⟩ := t
      cases k <;> simp
  by_cases hq : ∃ dt s, toks[1]? = some ⟨.directive T_EQU dt, s⟩
  · rw [if_pos (he.2 hq)]
    obtain ⟨dt, s, hq⟩ := hq
    simp only [Bool.false_eq_true, false_iff, not_and]
    intro h; exact absurd hq (h dt s)
  · rw [if_neg (fun h => hq (he.1 h))]
    have : (∀ dt s, toks[1]? ≠ some ⟨.directive T_EQU dt, s⟩) := fun dt s h => hq ⟨dt, s, h⟩
    simp only [this, ne_eq, not_false_eq_true, implies_true, true_and]
    cases h : stmtHead toks with
    | none => simp
    | some t =>
      obtain ⟨k, s⟩ := t
      cases k <;> simp [OneLine, and_assoc]

theorem continues_iff (cfg : Cfg) (toks : List Token) : Continues cfg toks ↔
    toks.length > 1 ∧ toks.getLast? = some ⟨.sym, [44]⟩ ∧ cfg.source = true ∧ isMultiLine cfg toks = true := by
  unfold Continues
  rw [isMultiLine_iff]

theorem ends_iff {cfg : Cfg} {s : Str} (h : Ends cfg s) : skipSp s = [] ∨ (hd (skipSp s) = 59 ∧ cfg.dflt = true) := by
  rcases h with h | ⟨hd', sp, x, hb, rfl⟩
  · left
    have := skipSp_blank h []
    simpa [skipSp] using this
  · right
    rw [skipSp_blank hb, skipSp_cons rfl]
    exact ⟨rfl, hd'⟩

theorem not_blank {l : Str} (h : ¬ Blank l) : skipSp l ≠ [] := by
  intro e
  apply h
  obtain ⟨sp, hb, e'⟩ := skipSp_split l
  rw [e, List.append_nil] at e'
  rw [e']; exact hb

/-- a backslash before the end of the line -/
theorem getToken_backslash {cfg : Cfg} {idx : Nat} {prev : Option Token} {f : Nat} {s l : Str} {more : List Str}
    (hd' : cfg.dflt = true ∨ cfg.tokLine = true) (hs : Blank s ∨ ∃ sp' x, Blank sp' ∧ s = sp' ++ 59 :: x) :
    getToken cfg idx prev f (92 :: s) (l :: more) = .empty (32 :: skipSp l) false more := by
  have hc : concatLine (92 :: s) 0 (l :: more) = some (32 :: skipSp l, more) := by
    unfold concatLine
    rw [if_pos]
    · simp
    · simp only [List.drop_succ_cons, List.drop_zero]
      rcases hs with h | ⟨sp, x, hb, rfl⟩
      · left
        have := skipSp_blank h []
        simpa [skipSp] using this
      · right
        rw [skipSp_blank hb, skipSp_cons rfl]
        rfl
  have hr : raw cfg.dflt cfg.tokLine 0 (92 :: s) (l :: more) = .empty (32 :: skipSp l) more := by
    rw [raw.eq_def]
    simp only [maxString, isSpace, hd', show ¬ (0 ≥ 992) by decide, if_false, and_true, if_true]
    rw [if_neg (by simp)]
    split
    · rename_i h
      rw [hc] at h
      cases h; rfl
    · rename_i h
      rw [hc] at h; cases h
  rw [getToken_special rfl rfl (by omega) (by omega)]
  simp [getSpecial, getString, hr]

theorem written_loop {cfg : Cfg} {toks : List Token} {f : Nat} {s : Str} {more : List Str} {toks' : List Token} {more' : List Str}
    (h : Written cfg toks f s more toks' more') (exp : Bool) :
    toks'.length < 992 → ∃ k, ∀ n, loop cfg (n + k) toks exp f s more = .done toks' exp none more' ∧ toks.length ≤ toks'.length := by
  induction h with
  | @done toks f s more he hc =>
    intro _
    refine ⟨1, fun n => ⟨?_, Nat.le_refl _⟩⟩
    rw [loop_end (ends_iff he)]
    rcases hc with hc | rfl
    · rw [if_neg (fun h => hc ((continues_iff ..).2 h))]
    · split <;> rfl
  | @cons toks f sp lx t rest more toks' more' hb hm hf hw ih =>
    intro hl
    obtain ⟨k, hk⟩ := ih hl
    have hlen := (hk 0).2
    rw [List.length_append, List.length_singleton] at hlen
    refine ⟨k + 1, fun n => ⟨?_, by omega⟩⟩
    obtain ⟨c, s', e, hsp, h59, hcom, rest', hr, hg⟩ := step_fits more hm hf
    rw [List.append_assoc, loop_skip _ _ _ _ _ more (skipSp_blank hb _), show n + (k + 1) = (n + k) + 1 by omega]
    rw [e] at hg ⊢
    rw [loop_step (skipSp_cons hsp) (by intro h; exact h59 h.1), hg]
    dsimp only
    rw [hcom, if_neg (by simp), if_neg (by simp only [maxToken]; omega)]
    rw [loop_skip _ _ _ _ _ more hr]
    exact (hk n).1
  | @backslash toks f sp s l more toks' more' hd' hb hs hw ih =>
    intro hl
    obtain ⟨k, hk⟩ := ih hl
    refine ⟨k + 1, fun n => ⟨?_, (hk 0).2⟩⟩
    rw [loop_skip _ _ _ _ _ _ (skipSp_blank hb _), show n + (k + 1) = (n + k) + 1 by omega]
    rw [loop_step (skipSp_cons rfl) (by simp), getToken_backslash hd' hs]
    dsimp only
    rw [Bool.or_false]
    have : skipSp (32 :: skipSp l) = skipSp l := by
      rw [show 32 :: skipSp l = [32] ++ skipSp l from rfl, skipSp_blank (by intro c hc; simp at hc; subst hc; rfl), skipSp_idem]
    rw [loop_skip _ _ _ _ _ more this]
    exact (hk n).1
  | @commaBlank toks f s l more he hc hb =>
    intro hl
    refine ⟨1, fun n => ⟨?_, Nat.le_refl _⟩⟩
    rw [loop_end (ends_iff he), if_pos ((continues_iff ..).1 hc)]
    dsimp only
    rw [if_pos]
    have := skipSp_blank hb []
    simpa [skipSp] using this
  | @comma toks f s l more toks' more' he hc hb hw ih =>
    intro hl
    obtain ⟨k, hk⟩ := ih hl
    refine ⟨k + 1, fun n => ⟨?_, (hk 0).2⟩⟩
    rw [show n + (k + 1) = (n + k) + 1 by omega, loop_end (ends_iff he), if_pos ((continues_iff ..).1 hc)]
    dsimp only
    rw [if_neg (not_blank hb), loop_skip _ _ _ _ _ more (skipSp_idem l)]
    exact (hk n).1

theorem written_tokens {cfg : Cfg} {line : Str} {more : List Str} {toks : List Token} {more' : List Str}
    (h : Written cfg [] 0 line more toks more') (hl : toks.length < 992) :
    tokenize cfg none line more = .done toks false none more' := by
  obtain ⟨k, hk⟩ := written_loop h false hl
  have h1 := (hk (mu line more + 1)).1
  rw [← h1]
  unfold tokenize
  exact loop_eq (by simp only [mu]; omega) (by omega)

end Verif.Lex
