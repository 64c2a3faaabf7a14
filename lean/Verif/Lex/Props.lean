import Verif.Lex.Lines
/-! # Property theorems: tokens of source lines (C50), COMMENT blocks (C51) -/
namespace Verif.Lex
open Verif.Num (hd toLower isIdChar getNumber)
open Spec

/-- **C50** The tokenizer ends for every line, whatever lines follow (the bound on the rounds in the model is never reached). -/
theorem C50_terminates (cfg : Cfg) (inside : Option Nat) (line : Str) (more : List Str) : tokenize cfg inside line more ≠ .fuel :=
  tokenize_fuel cfg inside line more

/-- **C50** Nothing is lost and nothing is added: an accepted line is the concatenation of the spellings of its tokens, white space and the comment. -/
theorem C50_lossless (cfg : Cfg) (line : Str) (toks : List Token) (exp : Bool) (inside : Option Nat) (more : List Str)
    (h : tokenize cfg none line [] = .done toks exp inside more) : Reads cfg 0 line toks := by
  unfold tokenize at h
  obtain ⟨-, ts, e, hr⟩ := loop_reads cfg _ _ _ _ _ h
  simp only [List.nil_append] at e
  subst e
  exact reads_skip hr

theorem double_le (q : Nat) (s : Str) : s.length ≤ (double q s).length := by
  induction s with
  | nil => simp
  | cons c s ih => unfold double; split <;> simp <;> omega

theorem stripped_le {b s : Str} (h : Stripped b s) : s.length ≤ b.length := by
  induction h <;> simp <;> omega

theorem spelled_le {p : Str} {t : Token} (h : Spelled p t) : t.text.length ≤ p.length ∧ 0 < p.length := by
  cases h with
  | exact h0 _ => exact ⟨Nat.le_refl _, List.length_pos_iff.2 h0⟩
  | back => simp; omega
  | plus => simp
  | @quoted q s => have := double_le q s; simp; omega
  | literal h => have := stripped_le h; simp; omega

theorem reads_le {cfg : Cfg} {i : Nat} {line : Str} {toks : List Token} (h : Reads cfg i line toks) :
    (toks.map fun t => t.text.length).sum ≤ line.length ∧ toks.length ≤ line.length := by
  induction h with
  | nil => simp
  | comment => simp
  | block => simp
  | percent _ _ _ ih => simp; omega
  | @unterminated _ _ q s => have := double_le q s; simp; omega
  | token _ hp _ ih =>
    have := spelled_le hp
    simp only [List.map_cons, List.sum_cons, List.length_append, List.length_cons]; omega

/-- **C50** The texts of the tokens together are not longer than the line, and there are not more tokens than characters: the buffer for the
strings of one line (line length plus one NUL for each token) is never exceeded. -/
theorem C50_size (cfg : Cfg) (line : Str) (toks : List Token) (exp : Bool) (inside : Option Nat) (more : List Str)
    (h : tokenize cfg none line [] = .done toks exp inside more) :
    (toks.map fun t => t.text.length).sum ≤ line.length ∧ toks.length ≤ line.length :=
  reads_le (C50_lossless cfg line toks exp inside more h)

/-- **C50** A logical line that is written as a sequence of lexemes, with white space between them as one likes, comments at the end and lines
joined by backslash or comma, has exactly the tokens of these lexemes. -/
theorem C50_line (cfg : Cfg) (line : Str) (more : List Str) (toks : List Token) (more' : List Str)
    (h : Written cfg [] 0 line more toks more') (hl : toks.length < 992) :
    tokenize cfg none line more = .done toks false none more' := written_tokens h hl

/-- **C50** A literal has a token, and the value computed from the token is that of the literal. -/
theorem C50_number (radix : Nat) (h2 : 2 ≤ radix) (h16 : radix ≤ 16) (s rest : Str) (v : Nat) (hdig : isDigit (hd (s ++ rest)) = true)
    (h : Verif.Num.Spec.Literal radix (s ++ rest) v rest) :
    ∃ base len, getNumber radix (s ++ rest) = ⟨.num, base, len, s, rest⟩ ∧
      Verif.Num.limbsNat (Verif.Num.myatoi128 s base len) = v % 2 ^ 128 := number_value h2 h16 hdig h

/-- `Feeds cfg st ls outs st' rest`: the lines `ls` up to `rest`, read one after the other, give the token lists `outs`. -/
inductive Feeds (cfg : Cfg) : Option Nat → List Str → List (List Token) → Option Nat → List Str → Prop
  | stop {st ls} : Feeds cfg st ls [] st ls
  | line {st l ls toks e st' ls' outs st'' rest} : tokenize cfg st l ls = .done toks e st' ls' → Feeds cfg st' ls' outs st'' rest →
      Feeds cfg st (l :: ls) (toks :: outs) st'' rest

theorem feeds_inside (cfg : Cfg) (d : Nat) (closer : Str) (hc : d ∈ closer) (rest : List Str) : ∀ mids : List Str, (∀ m ∈ mids, d ∉ m) →
    Feeds cfg (some d) (mids ++ closer :: rest) (List.replicate (mids.length + 1) []) none rest
  | [], _ => by
    refine .line (e := false) (st' := none) (ls' := rest) ?_ .stop
    simp [tokenize, hc]
  | m :: mids, h => by
    refine .line (e := false) (st' := some d) (ls' := mids ++ closer :: rest) ?_ (feeds_inside cfg d closer hc rest mids fun x hx => h x (by simp [hx]))
    have : d ∉ m := h m (by simp)
    simp [tokenize, this]

/-- **C51** The directive COMMENT: the first character `d` behind it delimits the comment. If it occurs once more on the line, the comment is that line
alone. -/
theorem C51_comment_line (cfg : Cfg) (sp sp' name s : Str) (c d df : Nat) (more : List Str)
    (hb : Blank sp) (hb' : Blank sp') (hc : isIdStart c = true) (hn : ∀ x ∈ name, isIdChar x = true) (hlen : (c :: name).length ≤ 247)
    (hr : cfg.resword (c :: name) = .directive T_COMMENT DRT_CONDDIR df) (hd0 : isSpace d = false) (hsep : sp' ≠ [] ∨ isIdChar d = false)
    (hq : c :: name ≠ [63]) :
    tokenize cfg none (sp ++ (c :: name) ++ sp' ++ d :: s) more = .done [] false (if d ∈ s then none else some d) more := by
  obtain ⟨f1, f2, f3, f4⟩ := isIdStart_facts hc
  have hsp : ∀ x, isSpace x = true → isIdChar x = false := by
    intro x hx
    have hx := of_decide_eq_true hx
    apply decide_eq_false
    simp only [toLower]
    split <;> omega
  have hend : isIdChar (hd (sp' ++ d :: s)) = false := by
    cases sp' with
    | nil => exact hsep.resolve_left (by simp)
    | cons x y => exact hsp x (hb' x (by simp))
  obtain ⟨r', h1, h2⟩ := getId_name (cfg := cfg) (f := 0) (more := more) hn hlen hq hend (by intro tv h; rw [hr] at h; cases h) (fun h => absurd h f4)
  rw [hr] at h2
  have h1' : skipSp r' = d :: s := by rw [h1, skipSp_blank hb', skipSp_cons hd0]
  unfold tokenize
  dsimp only
  rw [List.append_assoc, List.append_assoc, loop_skip _ _ _ _ _ more (skipSp_blank hb _), show ∀ a b : Nat, a + 2 + b = (a + 1 + b) + 1 by omega]
  have e : c :: name ++ (sp' ++ d :: s) = c :: (name ++ (sp' ++ d :: s)) := rfl
  rw [e, loop_step (skipSp_cons f2) (by rintro ⟨h, -⟩; exact f3 h)]
  have hg : getToken cfg ([] : List Token).length ([] : List Token).getLast? 0 (c :: (name ++ (sp' ++ d :: s))) more =
      getId cfg 0 (c :: name ++ (sp' ++ d :: s)) more := by
    unfold getToken
    simp only [hd_cons, f1, hc, if_true, Bool.false_eq_true, if_false]
    rfl
  rw [hg, h2]
  simp only [nameKind, isComment, startComment, h1']
  simp

/-- **C51** ... otherwise it extends to the end of the line that contains `d`, and all these lines are no tokens, whatever they contain. -/
theorem C51_comment_block (cfg : Cfg) (sp sp' name s : Str) (c d df : Nat) (mids : List Str) (closer : Str) (rest : List Str)
    (hb : Blank sp) (hb' : Blank sp') (hc : isIdStart c = true) (hn : ∀ x ∈ name, isIdChar x = true) (hlen : (c :: name).length ≤ 247)
    (hr : cfg.resword (c :: name) = .directive T_COMMENT DRT_CONDDIR df) (hd0 : isSpace d = false) (hsep : sp' ≠ [] ∨ isIdChar d = false)
    (hq : c :: name ≠ [63]) (hs : d ∉ s) (hm : ∀ m ∈ mids, d ∉ m) (hcl : d ∈ closer) :
    Feeds cfg none ((sp ++ (c :: name) ++ sp' ++ d :: s) :: (mids ++ closer :: rest)) (List.replicate (mids.length + 2) []) none rest := by
  refine .line (e := false) (st' := some d) (ls' := mids ++ closer :: rest) ?_ (feeds_inside cfg d closer hcl rest mids hm)
  rw [C51_comment_line cfg sp sp' name s c d df _ hb hb' hc hn hlen hr hd0 hsep hq, if_neg hs]

/-! ## Examples -/

def str (s : String) : Str := s.toList.map Char.toNat

/-- a small table of reserved words -/
def exRes (s : Str) : Res :=
  if s = str "mov" then .instr 10
  else if s = str "ax" then .reg 20
  else if s = str "db" then .directive 30 9 0
  else if s = str ".if" then .directive 40 5 1
  else if s = str "comment" then .directive T_COMMENT DRT_CONDDIR 0
  else .none

def exCfg : Cfg := ⟨exRes, false, false, 10, fun _ => false, fun _ => false, true, false, true⟩

/-- `msg db 'it''s' , \ ; first part` continued by `0FFh , <a!>b>` and, behind the comma, `foo.bar` -/
def exLine : Str := str "msg db 'it''s' , \\ ; first part"
def exMore : List Str := [str "  0FFh , <a!>b>,; go on", str "foo.bar", str "mov ax,1"]

def exToks : List Token :=
  [⟨.id, str "msg"⟩, ⟨.directive 30 9, str "db"⟩, ⟨.str 39 4, str "'it's'"⟩, ⟨.sym, str ","⟩, ⟨.num 16 3, str "0FFh"⟩, ⟨.sym, str ","⟩, ⟨.str 60 3, str "a>b"⟩,
   ⟨.sym, str ","⟩, ⟨.id, str "foo"⟩, ⟨.sym, str "."⟩, ⟨.id, str "bar"⟩]

theorem blank1 : Blank [32] := by intro c hc; simp at hc; subst hc; rfl
theorem blank0 : Blank [] := by intro c hc; cases hc

/-- The hypotheses of `C50_line` are met by this line. -/
theorem exWritten : Written exCfg [] 0 exLine exMore exToks [str "mov ax,1"] := by
  refine .cons (sp := []) (lx := .name (str "msg")) (rest := str " db 'it''s' , \\ ; first part") blank0 (.name _ _) (.name rfl (by decide) (by decide) (by decide) rfl (by intro tv h; cases h) (by intro df h; cases h)) ?_
  refine .cons (sp := [32]) (lx := .name (str "db")) (rest := str " 'it''s' , \\ ; first part") blank1 (.name _ _) (.name rfl (by decide) (by decide) (by decide) rfl (by intro tv h; cases h) (by intro df h; cases h)) ?_
  refine .cons (sp := [32]) (lx := .quoted 39 (str "it's")) (rest := str " , \\ ; first part") blank1 (.quoted _ _ _) (.quoted (.inr rfl) (by decide) (by decide)) ?_
  refine .cons (sp := [32]) (lx := .sym [44]) (rest := str " \\ ; first part") blank1 (.sym _ _) (.punct (by decide)) ?_
  refine .backslash (sp := [32]) (s := str " ; first part") (.inl rfl) blank1 (.inr ⟨[32], _, blank1, rfl⟩) ?_
  refine .cons (sp := [32, 32]) (lx := .number (str "0FFh") 255) (rest := str " , <a!>b>,; go on") (blank_append blank1 blank1) (.number _ _ 16 3 _ (by decide +kernel)) (.number rfl ?_) ?_
  · exact Verif.Num.Spec.Literal.hex (s := str "0FF") (ds := [0, 15, 15]) (x := 104) (by simp [Verif.Num.Spec.Digits, Verif.Num.Spec.IsDigit, str]) (by decide) (by decide)
  refine .cons (sp := [32]) (lx := .sym [44]) (rest := str " <a!>b>,; go on") blank1 (.sym _ _) (.punct (by decide)) ?_
  refine .cons (sp := [32]) (lx := .literal (str "a>b")) (rest := str ",; go on") blank1 (.literal _ _) (.literal rfl (by decide)) ?_
  refine .cons (sp := []) (lx := .sym [44]) (rest := str "; go on") blank0 (.sym _ _) (.punct (by decide)) ?_
  refine .comma (.inr ⟨rfl, [], _, blank0, rfl⟩) (by rw [continues_iff]; decide) (by intro h; exact absurd (h 102 (by decide)) (by decide)) ?_
  refine .cons (sp := []) (lx := .name (str "foo")) (rest := str ".bar") blank0 (.name _ _) (.name rfl (by decide) (by decide) (by decide) rfl (by intro tv h; cases h) (by intro df h; cases h)) ?_
  refine .cons (sp := []) (lx := .sym [46]) (rest := str "bar") blank0 (.sym _ _) (.dot (.inl ⟨⟨.id, str "foo"⟩, rfl, .inr (.inl rfl)⟩)) ?_
  refine .cons (sp := []) (lx := .name (str "bar")) (rest := []) blank0 (.name _ _) (.name rfl (by decide) (by decide) (by decide) rfl (by intro tv h; cases h) (by intro df h; cases h)) ?_
  exact .done (.inl blank0) (.inl (by rw [continues_iff]; decide))

example : tokenize exCfg none exLine exMore = .done exToks false none [str "mov ax,1"] := C50_line _ _ _ _ _ exWritten (by decide)

/-- The hypothesis of `C50_lossless`: an accepted line (the `%` sets the flag for expansion). -/
example : ∃ toks, tokenize exCfg none (str "  % mov ax, [ + foo] ; x") [] = .done toks true none [] ∧ toks.length = 6 :=
  ⟨[⟨.instr 10, str "mov"⟩, ⟨.reg 20, str "ax"⟩, ⟨.sym, str ","⟩, ⟨.sym, str "["⟩, ⟨.id, str "foo"⟩, ⟨.sym, str "]"⟩], by decide +kernel, rfl⟩

/-- The hypotheses of `C51_comment_block`: `comment * one` / `two` / `three * four`. -/
example : Feeds exCfg none [str "comment * one", str "two", str "three * four", str "mov ax,1"] [[], [], []] none [str "mov ax,1"] :=
  C51_comment_block exCfg [] [32] (str "omment") (str " one") 99 42 0 [str "two"] (str "three * four") [str "mov ax,1"] blank0 blank1 rfl (by decide) (by decide)
    (by decide) rfl (.inl (by decide)) (by decide) (by decide) (by decide) (by decide)

end Verif.Lex
