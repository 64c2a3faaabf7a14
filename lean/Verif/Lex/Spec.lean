import Verif.Lex.Model
import Verif.Num.Spec
/-!
# Specification of the tokens of a source line (uses the types of the model only)
-/
namespace Verif.Lex.Spec
open Verif.Lex
open Verif.Num (hd isIdChar)

/-- only white space -/
def Blank (s : Str) : Prop := ∀ c ∈ s, isSpace c = true

/-- `Stripped b s`: `s` is `b` without the `!` that quote the character behind them. -/
inductive Stripped : Str → Str → Prop
  | nil : Stripped [] []
  | keep {b s} (c : Nat) : Stripped b s → Stripped (c :: b) (c :: s)
  | bang {b s} (d : Nat) : Stripped b s → Stripped (33 :: d :: b) (d :: s)

/-- the text `s` between quotes `q`: every `q` is written twice -/
def double (q : Nat) : Str → Str
  | [] => []
  | c :: s => if c = q then q :: q :: double q s else c :: double q s

/-- `Spelled p t`: the source text `p` is one token `t`. -/
inductive Spelled : Str → Token → Prop
  /-- names, numbers, operators, ... and undelimited strings: the token is its text -/
  | exact {k s} : s ≠ [] → (∀ d n, k = .str d n → d = 0) → Spelled s ⟨k, s⟩
  /-- "`name`" -/
  | back {s} : Spelled (96 :: s ++ [96]) ⟨.id, s⟩
  /-- `[ +` is the same as `[` -/
  | plus {sp} : Blank sp → Spelled (91 :: sp ++ [43]) ⟨.sym, [91]⟩
  /-- `'it''s'` -/
  | quoted {q s} : q = 34 ∨ q = 39 → Spelled (q :: double q s ++ [q]) ⟨.str q s.length, q :: s ++ [q]⟩
  /-- `<text>` -/
  | literal {b s} : Stripped b s → Spelled (60 :: b ++ [62]) ⟨.str 60 s.length, s⟩

/-- `Reads cfg i line toks`: the line, beginning with token `i`, consists of the tokens `toks` and of nothing else but white space
and the comment. -/
inductive Reads (cfg : Cfg) : Nat → Str → List Token → Prop
  | nil {i sp} : Blank sp → Reads cfg i sp []
  | comment {i sp x} : cfg.dflt = true → Blank sp → Reads cfg i (sp ++ 59 :: x) []
  /-- the directive COMMENT is no token; it hides the rest of the line -/
  | block {i sp name x df} : i = 0 ∨ i = 2 → Blank sp → cfg.resword name = .directive T_COMMENT DRT_CONDDIR df →
      Reads cfg i (sp ++ name ++ x) []
  /-- a `%` at the beginning of the line -/
  | percent {sp s ts} : cfg.dflt = true → Blank sp → Reads cfg 0 s ts → Reads cfg 0 (sp ++ 37 :: s) ts
  /-- a string without closing quote extends to the end of the line -/
  | unterminated {i sp q s} : q = 34 ∨ q = 39 → Blank sp → Reads cfg i (sp ++ q :: double q s) [⟨.str 0 (s.length + 1), q :: s⟩]
  | token {i sp p t s ts} : Blank sp → Spelled p t → Reads cfg (i + 1) s ts → Reads cfg i (sp ++ p ++ s) (t :: ts)

/-! ## What the programmer writes -/

/-- `!` in front of the characters that have a meaning inside of `<>` -/
def escape : Str → Str
  | [] => []
  | c :: s => if c ∈ [60, 62, 33, 34, 39, 92] then 33 :: c :: escape s else c :: escape s

inductive Lexeme
  /-- identifier or reserved word -/
  | name (s : Str)
  | backquoted (s : Str)
  /-- integer `s` of value `v` -/
  | number (s : Str) (v : Nat)
  /-- string in quotes `q` -/
  | quoted (q : Nat) (s : Str)
  /-- `<s>` -/
  | literal (s : Str)
  | sym (s : Str)
  /-- `=` -/
  | assign
  /-- operator in the condition of an HLL directive -/
  | compare (s : Str)

/-- how it is written -/
def Lexeme.text : Lexeme → Str
  | name s => s
  | backquoted s => 96 :: s ++ [96]
  | number s _ => s
  | quoted q s => q :: double q s ++ [q]
  | literal s => 60 :: escape s ++ [62]
  | sym s => s
  | assign => [61]
  | compare s => s

/-- the token of a name -/
def nameKind : Res → Kind
  | .none => .id
  | .instr tv => .instr tv
  | .reg tv => .reg tv
  | .directive tv dt _ => .directive tv dt
  | .unary tv => .unary tv
  | .binary tv => .binary tv
  | .stype tv => .stype tv
  | .resId tv => .resId tv

/-- `Means cfg lx rest t`: the token the parser has to see for the lexeme before `rest`. The token of a number has base and number of digits, C03 is
the property that says that the evaluator computes the value of the literal from them (see `number_value`). -/
inductive Means (cfg : Cfg) : Lexeme → Str → Token → Prop
  | name (s rest) : Means cfg (.name s) rest ⟨nameKind (cfg.resword s), s⟩
  | backquoted (s rest) : Means cfg (.backquoted s) rest ⟨.id, s⟩
  | number (s v base len rest) : Verif.Num.getNumber cfg.radix (s ++ rest) = ⟨.num, base, len, s, rest⟩ → Means cfg (.number s v) rest ⟨.num base len, s⟩
  | quoted (q s rest) : Means cfg (.quoted q s) rest ⟨.str q s.length, q :: s ++ [q]⟩
  | literal (s rest) : Means cfg (.literal s) rest ⟨.str 60 s.length, s⟩
  | sym (s rest) : Means cfg (.sym s) rest ⟨.sym, s⟩
  | assign (rest) : Means cfg .assign rest ⟨.directive T_EQU DRT_EQUALSGN, [61]⟩
  | compare (s rest) : Means cfg (.compare s) rest ⟨.str 0 s.length, s⟩

/-- the last token is a register, an identifier, `)` or `]`: a dot behind it is the operator -/
def EndsOperand (toks : List Token) : Prop :=
  ∃ t, toks.getLast? = some t ∧ ((∃ tv, t.kind = .reg tv) ∨ t.kind = .id ∨ t = ⟨.sym, [41]⟩ ∨ t = ⟨.sym, [93]⟩)

/-- `Fits cfg toks f lx rest`: the lexeme can stand behind the tokens `toks` and before the text `rest`; `f` are the flags of the directive of the
line. These are the rules of "maximal munch". -/
inductive Fits (cfg : Cfg) (toks : List Token) (f : Nat) : Lexeme → Str → Prop
  | name {c s rest} : isIdStart c = true → (∀ x ∈ s, isIdChar x = true) → (c :: s).length ≤ 247 → c :: s ≠ [63] → isIdChar (hd rest) = false →
      (∀ tv, cfg.resword (c :: s) = .reg tv → hd (skipSp rest) ≠ 123) → (∀ df, cfg.resword (c :: s) ≠ .directive T_COMMENT DRT_CONDDIR df) →
      Fits cfg toks f (.name (c :: s)) rest
  /-- `.if`, or any name with a dot if OPTION DOTNAME is on -/
  | dotted {c s rest} : isIdChar c = true → (∀ x ∈ s, isIdChar x = true) → (46 :: c :: s).length ≤ 247 → isIdChar (hd rest) = false →
      ¬ EndsOperand toks → (cfg.resword (46 :: c :: s) ≠ .none ∨ cfg.dotname = true) →
      (∀ tv, cfg.resword (46 :: c :: s) = .reg tv → hd (skipSp rest) ≠ 123) →
      (∀ df, cfg.resword (46 :: c :: s) ≠ .directive T_COMMENT DRT_CONDDIR df) →
      Fits cfg toks f (.name (46 :: c :: s)) rest
  | backquoted {s rest} : cfg.strict = false → 96 ∉ s → 59 ∉ s → Fits cfg toks f (.backquoted s) rest
  | number {c s v rest} : isDigit c = true → Verif.Num.Spec.Literal cfg.radix (c :: s ++ rest) v rest → Fits cfg toks f (.number (c :: s) v) rest
  | quoted {q s rest} : q = 34 ∨ q = 39 → s.length < 992 → hd rest ≠ q → Fits cfg toks f (.quoted q s) rest
  | literal {s rest} : cexpr f = false → s.length < 992 → Fits cfg toks f (.literal s) rest
  | assign {rest} : hd rest ≠ 61 → Fits cfg toks f .assign rest
  | compare2 {s rest} : cexpr f = true → s ∈ [[61, 61], [33, 61], [60, 61], [62, 61], [38, 38], [124, 124]] → Fits cfg toks f (.compare s) rest
  | compare1 {c rest} : cexpr f = true → c ∈ [33, 60, 62] → hd rest ≠ 61 → Fits cfg toks f (.compare [c]) rest
  | compareBit {c rest} : cexpr f = true → c ∈ [38, 124] → hd rest ≠ c → Fits cfg toks f (.compare [c]) rest
  | punct {c rest} : c ∈ [40, 41, 42, 43, 44, 47] → Fits cfg toks f (.sym [c]) rest
  | colon {rest} : hd rest ≠ 58 → Fits cfg toks f (.sym [58]) rest
  | colon2 {rest} : Fits cfg toks f (.sym [58, 58]) rest
  | minus {rest} : hd rest ≠ 62 → Fits cfg toks f (.sym [45]) rest
  | arrow {rest} : Fits cfg toks f (.sym [45, 62]) rest
  | amp {rest} : cexpr f = false → Fits cfg toks f (.sym [38]) rest
  | percent {rest} : isOut rest = false → (cfg.dflt = true → toks ≠ []) → Fits cfg toks f (.sym [37]) rest
  | dot {rest} : (EndsOperand toks ∨ isIdChar (hd rest) = false) → Fits cfg toks f (.sym [46]) rest
  | lbracket {rest} : hd (skipSp rest) ≠ 123 → hd (skipSp rest) ≠ 43 → Fits cfg toks f (.sym [91]) rest
  | rbracket {rest} : hd (skipSp rest) ≠ 123 → Fits cfg toks f (.sym [93]) rest
  | query {rest} : isIdChar (hd rest) = false → Fits cfg toks f (.sym [63]) rest

/-- The flags after a token: those of the first directive; an argument list of a macro function inside an HLL condition is not read as condition. -/
def flagsAfter (cfg : Cfg) (toks : List Token) (f : Nat) (lx : Lexeme) : Nat :=
  match lx with
  | .name s => match cfg.resword s with
    | .directive _ _ df => if f = 0 then df else f
    | _ => f
  | .sym [40] =>
    if cexpr f then
      match toks.getLast? with
      | some ⟨.id, t⟩ => if cfg.macroFn t then f - 1 else f
      | _ => f
    else f
  | _ => f

/-- what may stand behind the last token (or behind the backslash): nothing but white space and a comment -/
def Ends (cfg : Cfg) (s : Str) : Prop := Blank s ∨ (cfg.dflt = true ∧ ∃ sp x, Blank sp ∧ s = sp ++ 59 :: x)

/-- the statement consists of one line even if it ends with a comma: instructions, macros without multi-line parameters, and some directives -/
def OneLine (cfg : Cfg) (t : Token) : Prop :=
  (∃ tv, t.kind = .instr tv) ∨ (t.kind = .id ∧ cfg.macro1 t.text = true) ∨
  (∃ tv dt, t.kind = .directive tv dt ∧ (tv = T_ECHO ∨ tv = T_INCLUDE ∨ tv = T_FORC ∨ tv = T_IRPC))

/-- the first token behind a label -/
def stmtHead (toks : List Token) : Option Token :=
  match toks with
  | _ :: ⟨.sym, [58]⟩ :: r => r.head?
  | t => t.head?

/-- the comma at the end of these tokens continues the line -/
def Continues (cfg : Cfg) (toks : List Token) : Prop :=
  toks.length > 1 ∧ toks.getLast? = some ⟨.sym, [44]⟩ ∧ cfg.source = true ∧
  (∀ dt s, toks[1]? ≠ some ⟨.directive T_EQU dt, s⟩) ∧ ∀ t, stmtHead toks = some t → ¬ OneLine cfg t

/-- `Written cfg toks f s more toks' rest more'`: the logical line that goes on with `s` and the physical lines `more`, behind the tokens `toks`,
is written as lexemes and has the tokens `toks'` altogether; the lines `more'` do not belong to it. -/
inductive Written (cfg : Cfg) : List Token → Nat → Str → List Str → List Token → List Str → Prop
  | done {toks f s more} : Ends cfg s → (¬ Continues cfg toks ∨ more = []) → Written cfg toks f s more toks more
  | cons {toks f sp lx t rest more toks' more'} : Blank sp → Means cfg lx rest t → Fits cfg toks f lx rest →
      Written cfg (toks ++ [t]) (flagsAfter cfg toks f lx) rest more toks' more' →
      Written cfg toks f (sp ++ lx.text ++ rest) more toks' more'
  /-- a backslash joins the line with the next one -/
  | backslash {toks f sp s l more toks' more'} : cfg.dflt = true ∨ cfg.tokLine = true → Blank sp →
      (Blank s ∨ ∃ sp' x, Blank sp' ∧ s = sp' ++ 59 :: x) →
      Written cfg toks f l more toks' more' → Written cfg toks f (sp ++ 92 :: s) (l :: more) toks' more'
  /-- a blank line behind a comma is the end -/
  | commaBlank {toks f s l more} : Ends cfg s → Continues cfg toks → Blank l → Written cfg toks f s (l :: more) toks more
  /-- a comma at the end joins the lines too -/
  | comma {toks f s l more toks' more'} : Ends cfg s → Continues cfg toks → ¬ Blank l →
      Written cfg toks f l more toks' more' → Written cfg toks f s (l :: more) toks' more'

end Verif.Lex.Spec
