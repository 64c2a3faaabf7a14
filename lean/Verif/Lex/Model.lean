import Verif.Num.Model
/-!
# Model of the tokenizer (`/repo/tokenize.c`)

Characters are byte codes (`Nat`), the terminating NUL is the end of the list. The model covers `Tokenize` and all functions it calls
except: EVEX decorators (`get_decos`, `get_broads`, `{evex}`, BCST: a `{` at one of these places gives `outside`), `{}`-literals
(also `outside`), the mnemonics rewritten by pseudoFilter.c (`Cfg.resword` does not return them), and the check of the IF state
(conditional blocks are C01; the line is in an active block). `EmitError` without return is `error`: the line is not assembled.
Not modelled: the lengths of joined lines (MAX_LINE_LEN), the token string buffer, `commentbuffer` (listing), M510.
`more` are the lines `GetTextLine` (input.c 685) would deliver next from the current file or macro. -/
namespace Verif.Lex
open Verif.Num (hd toLower isIdChar getNumber)

abbrev Str := List Nat

/-- `isspace`, and `islspace` of `ltype.c` -/
def isSpace (c : Nat) : Bool := c = 32 ∨ (9 ≤ c ∧ c ≤ 13)
/-- `isldigit` -/
def isDigit (c : Nat) : Bool := 48 ≤ c ∧ c ≤ 57
/-- `is_valid_id_start`, tokenize.c 1172 -/
def isIdStart (c : Nat) : Bool := (97 ≤ toLower c ∧ toLower c ≤ 122) ∨ c = 95 ∨ c = 64 ∨ c = 36 ∨ c = 63

def skipSp (s : Str) : Str := s.dropWhile isSpace

/-- H/globals.h 68-71 -/
def maxString : Nat := 992
def maxToken : Nat := 992
def maxId : Nat := 247

/-- What `FindResWord` and `SpecialTable` say about a name (tokenize.c 1006-1160): token value; for directives also `bytval` (the type of the
directive) and `value` (the DF_ flags). -/
inductive Res
  | none | instr (tv : Nat) | reg (tv : Nat) | directive (tv dt df : Nat) | unary (tv : Nat) | binary (tv : Nat) | stype (tv : Nat) | resId (tv : Nat)
  deriving DecidableEq, Repr

/-- The state of the assembler the tokenizer looks at. -/
structure Cfg where
  resword : Str → Res
  /-- OPTION DOTNAME -/
  dotname : Bool
  /-- option -Zne -/
  strict : Bool
  radix : Nat
  /-- the name is a macro function -/
  macroFn : Str → Bool
  /-- the name is a macro without multi-line parameter -/
  macro1 : Str → Bool
  /-- flags == TOK_DEFAULT -/
  dflt : Bool
  /-- flags & TOK_LINE -/
  tokLine : Bool
  /-- ( Parse_Pass == PASS_1 || UseSavedState == FALSE ) && start == 0 -/
  source : Bool

/-- `tokenarray[].token` with `tokval`, `dirtype`, `numbase`/`itemlen`, `string_delim`/`stringlen`, `floattype`. `sym`: the tokens that are only their text. -/
inductive Kind
  | id | num (base len : Nat) | badNum | float (ty : Nat) | str (delim len : Nat)
  | instr (tv : Nat) | reg (tv : Nat) | directive (tv dt : Nat) | unary (tv : Nat) | binary (tv : Nat) | stype (tv : Nat) | resId (tv : Nat)
  | sym
  deriving DecidableEq, Repr

structure Token where
  kind : Kind
  text : Str
  deriving DecidableEq, Repr

/-- DF_CEXPR, DF_STRPARM, DF_NOCONCAT, H/parser.h 232-238 -/
def cexpr (f : Nat) : Bool := f % 2 = 1
def strparm (f : Nat) : Bool := f / 2 % 2 = 1
def noconcat (f : Nat) : Bool := f / 32 % 2 = 1

/-- T_ECHO, T_EQU, T_COMMENT ...: any distinct numbers. -/
def T_EQU : Nat := 1
def T_ECHO : Nat := 2
def T_COMMENT : Nat := 3
def T_INCLUDE : Nat := 4
def T_FORC : Nat := 5
def T_IRPC : Nat := 6
def DRT_CONDDIR : Nat := 1
def DRT_EQUALSGN : Nat := 2
def DRT_ECHO : Nat := 3

/-! ## Strings -/

/-- `ConcatLine`, tokenize.c 327-353: `src` begins with the backslash. The new text at `src` and the remaining lines; `none` = EMPTY. -/
def concatLine (src : Str) (cnt : Nat) (more : List Str) : Option (Str × List Str) :=
  if skipSp (src.drop 1) = [] ∨ hd (skipSp (src.drop 1)) = 59 then
    match more with
    | [] => none
    | l :: ms => some ((if cnt = 0 then [32] else []) ++ skipSp l, ms)
  else none

/-- The string behind an opening quote, tokenize.c 374-402: text, count, closed?, rest. `none`: too long. -/
def quoted (q : Nat) : Str → Nat → Option (Str × Nat × Bool × Str)
  | [], n => if n ≥ maxString then none else if n + 1 = maxString then none else some ([], n + 1, false, [])
  | [c], n =>
    if n ≥ maxString then none
    else if c = q then some ([q], n, true, [])
    else (quoted q [] (n + 1)).map fun r => (c :: r.1, r.2)
  | c :: d :: s, n =>
    if n ≥ maxString then none
    else if c = q then
      if d = q then (quoted q s (n + 1)).map fun r => (q :: r.1, r.2) else some ([q], n, true, d :: s)
    else (quoted q (d :: s) (n + 1)).map fun r => (c :: r.1, r.2)

/-- A quoted part inside of `<>`, tokenize.c 452-484 (behind the quote): text with the closing quote, count, rest. `none`: no closing quote, the
scan restarts behind the opening quote. -/
def inQuote (q : Nat) : Str → Nat → Option (Str × Nat × Str)
  | [], _ => none
  | [c], n => if c = q then some ([c], n + 1, []) else none
  | c :: d :: s, n =>
    if c = q then some ([c], n + 1, d :: s)
    else if n ≥ maxString - 1 then none
    else if c = 33 then (inQuote q s (n + 1)).map fun r => (d :: r.1, r.2)
    else (inQuote q (d :: s) (n + 1)).map fun r => (c :: r.1, r.2)

theorem inQuote_lt {q : Nat} : ∀ {s : Str} {n : Nat} {t : Str} {m : Nat} {r : Str}, inQuote q s n = some (t, m, r) → r.length < s.length
  | [], n, t, m, r, h => by simp [inQuote] at h
  | [c], n, t, m, r, h => by
    simp only [inQuote] at h
    split at h
    · simp only [Option.some.injEq, Prod.mk.injEq] at h; simp [← h.2.2]
    · cases h
  | c :: d :: s, n, t, m, r, h => by
    simp only [inQuote] at h
    split at h
    · simp only [Option.some.injEq, Prod.mk.injEq] at h; simp [← h.2.2]
    · split at h
      · cases h
      · split at h
        · simp only [Option.map_eq_some_iff] at h
          obtain ⟨⟨t', m', r'⟩, h1, h2⟩ := h
          have := inQuote_lt h1
          simp only [Prod.mk.injEq] at h2
          simp only [← h2.2.2, List.length_cons]; omega
        · simp only [Option.map_eq_some_iff] at h
          obtain ⟨⟨t', m', r'⟩, h1, h2⟩ := h
          have := inQuote_lt h1
          simp only [Prod.mk.injEq] at h2
          simp only [← h2.2.2, List.length_cons] at this ⊢; omega

inductive LitRes
  | closed (text : Str) (n : Nat) (rest : Str) (more : List Str)
  | tooLong
  | open (more : List Str)

/-- last character that is not a space: `*tmp` in tokenize.c 508-509. (The C code reads before the string if all characters are spaces.) -/
def lastNonSpace (dst : Str) : Nat := hd (dst.reverse.dropWhile isSpace)

/-- A `<>` literal behind the `<`, tokenize.c 426-536. -/
def lit (dflt : Bool) (f2 : Nat) (level n : Nat) (src dst : Str) (more : List Str) : LitRes :=
  if n ≥ maxString then .tooLong
  else
    match src with
    | [] =>
      if dflt = true ∧ noconcat f2 = false ∧ lastNonSpace dst = 44 then
        match more with
        | [] => .open []
        | l :: ms => lit dflt f2 level n (skipSp l) dst ms
      else .open more
    | c :: s =>
      if c = 60 then lit dflt f2 (level + 1) (n + 1) s (dst ++ [c]) more
      else if c = 62 then
        if level = 0 then .closed dst n s more else lit dflt f2 (level - 1) (n + 1) s (dst ++ [c]) more
      else if (c = 34 ∨ c = 39) ∧ strparm f2 = false then
        match h : inQuote c s (n + 1) with
        | some (t, m, r) => lit dflt f2 level m r (dst ++ c :: t) more
        | none => lit dflt f2 level (n + 1) s (dst ++ [c]) more
      else if c = 33 ∧ s ≠ [] then
        match s with
        | d :: s' => lit dflt f2 level (n + 1) s' (dst ++ [d]) more
        | [] => .tooLong -- not possible
      else if c = 92 then
        match h : concatLine (c :: s) n more with
        | some (src', ms) => lit dflt f2 level n src' dst ms
        | none => lit dflt f2 level (n + 1) s (dst ++ [c]) more
      else lit dflt f2 level (n + 1) s (dst ++ [c]) more
termination_by (more.length, src.length)
decreasing_by
  all_goals simp_wf
  all_goals try (apply Prod.Lex.right; simp; done)
  all_goals try (apply Prod.Lex.left; simp; done)
  · apply Prod.Lex.right
    have := inQuote_lt h
    simp; omega
  · apply Prod.Lex.right
    omega
  · apply Prod.Lex.left
    unfold concatLine at h
    split at h
    · split at h
      · cases h
      · simp only [Option.some.injEq, Prod.mk.injEq] at h; simp [← h.2]
    · cases h

inductive RawRes
  | done (text : Str) (n : Nat) (rest : Str) (more : List Str)
  | empty (rest : Str) (more : List Str)
  | tooLong

def RawRes.push (c : Str) : RawRes → RawRes
  | .done t n r m => .done (c ++ t) n r m
  | x => x

/-- An undelimited string, tokenize.c 539-577. -/
def raw (dflt tokLine : Bool) (n : Nat) (src : Str) (more : List Str) : RawRes :=
  if n ≥ maxString then .tooLong
  else
    match src with
    | [] => .done [] n [] more
    | c :: s =>
      if isSpace c ∨ c = 44 ∨ c = 41 ∨ c = 37 ∨ (c = 59 ∧ dflt = true) then .done [] n (c :: s) more
      else if c = 92 ∧ (dflt ∨ tokLine) then
        match h : concatLine (c :: s) n more with
        | some (src', ms) => if n ≠ 0 then raw dflt tokLine n src' ms else .empty src' ms
        | none => (raw dflt tokLine (n + 1) s more).push [c]
      else if c = 33 ∧ s ≠ [] ∧ n < maxString - 1 then
        match s with
        | d :: s' => (raw dflt tokLine (n + 1) s' more).push [c, d]
        | [] => .tooLong -- not possible
      else (raw dflt tokLine (n + 1) s more).push [c]
termination_by (more.length, src.length)
decreasing_by
  all_goals simp_wf
  all_goals try (apply Prod.Lex.right; simp; done)
  · apply Prod.Lex.left
    unfold concatLine at h
    split at h
    · split at h
      · cases h
      · simp only [Option.some.injEq, Prod.mk.injEq] at h; simp [← h.2]
    · cases h
  · apply Prod.Lex.right
    omega

/-! ## Tokens -/

inductive Out
  | tok (t : Token) (rest : Str) (f2 : Nat) (more : List Str)
  /-- nothing stored, the scan goes on; `exp`: TF3_EXPANSION -/
  | empty (rest : Str) (exp : Bool) (more : List Str)
  | error
  | outside

/-- `get_string`, tokenize.c 356-589. -/
def getString (cfg : Cfg) (f2 : Nat) (input : Str) (more : List Str) : Out :=
  match input with
  | [] => .error
  | c :: s =>
    if c = 34 ∨ c = 39 then
      match quoted c s 0 with
      | none => .error
      | some (t, n, closed, rest) => .tok ⟨.str (if closed then c else 0) n, c :: t⟩ rest f2 more
    else if c = 123 then .outside
    else if c = 60 then
      match lit cfg.dflt f2 0 0 s [] more with
      | .closed t n rest more' => .tok ⟨.str 60 n, t⟩ rest f2 more'
      | .tooLong => .error
      | .open more' =>
        if more'.length = more.length then
          match raw cfg.dflt cfg.tokLine 1 s more with
          | .done t n rest more' => .tok ⟨.str 0 n, c :: t⟩ rest f2 more'
          | .empty _ _ => .outside -- not possible
          | .tooLong => .error
        else .outside
    else
      match raw cfg.dflt cfg.tokLine 0 input more with
      | .done t n rest more' => .tok ⟨.str 0 n, t⟩ rest f2 more'
      | .empty rest more' => .empty rest false more'
      | .tooLong => .error

/-- The loop of `get_float`, tokenize.c 294-312: the text and the rest. -/
def scanFloat (dec e : Bool) : Str → Str × Str
  | [] => ([], [])
  | [c] =>
    if isDigit c ∨ (c = 46 ∧ dec = false) ∨ (toLower c = 101 ∧ e = false) then ([c], []) else ([], [c])
  | c :: d :: s =>
    if isDigit c then let r := scanFloat dec e (d :: s); (c :: r.1, r.2)
    else if c = 46 ∧ dec = false then let r := scanFloat true e (d :: s); (c :: r.1, r.2)
    else if toLower c = 101 ∧ e = false then
      if d = 43 ∨ d = 45 then let r := scanFloat dec true s; (c :: d :: r.1, r.2)
      else let r := scanFloat dec true (d :: s); (c :: r.1, r.2)
    else ([], c :: d :: s)

/-- `get_number`, tokenize.c 767-921 (`Num.getNumber`), with `get_float`. -/
def getNum (cfg : Cfg) (f2 : Nat) (input : Str) (more : List Str) : Out :=
  let t := getNumber cfg.radix input
  match t.kind with
  | .num => .tok ⟨.num t.base t.len, t.text⟩ t.rest f2 more
  | .badNum => .tok ⟨.badNum, t.text⟩ t.rest f2 more
  | .float =>
    if t.text = [] then let r := scanFloat false false input; .tok ⟨.float 0, r.1⟩ r.2 f2 more
    else .tok ⟨.float 114, t.text⟩ t.rest f2 more

/-- `get_id`, tokenize.c 952-1160; `input` is not empty. -/
def getId (cfg : Cfg) (f2 : Nat) (input : Str) (more : List Str) : Out :=
  match input with
  | [] => .error
  | c :: s =>
    let name := c :: s.takeWhile isIdChar
    let rest := s.dropWhile isIdChar
    if name.length > maxId then .error
    else if name = [63] then .tok ⟨.sym, [63]⟩ rest f2 more
    else
      match cfg.resword name with
      | .none => if c = 46 ∧ cfg.dotname = false then .tok ⟨.sym, [46]⟩ s f2 more else .tok ⟨.id, name⟩ rest f2 more
      | .instr tv => .tok ⟨.instr tv, name⟩ rest f2 more
      | .reg tv => if hd (skipSp rest) = 123 then .outside else .tok ⟨.reg tv, name⟩ (skipSp rest) f2 more
      | .directive tv dt df => .tok ⟨.directive tv dt, name⟩ rest (if f2 = 0 then df else f2) more
      | .unary tv => .tok ⟨.unary tv, name⟩ rest f2 more
      | .binary tv => .tok ⟨.binary tv, name⟩ rest f2 more
      | .stype tv => .tok ⟨.stype tv, name⟩ rest f2 more
      | .resId tv => .tok ⟨.resId tv, name⟩ rest f2 more

/-- `get_id_in_backquotes`, tokenize.c 923-949 -/
def getBack (f2 : Nat) (s : Str) (more : List Str) : Out :=
  let name := s.takeWhile fun c => c ≠ 96 && c ≠ 59
  let rest := s.dropWhile fun c => c ≠ 96 && c ≠ 59
  if hd rest = 96 then .tok ⟨.id, name⟩ (rest.drop 1) f2 more else .error

/-- `"OUT"` without regard to case, tokenize.c 623 -/
def isOut (s : Str) : Bool := (s.take 3).map toLower = [111, 117, 116] ∧ isIdChar (hd (s.drop 3)) = false

/-- `get_special_symbol`, tokenize.c 591-756. `prev`: the token before. -/
def getSpecial (cfg : Cfg) (index : Nat) (prev : Option Token) (f2 : Nat) (input : Str) (more : List Str) : Out :=
  match input with
  | [] => .error
  | c :: s =>
    if c = 58 then
      if hd s = 58 then .tok ⟨.sym, [58, 58]⟩ (s.drop 1) f2 more else .tok ⟨.sym, [58]⟩ s f2 more
    else if c = 45 then
      if hd s = 62 then .tok ⟨.sym, [45, 62]⟩ (s.drop 1) f2 more else .tok ⟨.sym, [45]⟩ s f2 more
    else if c = 37 then
      if isOut s then .tok ⟨.directive T_ECHO DRT_ECHO, 37 :: s.take 3⟩ (s.drop 3) f2 more
      else if cfg.dflt = true ∧ index = 0 then .empty s true more
      else .tok ⟨.sym, [37]⟩ s f2 more
    else if c = 40 then
      let f2' := if cexpr f2 then
          match prev with
          | some ⟨.id, t⟩ => if cfg.macroFn t then f2 - 1 else f2
          | _ => f2
        else f2
      .tok ⟨.sym, [40]⟩ s f2' more
    else if c = 41 ∨ c = 42 ∨ c = 43 ∨ c = 44 ∨ c = 46 ∨ c = 47 then .tok ⟨.sym, [c]⟩ s f2 more
    else if c = 91 then
      if hd (skipSp s) = 123 then .outside
      else .tok ⟨.sym, [91]⟩ (if hd (skipSp s) = 43 then (skipSp s).drop 1 else skipSp s) f2 more
    else if c = 93 then
      if hd (skipSp s) = 123 then .outside else .tok ⟨.sym, [93]⟩ (skipSp s) f2 more
    else if c = 61 ∧ hd s ≠ 61 then .tok ⟨.directive T_EQU DRT_EQUALSGN, [61]⟩ s f2 more
    else if cexpr f2 = true ∧ (c = 61 ∨ c = 33 ∨ c = 60 ∨ c = 62 ∨ c = 38 ∨ c = 124) then
      if c = 38 ∨ c = 124 then
        if hd s = c then .tok ⟨.str 0 2, [c, c]⟩ (s.drop 1) f2 more else .tok ⟨.str 0 1, [c]⟩ s f2 more
      else if hd s = 61 then .tok ⟨.str 0 2, [c, 61]⟩ (s.drop 1) f2 more
      else .tok ⟨.str 0 1, [c]⟩ s f2 more
    else if c = 38 then .tok ⟨.sym, [38]⟩ s f2 more
    else getString cfg f2 (c :: s) more

/-- Is a dot behind this token an operator? tokenize.c 1188 -/
def endsOperand (prev : Option Token) : Bool :=
  match prev with
  | none => false
  | some t => match t.kind with
    | .reg _ => true
    | .id => true
    | .sym => t.text = [41] || t.text = [93]
    | _ => false

/-- `GetToken`, tokenize.c 1174-1198. -/
def getToken (cfg : Cfg) (index : Nat) (prev : Option Token) (f2 : Nat) (input : Str) (more : List Str) : Out :=
  let c := hd input
  if isDigit c then getNum cfg f2 input more
  else if isIdStart c then getId cfg f2 input more
  else if c = 46 ∧ isIdChar (hd (input.drop 1)) = true ∧ endsOperand prev = false then getId cfg f2 input more
  else if c = 96 ∧ cfg.strict = false then getBack f2 (input.drop 1) more
  else getSpecial cfg index prev f2 input more

/-! ## Lines -/

/-- the second token is `=` or EQU, tokenize.c 100 -/
def isEqu (toks : List Token) : Bool :=
  match toks[1]?.map Token.kind with
  | some (.directive tv _) => tv == T_EQU
  | _ => false

/-- `IsMultiLine`, tokenize.c 91-121. -/
def isMultiLine (cfg : Cfg) (toks : List Token) : Bool :=
  if isEqu toks then false
  else
    let i : Nat := if toks[1]? = some ⟨.sym, [58]⟩ then 2 else 0
    match toks[i]? with
    | some ⟨.id, s⟩ => !cfg.macro1 s
    | some ⟨.instr _, _⟩ => false
    | some ⟨.directive tv _, _⟩ => !(tv == T_ECHO || tv == T_INCLUDE || tv == T_FORC || tv == T_IRPC)
    | _ => true

inductive Final
  /-- the tokens, TF3_EXPANSION, `ModuleInfo.inside_comment`, the lines that have not been read -/
  | done (toks : List Token) (exp : Bool) (inside : Option Nat) (more : List Str)
  | error
  | outside
  | fuel
  deriving DecidableEq

/-- `StartComment`, tokenize.c 1202-1214. -/
def startComment (toks : List Token) (exp : Bool) (rest : Str) (more : List Str) : Final :=
  match skipSp rest with
  | [] => .error
  | d :: s => .done toks exp (if s.contains d then none else some d) more

/-- `COMMENT` as first token, tokenize.c 1450-1457 -/
def isComment (toks : List Token) (t : Token) : Bool :=
  (toks.length = 0 || (toks.length = 2 && (toks[1]? = some ⟨.sym, [58]⟩ || toks[1]? = some ⟨.sym, [58, 58]⟩))) &&
  (match t.kind with | .directive tv dt => tv = T_COMMENT && dt = DRT_CONDDIR | _ => false)

/-- The loop of `Tokenize`, tokenize.c 1252-1483. The first argument bounds the number of rounds (see `tokenize`). -/
def loop (cfg : Cfg) : Nat → List Token → Bool → Nat → Str → List Str → Final
  | 0, _, _, _, _, _ => .fuel
  | n + 1, toks, exp, f2, input, more =>
    let inp := if hd (skipSp input) = 59 ∧ cfg.dflt = true then [] else skipSp input
    if inp = [] then
      if toks.length > 1 ∧ toks.getLast? = some ⟨.sym, [44]⟩ ∧ cfg.source = true ∧ isMultiLine cfg toks = true then
        match more with
        | [] => .done toks exp none []
        | l :: ms => if skipSp l = [] then .done toks exp none ms else loop cfg n toks exp f2 (skipSp l) ms
      else .done toks exp none more
    else
      match getToken cfg toks.length toks.getLast? f2 inp more with
      | .error => .error
      | .outside => .outside
      | .empty rest e more' => loop cfg n toks (exp || e) f2 rest more'
      | .tok t rest f2' more' =>
        if isComment toks t then startComment toks exp rest more'
        else if toks.length + 1 ≥ maxToken then .error
        else loop cfg n (toks ++ [t]) exp f2' rest more'

/-- `Tokenize( line, 0, tokenarray, flags )`. Every round of the loop consumes a character or a line, so the bound is never reached
(`tokenize_fuel`). -/
def tokenize (cfg : Cfg) (inside : Option Nat) (line : Str) (more : List Str) : Final :=
  match inside with
  | some d => .done [] false (if line.contains d then none else some d) more
  | none => loop cfg (line.length + 2 + (more.map fun l => l.length + 2).sum) [] false 0 line more

end Verif.Lex
