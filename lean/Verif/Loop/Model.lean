/-!
# Model of the loop directives and of the anonymous labels

`/repo/loop.c` (REPEAT, WHILE, FORC, FOR), the part of RunMacro in `/repo/expans.c` that fetches the argument of such a loop,
and the `@@`/`@B`/`@F` labels of `/repo/label.c` and `/repo/expreval.c`.

The assembler's whole state is an arbitrary type `σ`; assembling the lines of the body with an argument is a function
`σ → σ × Bool`, the Bool is `is_exitm`. Characters are bytes other than NUL.
-/
namespace Verif.Loop

abbrev Text := List Char

/-- What EvalOperand returns: ERROR, something that is not EXPR_CONST, or a constant with the (exact) value `v`; the flag
says whether tokens are left behind it. -/
inductive Ev
  | error
  | other
  | const (v : Int) (rest : Bool)
  deriving DecidableEq, Repr

/-- `opnd.value`, H/expreval.h 81: the low 32 bits, signed. -/
def low32 (v : Int) : Int := (BitVec.ofInt 32 v).toInt

/-- loop.c 60-76: `opnd.value` after the first evaluation. Errors are shown and count as 0. -/
def firstValue : Ev → Int
  | .error => 0
  | .other => 0
  | .const v rest => if rest then 0 else low32 v

/-- loop.c 200-211: REPEAT. `value` is `macro->sym.value`. -/
def repeatLoop {σ : Type} (body : σ → σ × Bool) (value n : Int) (s : σ) : σ :=
  if value < n then
    match body s with
    | (s', true) => s'
    | (s', false) => repeatLoop body (value + 1) n s'
  else s
termination_by (n - value).toNat

/-- LoopDirective for REPEAT, loop.c 54-77 and 192-211; `lines`: the body is not empty. -/
def repeatDir {σ : Type} (lines : Bool) (body : σ → σ × Bool) (e : Ev) (s : σ) : σ :=
  if lines then repeatLoop body 0 (firstValue e) s else s

/-- loop.c 213, the condition of the WHILE loop in a later round, and 218-219. -/
def nextValue : Ev → Int
  | .error => 0
  | .other => 0
  | .const v _ => low32 v

/-- loop.c 212-222: WHILE; `none`: does not end. -/
def whileLoop {σ : Type} (body : σ → σ × Bool) (eval : σ → Ev) (value : Int) (s : σ) : Option σ :=
  if value = 0 then some s
  else
    match body s with
    | (s', true) => some s'
    | (s', false) => whileLoop body eval (nextValue (eval s')) s'
partial_fixpoint

/-- LoopDirective for WHILE. -/
def whileDir {σ : Type} (lines : Bool) (body : σ → σ × Bool) (eval : σ → Ev) (s : σ) : Option σ :=
  if lines then whileLoop body eval (firstValue (eval s)) s else some s

/-! ## FORC -/

/-- `isspace` -/
def isSpace (c : Char) : Bool := c == ' ' || c == '\t' || c == '\n' || c == '\r' || c == '\x0b' || c == '\x0c'

def nul : Char := '\x00'

/-- loop.c 102-107: the text of a literal; `raw` is the source from behind the `<` up to the next token. The text is cut at
the last `>`. -/
def cutLit (raw : Text) : Text := (raw.reverse.dropWhile (· ≠ '>')).tail.reverse

/-- loop.c 114-127: no literal, the text up to a blank. -/
def cutWord (raw : Text) : Text := raw.takeWhile (fun c => !isSpace c)

/-- loop.c 226-250: `buffer`, the length of the token, and the text behind the character. -/
def forcTok : Text → Option (Text × Nat × Text)
  | [] => none
  | c :: t =>
    if c = '!' then
      match t with
      | [] => some (['!', nul, nul], 2, [])
      | d :: t' => some (['!', d, nul], 2, t')
    else if isSpace c then some (['!', c, nul], 2, t)
    else some ([c, nul, nul], 1, t)

/-- expans.c 502-505: blanks at the end of the item are not taken. -/
def trimLen (buf : Text) : Nat → Nat
  | 0 => 0
  | i + 1 => if isSpace (buf.getD i nul) then trimLen buf i else i + 1

/-- expans.c 507-520: copying an undelimited string from position `p` to the position `stop`. -/
def copyStr (buf : Text) (p stop : Nat) : Text :=
  if p < stop then
    let q := if buf.getD p nul = '!' then p + 1 else p
    buf.getD q nul :: copyStr buf (q + 1) stop
  else []
termination_by stop - p
decreasing_by split <;> omega

/-- RunMacro for the one token of FORC, expans.c 300-326 and 500-555: the argument is the text up to the first NUL. -/
def forcArg (buf : Text) (len : Nat) : Text := (copyStr buf 0 (trimLen buf len)).takeWhile (· ≠ nul)

theorem forcTok_lt {t buf : Text} {n : Nat} {r : Text} (h : forcTok t = some (buf, n, r)) : r.length < t.length := by
  unfold forcTok at h
  split at h
  · cases h
  · split at h
    · split at h
      · cases h; simp
      · cases h; simp only [List.length_cons]; omega
    · split at h <;> cases h <;> simp

/-- loop.c 223-255: FORC. -/
def forcLoop {σ : Type} (body : Text → σ → σ × Bool) (parm : Text) (s : σ) : σ :=
  match h : forcTok parm with
  | none => s
  | some (buf, len, rest) =>
    have := forcTok_lt h
    match body (forcArg buf len) s with
    | (s', true) => s'
    | (s', false) => forcLoop body rest s'
termination_by parm.length

/-- LoopDirective for FORC. -/
def forcDir {σ : Type} (lines : Bool) (body : Text → σ → σ × Bool) (parm : Text) (s : σ) : σ :=
  if lines then forcLoop body parm s else s

/-! ## FOR -/

/-- Tokens of the argument list. `item`: any token that is copied as it stands, `lit`: a literal in `<>` without `%`. `blanks`
is the source text between the token and the next one. Not modelled: `%`, `{}`, macro function calls, undelimited strings. -/
inductive Tok
  | comma
  | item (text blanks : Text)
  | lit (inner blanks : Text)
  deriving DecidableEq, Repr

/-- The parameter of FOR: REQ, and the default value (`deflt` is NULL without one). -/
structure Parm where
  required : Bool
  deflt : Option Text
  deriving DecidableEq, Repr

def isEnd : List Tok → Bool
  | [] => true
  | .comma :: _ => true
  | _ :: _ => false

/-- The loop over the tokens of an argument, expans.c 332-545, with the tokens left at its end. -/
def takeArg : List Tok → Text × List Tok
  | [] => ([], [])
  | .comma :: t => ([], .comma :: t)
  | .item text blanks :: t =>
    let full := text ++ blanks
    let i := if isEnd t then trimLen full full.length else full.length
    let (r, rest) := takeArg t
    (full.take i ++ r, rest)
  | .lit inner _ :: t =>
    let (r, rest) := takeArg t
    (inner ++ r, rest)

theorem takeArg_le (t : List Tok) : (takeArg t).2.length ≤ t.length := by
  fun_induction takeArg t <;> simp_all <;> omega

/-- RunMacro's argument for FOR, expans.c 300-326 and 547-586: `none` for a missing required argument; otherwise the argument
and the remaining tokens. A default that is NULL is an empty text (macro.c 107-109). -/
def forArg (pm : Parm) (toks : List Tok) : Option (Text × List Tok) :=
  if isEnd toks then
    if pm.required then none else some (pm.deflt.getD [], toks)
  else some (takeArg toks)

theorem forArg_le {pm : Parm} {t : List Tok} {a r} (h : forArg pm t = some (a, r)) : r.length ≤ t.length := by
  unfold forArg at h
  split at h
  · split at h
    · cases h
    · cases h; exact Nat.le_refl _
  · have := takeArg_le t
    rw [Option.some.inj h] at this
    exact this

/-- loop.c 256-292: FOR. The Bool is set if a required argument was missing. -/
def forLoop {σ : Type} (body : Text → σ → σ × Bool) (pm : Parm) (toks : List Tok) (s : σ) : σ × Bool :=
  match toks with
  | [] => (s, false)
  | t :: ts =>
    match h : forArg pm (t :: ts) with
    | none => (s, true)
    | some (a, rest) =>
      have := forArg_le h
      match body a s with
      | (s', true) => (s', false)
      | (s', false) => forLoop body pm rest.tail s'
termination_by toks.length
decreasing_by simp_all; omega

/-- loop.c 262-270: a comma at the end that is followed by blanks gets an empty item behind it. -/
def addBlank (toks : List Tok) (trail : Text) : List Tok :=
  if toks.getLast? = some .comma ∧ trail ≠ [] then toks ++ [.lit [] []] else toks

/-- LoopDirective for FOR; `trail` is the source text behind the last token. -/
def forDir {σ : Type} (lines : Bool) (body : Text → σ → σ × Bool) (pm : Parm) (toks : List Tok) (trail : Text) (s : σ) : σ × Bool :=
  if lines then forLoop body pm (addBlank toks trail) s else (s, false)

/-! ## Anonymous labels -/

/-- `%u` of sprintf -/
def printU (n : Nat) : Text := (if n < 10 then [] else printU (n / 10)) ++ [Char.ofNat ('0'.toNat + n % 10)]
termination_by n

/-- `L&_%04u`, label.c 66 and 102. -/
def labelName (n : Nat) : Text :=
  let d := printU n
  ['L', '&', '_'] ++ List.replicate (4 - d.length) '0' ++ d

/-- A source line as far as anonymous labels go; `scope` is the procedure with OPTION SCOPED, otherwise none
(parser.c 3203). -/
inductive Line
  /-- `@@:`; the second form with two colons or the LABEL directive makes a global label -/
  | anon (dbl : Bool)
  | other
  deriving DecidableEq, Repr

structure Def where
  name : Text
  scope : Option Nat
  line : Nat
  deriving DecidableEq, Repr

/-- CreateLabel, label.c 101-107: the counter is incremented, and the label is entered. -/
def define (cnt : Nat) (scope : Option Nat) (line : Nat) : Line → Nat × List Def
  | .anon dbl =>
    let cnt := (cnt + 1) % 2 ^ 32
    (cnt, [{ name := labelName cnt, scope := if dbl then none else scope, line := line }])
  | .other => (cnt, [])

/-- A pass over the lines from number `line` on (LabelInit, label.c 58, sets the counter to 0 in each pass, assemble.c 1112):
the counter behind each line, and the labels. -/
def pass (cnt line : Nat) : List (Line × Option Nat) → List Nat × List Def
  | [] => ([], [])
  | (l, sc) :: t =>
    let (c, d) := define cnt sc line l
    let (cs, ds) := pass c (line + 1) t
    (c :: cs, d ++ ds)

/-- SymSearch: the names of the procedure first, then the global names. -/
def search (ds : List Def) (scope : Option Nat) (name : Text) : Option Def :=
  match scope with
  | none => ds.find? (fun d => d.scope == none && d.name == name)
  | some p =>
    (ds.find? (fun d => d.scope == some p && d.name == name)).or (ds.find? (fun d => d.scope == none && d.name == name))

/-- get_operand, expreval.c 1089-1096, for a `@B` (`fwd = false`) or `@F` in line number `i`: the line of the label that it
stands for. In a line the label is created before the operands are read (parser.c 3203). -/
def resolve (src : List (Line × Option Nat)) (i : Nat) (fwd : Bool) : Option Nat :=
  let (cs, ds) := pass 0 0 src
  let cnt := cs.getD i 0
  let scope := (src.getD i (.other, none)).2
  (search ds scope (labelName ((cnt + (if fwd then 1 else 0)) % 2 ^ 32))).map (·.line)

end Verif.Loop
