/-!
# Model of conditional assembly (`/repo/condasm.c`, call sites in `/repo/tokenize.c`, `/repo/preproc.c`)

A source text is a list of lines that have already been classified by their first token.  Lines which are
not conditional directives are opaque (`Line.plain n`).  The rest of the assembler (symbol table,
expression evaluator) is a parameter: `World`.
-/
namespace Verif.CondAsm

/-- `enum if_state`, `H/condasm.h` 34-39. -/
inductive IfState | active | inactive | done
  deriving DecidableEq, Repr

/-- `MAX_IF_NESTING`, `H/globals.h` 74. -/
def maxIfNesting : Nat := 20

/-- The static variables of `condasm.c` 67-70 (`CurrIfState`, `blocknestlevel`, `falseblocknestlevel`,
`elseoccured`).  The two counters are C `int`s that never go negative: `Nat`. -/
structure State where
  curr : IfState
  lvl : Nat
  falseLvl : Nat
  elseBits : BitVec 32
  deriving DecidableEq, Repr

/-- `CondInit`, `condasm.c` 669-675.  `elseoccured` is *not* reset there, so it is a parameter. -/
def condInit (bits : BitVec 32) : State := ⟨.active, 0, 0, bits⟩

/-- The condition classes of the directives (`H/directve.h` 157-181, `enum cond_class` in `H/condasm.h` 41-49).
`neg` distinguishes IF/IFE, IFDEF/IFNDEF, IFB/IFNB, IFDIF/IFIDN; `ci` is the I suffix of IFDIFI/IFIDNI. -/
inductive CondKind
  | num (neg : Bool)            -- CC_NUMARG: IF, IFE
  | sym (neg : Bool)            -- CC_SYMARG: IFDEF, IFNDEF
  | blk (neg : Bool)            -- CC_BLKARG: IFB, IFNB
  | lit (neg : Bool) (ci : Bool)-- CC_LITARG: IFDIF[I] (neg = false), IFIDN[I] (neg = true)
  | pass1                       -- CC_PASS1: IF1
  | pass2                       -- CC_PASS2: IF2
  deriving DecidableEq, Repr

/-- The operand tokens of a conditional directive, reduced to what `CondAsmDirective` distinguishes. -/
inductive Operand
  | expr (e : Nat)                       -- a numeric expression (opaque)
  | text (a : List UInt8)                -- one `<...>` literal
  | texts (a b : List UInt8)             -- two `<...>` literals separated by a comma
  | name (n : Nat)                       -- an identifier
  | none                                 -- nothing (T_FINAL)
  deriving DecidableEq, Repr

/-- A condition: class, operand, and whether surplus tokens follow (`tokenarray[i].token != T_FINAL`). -/
structure Cond where
  kind : CondKind
  opnd : Operand
  trailing : Bool := false
  deriving DecidableEq, Repr

inductive Dir
  | ifx (c : Cond)
  | elseifx (c : Cond)
  | els (trailing : Bool)
  | endif (trailing : Bool)
  deriving DecidableEq, Repr

inductive Line
  | plain (n : Nat)
  | dir (d : Dir)
  deriving DecidableEq, Repr

/-- Result of `EvalOperand` as used by `CondAsmDirective` (`condasm.c` 253-277). -/
inductive NumRes
  | const (v : BitVec 64)      -- EXPR_CONST
  | reloc (v : BitVec 64)      -- EXPR_ADDR, not indirect: value + symbol offset, warning
  | other                      -- anything else: CONSTANT_EXPECTED
  | error                      -- EvalOperand returned ERROR
  deriving DecidableEq, Repr

/-- The rest of the assembler as seen from conditional assembly. -/
structure World (σ : Type) where
  assemble : σ → Nat → σ              -- assemble a plain line
  evalNum : σ → Nat → NumRes          -- evaluate an expression
  isDefined : σ → Nat → Bool          -- check_defd(), condasm.c 182-196
  setif2 : σ → Bool                   -- OPTION SETIF2
  /-- value of the uninitialised variable `NextIfState` that `condasm.c` 350-353 assigns when IF2 is not allowed -/
  garbage : σ → IfState

inductive Err
  | nesting | elseTwice | noIf | constExpected | relocWarn | textRequired | syntax | if2NotAllowed | exprError
  | openBlock
  deriving DecidableEq, Repr

inductive Event
  | asm (n : Nat)            -- a plain line is handed to the assembler
  | eval (c : Cond)          -- a condition is evaluated
  | err (e : Err)            -- a diagnostic is emitted
  deriving DecidableEq, Repr

/-- C `isspace` in the "C" locale. -/
def isSpace (c : UInt8) : Bool := c == 32 || (9 ≤ c && c ≤ 13)

/-- C `tolower` in the "C" locale (used by `_stricmp`). -/
def toLower (c : UInt8) : UInt8 := if 65 ≤ c && c ≤ 90 then c + 32 else c

/-- `check_blank`, `condasm.c` 200-207. -/
def checkBlank : List UInt8 → Bool
  | [] => true
  | c :: cs => if !isSpace c then false else checkBlank cs

/-- `strcmp(a,b) != 0` / `_stricmp(a,b) != 0` as loops over the two strings. -/
def strDiff (f : UInt8 → UInt8) : List UInt8 → List UInt8 → Bool
  | [], [] => false
  | a :: as, b :: bs => if f a != f b then true else strDiff f as bs
  | _, _ => true

/-- `check_dif`, `condasm.c` 213-221. -/
def checkDif (a b : List UInt8) (sensitive : Bool) : Bool :=
  if sensitive then strDiff id a b else strDiff toLower a b

def boolState (b : Bool) : IfState := if b then .active else .inactive

/-- `conditional_assembly_prepare`, `condasm.c` 92-174. Returns the new state and the diagnostics. -/
def prepare (s : State) : Dir → State × List Err
  | .ifx _ =>
    if s.curr ≠ .active then ({ s with falseLvl := s.falseLvl + 1 }, [])
    else if s.lvl = maxIfNesting then (s, [.nesting])
    else ({ s with elseBits := s.elseBits &&& ~~~(1#32 <<< s.lvl), lvl := s.lvl + 1 }, [])
  | .elseifx _ =>
    if s.lvl ≠ 0 then
      if s.falseLvl > 0 then (s, [])
      else if s.elseBits &&& (1#32 <<< (s.lvl - 1)) ≠ 0#32 then (s, [.elseTwice])
      else ({ s with curr := if s.curr = .inactive then .active else .done }, [])
    else (s, [.noIf])
  | .els _ =>
    if s.lvl ≠ 0 then
      if s.falseLvl > 0 then (s, [])
      else if s.elseBits &&& (1#32 <<< (s.lvl - 1)) ≠ 0#32 then (s, [.elseTwice])
      else ({ s with curr := if s.curr = .inactive then .active else .done,
                     elseBits := s.elseBits ||| (1#32 <<< (s.lvl - 1)) }, [])
    else (s, [.noIf])
  | .endif _ =>
    if s.lvl ≠ 0 then
      if s.falseLvl > 0 then ({ s with falseLvl := s.falseLvl - 1 }, [])
      else ({ s with lvl := s.lvl - 1, curr := .active }, [])
    else (s, [.noIf])

/-- Result of evaluating a condition: `some st` = assigned to `CurrIfState` (label `escape`, `condasm.c` 415-420),
`none` = early return, `CurrIfState` unchanged. -/
abbrev EvalRes := Option IfState × List Err

/-- End of `CondAsmDirective` (`condasm.c` 415-420): surplus tokens are an error and leave the state alone. -/
def finish (trailing : Bool) (st : IfState) : EvalRes :=
  if trailing then (none, [.syntax]) else (some st, [])

/-- Truth of a numeric condition; `opndx.value` is the *32-bit* member of the operand union
(`condasm.c` 278-281, `H/expreval.h`), so only the low 32 bits of the 64-bit value count. -/
def numTrue (v : BitVec 64) : Bool := v.truncate 32 != 0#32

/-- The condition `switch` in `CondAsmDirective`, `condasm.c` 250-413.
Simplification: for CC_SYMARG only the forms without operand and with a plain identifier are modelled (not
`struct.member`, reserved words, FLAT), and surplus tokens are modelled without the -Zne variation. -/
def evalCond {σ} (W : World σ) (w : σ) (c : Cond) : EvalRes :=
  match c.kind with
  | .num neg =>
    match c.opnd with
    | .expr e =>
      match W.evalNum w e with
      | .const v => finish c.trailing (boolState (numTrue v != neg))
      | .reloc v => let r := finish c.trailing (boolState (numTrue v != neg)); (r.1, .relocWarn :: r.2)
      | .other => (none, [.constExpected])
      | .error => -- v2.11: don't exit, assume 0; `i = Token_Count`, so there are no surplus tokens
        (some (boolState (false != neg)), [.exprError])
    | _ => (some (boolState (false != neg)), [.exprError])
  | .lit neg ci =>
    match c.opnd with
    | .texts a b => finish c.trailing (boolState (checkDif a b (!ci) != neg))
    | _ => (none, [.textRequired])
  | .blk neg =>
    match c.opnd with
    | .text a => finish c.trailing (boolState (checkBlank a != neg))
    | _ => (none, [.textRequired])
  | .pass1 => finish c.trailing .active
  | .pass2 =>
    if W.setif2 w then finish c.trailing .active
    else let r := finish c.trailing (W.garbage w); (r.1, .if2NotAllowed :: r.2)
  | .sym neg =>
    match c.opnd with
    | .name n =>
      if c.trailing then (some (boolState (W.isDefined w n != neg)), [.syntax])
      else (some (boolState (W.isDefined w n != neg)), [])
    | _ => (some (boolState (false != neg)), [])

/-- `CondAsmDirective`, `condasm.c` 223-425 (listing output omitted). -/
def condAsmDirective {σ} (W : World σ) (w : σ) (s : State) (d : Dir) : State × List Event :=
  if s.curr ≠ .active then (s, [])
  else
    let (r, pre) : EvalRes × List Event :=
      match d with
      | .ifx c => (evalCond W w c, [.eval c])
      | .elseifx c => (evalCond W w c, [.eval c])
      | .els t => (finish t .active, [])
      | .endif t => (finish t .active, [])
    ({ s with curr := r.1.getD s.curr }, pre ++ r.2.map .err)

/-- One source line: `Tokenize` (`tokenize.c` 1431-1459) calls `prepare` for a conditional directive, and drops any
other line while the state is not active; `PreprocessLine` (`preproc.c` 1176-1189) then dispatches a conditional
directive to `CondAsmDirective` and passes other lines on. -/
def step {σ} (W : World σ) (sw : State × σ) : Line → (State × σ) × List Event
  | .plain n =>
    if sw.1.curr = .active then ((sw.1, W.assemble sw.2 n), [.asm n]) else (sw, [])
  | .dir d =>
    let p := prepare sw.1 d
    let q := condAsmDirective W sw.2 p.1 d
    ((q.1, sw.2), p.2.map .err ++ q.2)

/-- A whole source text. -/
def run {σ} (W : World σ) : State × σ → List Line → (State × σ) × List Event
  | sw, [] => (sw, [])
  | sw, l :: ls =>
    let r := step W sw l
    let r' := run W r.1 ls
    (r'.1, r.2 ++ r'.2)

/-- `CondCheckOpen`, `condasm.c` 645-652, called when a pass ends (`assemble.c` 909). -/
def condCheckOpen (s : State) : List Err := if s.lvl > 0 then [.openBlock] else []

end Verif.CondAsm
