import Verif.CondAsm.Model
/-!
# Model of running the lines of a macro: EXITM and GOTO in `RunMacro` (`/repo/expans.c` 639-835)

The lines are those of the macro after the replacement of parameters and locals (C16). Conditional assembly is the model of
`Verif.CondAsm`. Not modelled: the value of EXITM, listing, malformed label lines, END, redefinition of the macro by itself.
-/
namespace Verif.MacroRun
open Verif.CondAsm (State Dir Cond World IfState Err prepare step)

abbrev Text := List Char

/-- What happens. -/
inductive Event
  | cond (e : CondAsm.Event)
  /-- MACRO_LABEL_NOT_DEFINED -/
  | noLabel (l : Text)
  deriving DecidableEq, Repr

/-- A line of the macro. `label raw`: a line with a `:` in the first column (macro.c 522-528 removes blanks in front of it),
`raw` is the text behind it. -/
inductive Line
  | cond (l : CondAsm.Line)
  | exitm
  | goto (l : Text)
  | label (raw : Text)
  deriving DecidableEq, Repr

/-- `isspace` -/
def isSpace (c : Char) : Bool := c == ' ' || c == '\t' || c == '\n' || c == '\r' || c == '\x0b' || c == '\x0c'

/-- `is_valid_id_char`, H/globals.h: letters, digits, `_ @ $ ?` -/
def isIdChar (c : Char) : Bool := c.isAlphanum || c == '_' || c == '@' || c == '$' || c == '?'

/-- `tolower` -/
def lower (c : Char) : Char := c.toLower

/-- `_memicmp( ptr, str, len ) == 0` where `len` is the length of `str`. -/
def memieq : Text → Text → Bool
  | _, [] => true
  | [], _ :: _ => false
  | a :: s, b :: t => lower a == lower b && memieq s t

/-- expans.c 741-755: is the line with this text behind the `:` the destination? -/
def isDest (raw target : Text) : Bool :=
  let p := raw.dropWhile isSpace
  memieq p target && !(((p.drop target.length).head?).map isIdChar).getD false

/-- expans.c 729-757: the lines behind the destination. -/
def findLabel (target : Text) : List Line → Option (List Line)
  | [] => none
  | .label raw :: t => if isDest raw target then some t else findLabel target t
  | _ :: t => findLabel target t

/-- SkipMacro, expans.c 147-158: only Tokenize sees the lines, so conditional directives are noticed but their conditions are
not evaluated (tokenize.c 1439-1459). -/
def skipMacro (s : State) : List Line → State × List Event
  | [] => (s, [])
  | .cond (.dir d) :: t =>
    let p := prepare s d
    let r := skipMacro p.1 t
    (r.1, p.2.map (fun e => .cond (.err e)) ++ r.2)
  | _ :: t => skipMacro s t

/-- Why the lines are left. -/
inductive Ctl
  | done
  | exitm
  | goto (l : Text)
  deriving DecidableEq, Repr

/-- The loop over the lines, expans.c 677-790, up to EXITM or GOTO; returns the lines left. -/
def lines {σ : Type} (W : World σ) (sw : State × σ) : List Line → (State × σ) × List Event × Ctl × List Line
  | [] => (sw, [], .done, [])
  | .cond l :: t =>
    let r := step W sw l
    let q := lines W r.1 t
    (q.1, r.2.map .cond ++ q.2.1, q.2.2)
  | .label _ :: t => lines W sw t
  | .exitm :: t => if sw.1.curr = .active then (sw, [], .exitm, t) else lines W sw t
  | .goto l :: t => if sw.1.curr = .active then (sw, [], .goto l, t) else lines W sw t

/-- Running the macro with the lines `all` from the lines `rest` on; `old`: `oldifnesting`, `jumped`: `cntgoto` > 0. The Bool
of the result is `is_exitm`. The fuel `n` limits the number of jumps. -/
def runLines {σ : Type} (W : World σ) (all : List Line) (old : Nat) : Nat → Bool → State × σ → List Line →
    Option ((State × σ) × List Event × Bool)
  | 0, _, _, _ => none
  | n + 1, jumped, sw, rest =>
    match lines W sw rest with
    | (sw1, ev, .done, _) => some (sw1, ev, false)
    | (sw1, ev, .exitm, t) =>
      let r := if jumped then skipMacro { sw1.1 with lvl := old } all else skipMacro sw1.1 t
      some ((r.1, sw1.2), ev ++ r.2, true)
    | (sw1, ev, .goto l, t) =>
      match findLabel l all with
      | none =>
        let r := skipMacro sw1.1 t
        some ((r.1, sw1.2), ev ++ [.noLabel l] ++ r.2, false)
      | some t' =>
        (runLines W all old n true ({ sw1.1 with lvl := old }, sw1.2) t').map fun (x, ev', b) => (x, ev ++ ev', b)

/-- RunMacro from `if ( mi.startline )` on, expans.c 655-826: `oldifnesting` is the nesting level of the IF blocks. -/
def runMacro {σ : Type} (W : World σ) (n : Nat) (all : List Line) (sw : State × σ) :=
  runLines W all sw.1.lvl n false sw all

end Verif.MacroRun
