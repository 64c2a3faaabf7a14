/-!
# Model of macro body lines: `/repo/macro.c` 64-240 and the use in `/repo/input.c` 685-730

A source line is a list of characters (bytes, 0..255) without the terminating NUL; pointers are positions in it.
-/
namespace Verif.Macro

abbrev Text := List Char

/-- `_LDIGIT`, ltype.c -/
def isDigit (c : Char) : Bool := '0' ≤ c && c ≤ '9'
/-- `is_valid_id_char`, H/globals.h 254 and ltype.c: bytes above 7Fh are not label characters. -/
def isId (c : Char) : Bool :=
  isDigit c || ('A' ≤ c && c ≤ 'Z') || ('a' ≤ c && c ≤ 'z') || c == '_' || c == '@' || c == '$' || c == '?'

/-- H/macro.h 34 -/
def placeholder : Char := '\n'

/-- What the functions get besides the line: OPTION DOTNAME, `SymCmpFunc(a, b, len) == 0` for words of the same length, and
the names of the parameters and locals. -/
structure Names where
  dotname : Bool
  same : Text → Text → Bool
  names : List Text

/-- The loop of replace_parm, macro.c 136-137: the one-based number of the first equal name. -/
def findName (same : Text → Text → Bool) (w : Text) : Nat → List Text → Option Nat
  | _, [] => none
  | count, n :: ns => if n.length = w.length ∧ same w n = true then some count else findName same w (count + 1) ns

/-- replace_parm, macro.c 120-173: new line and the returned pointer. More than 255 names: an error message, and nothing is
replaced. -/
def replaceParm (env : Names) (line : Text) (start len : Nat) : Option (Text × Nat) :=
  match findName env.same ((line.drop start).take len) 1 env.names with
  | none => none
  | some count =>
    if count ≥ 256 then none
    else
      let rest := start + len
      let start := if start ≠ 0 ∧ line[start - 1]? = some '&' then start - 1 else start
      let rest := if line[rest]? = some '&' then rest + 1 else rest
      let line' := line.take start ++ [placeholder, Char.ofNat count] ++ line.drop rest
      let start := start + 1
      -- macro.c 157-168: with no room for the index the text is moved, and the returned pointer is not advanced
      if start ≥ rest then some (line', start) else some (line', start + 1)

inductive Err
  /-- reads behind the end of the line -/
  | oob
  deriving DecidableEq, Repr

/-- Local variables of store_placeholders. -/
structure Q where
  quote : Option Char := none
  brlevel : Nat := 0
  qlevel : Nat := 0

/-- The cases of the switch other than `!`, macro.c 216-236. -/
def punct (q : Q) (c : Char) : Q :=
  if c = '<' then { q with brlevel := q.brlevel + 1 }
  else if c = '>' then
    if q.brlevel ≠ 0 then
      { q with quote := if q.qlevel = q.brlevel then none else q.quote, brlevel := q.brlevel - 1 }
    else q
  else if c = '"' ∨ c = '\'' then
    match q.quote with
    | some d => if d = c then { q with quote := none } else q
    | none => { q with quote := some c, qlevel := q.brlevel }
  else q

/-- The loop of store_placeholders, macro.c 192-238; `none`: does not terminate. The result is the line and the number of
replacements. -/
def storeLoop (env : Names) (line : Text) (p : Nat) (q : Q) (params : Nat) : Option (Except Err (Text × Nat)) :=
  match line[p]? with
  | none => return .ok (line, params)
  | some c =>
    if isDigit c then do
      let r ← storeLoop env line (p + ((line.drop p).takeWhile isId).length) q params
      return r
    else if isId c = true ∨ (c = '.' ∧ env.dotname = true ∧
        (p = 0 ∨ ∀ d, line[p - 1]? = some d → d ≠ ']' ∧ isId d = false)) then
      let p' := p + 1 + ((line.drop (p + 1)).takeWhile isId).length
      let substprf := (0 < p ∧ line[p - 1]? = some '&') ∨ line[p']? = some '&'
      if q.quote = none ∨ substprf then
        match replaceParm env line p (p' - p) with
        | some (line', p'') => do
          let r ← storeLoop env line' p'' q (params + 1)
          return r
        | none => do
          let r ← storeLoop env line p' q params
          return r
      else do
        let r ← storeLoop env line p' q params
        return r
    else if c = '!' then
      if q.quote = none then
        match line[p + 1]? with
        | none => return .error .oob -- `strchr( "<>\"'", 0 )` is not NULL: the terminator is skipped
        | some d => do
          let r ← storeLoop env line (if d = '<' ∨ d = '>' ∨ d = '"' ∨ d = '\'' then p + 2 else p + 1) q params
          return r
      else do
        let r ← storeLoop env line (p + 1) q params
        return r
    else do
      let r ← storeLoop env line (p + 1) (punct q c) params
      return r
partial_fixpoint

/-- HexDigit, macro.c 64-74. -/
def hexDigit (x : Nat) : Char :=
  let x := x % 16
  if x > 9 then Char.ofNat (x - 10 + 'A'.toNat) else Char.ofNat (x + '0'.toNat)

/-- `sprintf( dst, "%X", i )`. -/
def printX (i : Nat) : Text := (if i < 16 then [] else printX (i / 16)) ++ [hexDigit i]
termination_by i

/-- The name of a local, macro.c 95-105. -/
def localText (i : Nat) : Text :=
  '?' :: '?' :: (if i > 0xFFFF then printX i else [hexDigit (i >>> 12), hexDigit (i >>> 8), hexDigit (i >>> 4), hexDigit i])

/-- fill_placeholders, macro.c 79-118. A placeholder at the end of the text without index would read behind the end (does not
happen, `none` is not needed: it gives nothing here). The sum is computed in 32 bits. -/
def fill (argc localstart : Nat) (argv : Nat → Option Text) : Text → Text
  | [] => []
  | c :: t =>
    if c = placeholder then
      match t with
      | [] => []
      | k :: t =>
        let parmno := k.toNat - 1
        (if parmno ≥ argc then localText ((localstart + parmno - argc) % 2 ^ 32)
          else (argv parmno).getD []) ++ fill argc localstart argv t
    else c :: fill argc localstart argv t

/-- Storing a line, macro.c 583-593: the text and `ph_count`, which has 8 bits. -/
def storeLine (env : Names) (src : Text) : Option (Except Err (Text × Nat)) := do
  if env.names.length = 0 then return .ok (src, 0)
  else
    let r ← storeLoop env src 0 {} 0
    match r with
    | .ok (line, n) => return .ok (line, n % 256)
    | .error e => return .error e

/-- Getting a line of a running macro, input.c 716-727. -/
def getLine (argc localstart : Nat) (argv : Nat → Option Text) (stored : Text × Nat) : Text :=
  if stored.2 ≠ 0 then fill argc localstart argv stored.1 else stored.1

/-- RunMacro, expans.c 639-640: the locals of an expansion start at the counter `MacroLocals`; the counter afterwards. -/
def runLocals (macroLocals localcnt : Nat) : Nat × Nat := (macroLocals, macroLocals + localcnt)

end Verif.Macro
