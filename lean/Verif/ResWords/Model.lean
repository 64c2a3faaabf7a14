import Verif.Symbols.Model
/-!
# The table of reserved words (reswords.c)

Modelled: `get_hash`, `FindResWord`, `AddResWord`, `RemoveResWord`, `RenameKeyword`,
`Set64Bit` (its effect on the hash table), `DisableKeyword`, and the two OPTION handlers that call
them, `ResWordsInit`. Loops over the linked lists are modelled as loops that may not terminate.

Left out: `IsKeywordDisabled` (no state change), `optable_idx` (the instruction form index changed by
`Set64Bit`) and `ResWordsFini`. Name lengths are unbounded (uint_8 in the code; identifiers are
limited to 247 characters by the tokenizer).
The contents of the tables (names, flags, patch tables) are a parameter, `Cfg`.
-/

namespace Verif.ResWords

open Verif.Symbols (Name lower)

/-- An index into `ResWordTable[]`; 0 is `T_NULL`. -/
abbrev Tok := Nat

/-- reswords.c 24 -/
def TABITEMS : Nat := 1900

/-- reswords.c 958-969 `get_hash` of the first `size` bytes (`s` = those bytes). -/
def getHash (s : Name) : Nat :=
  let h : BitVec 64 := s.foldl
    (fun h c => (h ^^^ ((c ||| 0x20#8).signExtend 64)) * 1099511628211#64) 14695981039346656037#64
  (((h >>> 49) ^^^ h) &&& 0x3fff#64).toNat % TABITEMS

/-- The constant tables. -/
structure Cfg where
  /-- number of entries of `ResWordTable[]` -/
  count : Nat
  /-- the keywords as written in special.h, directve.h, instruct.h, instravx.h -/
  keyword : Tok → Name
  /-- `ResWordTable[]` flag RWF_IA32 -/
  ia32 : Tok → Bool
  /-- `ResWordTable[]` flag RWF_X64 -/
  x64 : Tok → Bool
  /-- the tokens visited by the loops over `patchtab64` (reswords.c 1154-1157):
  from each entry on while the flag RWF_X64 is set -/
  patch64 : List Tok
  /-- the same for `patchtab32` -/
  patch32 : List Tok
  /-- T_SYSCALL -/
  sysTok : Tok
  /-- "syscall_" -/
  strSyscall_ : Name

/-- Where the name of a keyword is stored. -/
inductive Where
  | table   -- inside resw_strings (this includes strSyscall_, reswords.c 300)
  | heap    -- allocated by RenameKeyword
  deriving DecidableEq, Repr

/-- `struct rename_node`. -/
structure Ren where
  tok : Tok
  /-- bytes at the original name pointer -/
  name : Name
  len : Nat

/-- The variables of reswords.c. -/
@[ext] structure St where
  /-- `resw_table[]` -/
  tab : Nat → Tok
  /-- `ResWordTable[].next` -/
  next : Tok → Tok
  /-- the bytes at `ResWordTable[].name` (at least `len` of them) -/
  name : Tok → Name
  /-- the storage `ResWordTable[].name` points into -/
  loc : Tok → Where
  /-- `ResWordTable[].len` -/
  len : Tok → Nat
  /-- `ResWordTable[].flags & RWF_DISABLED` -/
  disabled : Tok → Bool
  /-- `Removed.Head`, `Removed.Tail` -/
  head : Tok
  tail : Tok
  /-- `renamed_keys` -/
  renamed : List Ren
  /-- `b64bit` -/
  b64 : Bool
  /-- the static variable `syscallname` of `Set64Bit` -/
  sysName : Name

/-- The first `len` bytes of the name: the current keyword. -/
def St.word (st : St) (t : Tok) : Name := (st.name t).take (st.len t)

/-- Equality of `_memicmp` on two names of equal length. -/
def same (a b : Name) : Bool := a.length == b.length && a.map lower == b.map lower

def upd {α} (f : Nat → α) (i : Nat) (v : α) : Nat → α := fun j => if j = i then v else f j

/-- reswords.c 980-988: the loop of `FindResWord`. -/
def findLoop (st : St) (n : Name) (i : Tok) : Option Tok :=
  if i = 0 then some 0
  else if same n (st.word i) then some i
  else findLoop st n (st.next i)
partial_fixpoint

/-- reswords.c 971-990 `FindResWord`; 0 = not found. -/
def findResWord (st : St) (n : Name) : Option Tok := findLoop st n (st.tab (getHash n))

/-- reswords.c 1008: the loop of `AddResWord`; returns `old`. -/
def addLoop (st : St) (token : Tok) (curr old : Tok) : Option Tok :=
  if curr ≠ 0 ∧ st.len curr ≤ st.len token then addLoop st token (st.next curr) curr
  else some old
partial_fixpoint

/-- reswords.c 994-1020 `AddResWord`. -/
def addResWord (st : St) (token : Tok) : Option St :=
  let i := getHash (st.word token)
  (addLoop st token (st.tab i) 0).map fun old =>
    if old = 0 then
      { st with next := upd st.next token (st.tab i), tab := upd st.tab i token }
    else
      let st := { st with next := upd st.next token (st.next old) }
      { st with next := upd st.next old token }

/-- reswords.c 1036-1045: the loop of `RemoveResWord` over bucket `i`. -/
def removeLoop (st : St) (token : Tok) (i : Nat) (curr old : Tok) : Option St :=
  if curr = 0 then some st
  else if curr = token then
    if old ≠ 0 then some { st with next := upd st.next old (st.next curr) }
    else some { st with tab := upd st.tab i (st.next curr) }
  else removeLoop st token i (st.next curr) curr
partial_fixpoint

/-- reswords.c 1024-1047 `RemoveResWord`. -/
def removeResWord (st : St) (token : Tok) : Option St :=
  let i := getHash (st.word token)
  removeLoop st token i (st.tab i) 0

/-- reswords.c 1098: `for (curr = renamed_keys.head, prev = NULL; curr; prev = curr)`. The loop does
*not* advance `curr`. Result: the list without the node and the node if the original name is
restored. -/
def renSearch (l : List Ren) (token : Tok) (new : Name) : Option (Option (Ren × List Ren)) :=
  match l with
  | [] => some none
  | r :: rs =>
    if r.tok = token then
      if r.len = new.length ∧ r.name.take new.length = new then some (some (r, rs))
      else some none
    else renSearch l token new
partial_fixpoint

/-- reswords.c 1121-1126: the tail of `RenameKeyword`: set the new name and enter the word. -/
def setName (st : St) (token : Tok) (name : Name) (loc : Where) (len : Nat) : St :=
  { st with name := upd st.name token name, loc := upd st.loc token loc, len := upd st.len token len }

/-- reswords.c 1063-1127 `RenameKeyword`. -/
def renameKeyword (st : St) (token : Tok) (new : Name) : Option St :=
  if same new (st.word token) then some st
  else do
    let st ← removeResWord st token
    match st.loc token with
    | .table =>
      let st := { st with renamed := st.renamed ++ [⟨token, st.name token, st.len token⟩] }
      addResWord (setName st token new .heap new.length) token
    | .heap =>
      match ← renSearch st.renamed token new with
      | some (r, rs) =>
        addResWord (setName { st with renamed := rs } token r.name .table r.len) token
      | none => addResWord (setName st token new .heap new.length) token

/-- The loops of `Set64Bit` over a patch table: apply `f` to the words that are not disabled. -/
def forToks (f : St → Tok → Option St) (st : St) : List Tok → Option St
  | [] => some st
  | t :: ts =>
    if st.disabled t then forToks f st ts
    else do forToks f (← f st t) ts

/-- reswords.c 1130-1189 `Set64Bit`. -/
def set64Bit (cfg : Cfg) (st : St) (newmode : Bool) : Option St :=
  if newmode = st.b64 then some st
  else if newmode then do
    let st ← removeResWord st cfg.sysTok
    let st := { st with sysName := st.name cfg.sysTok }
    let st := setName st cfg.sysTok cfg.strSyscall_ .table (st.len cfg.sysTok + 1)
    let st ← addResWord st cfg.sysTok
    let st ← forToks addResWord st cfg.patch64
    let st ← forToks removeResWord st cfg.patch32
    return { st with b64 := newmode }
  else do
    let st ← forToks removeResWord st cfg.patch64
    let st ← forToks addResWord st cfg.patch32
    let st ← removeResWord st cfg.sysTok
    let st := setName st cfg.sysTok st.sysName .table (st.len cfg.sysTok - 1)
    let st ← addResWord st cfg.sysTok
    return { st with b64 := newmode }

/-- reswords.c 1192-1206 `DisableKeyword`. -/
def disableKeyword (st : St) (token : Tok) : Option St :=
  if st.disabled token then some st
  else do
    let st ← removeResWord st token
    let st := { st with next := upd st.next token 0, disabled := upd st.disabled token true }
    if st.head = 0 then return { st with head := token, tail := token }
    else return { st with next := upd st.next st.tail token, tail := token }

/-- reswords.c 1245-1279 `ResWordsInit`: the loop over `ResWordTable[]`. -/
def initLoop (cfg : Cfg) (st : St) : List Tok → Option St
  | [] => some st
  | t :: ts =>
    let st := setName st t (cfg.keyword t) .table (cfg.keyword t).length
    if cfg.x64 t then initLoop cfg st ts
    else do initLoop cfg (← addResWord st t) ts

/-- The tokens `1 .. count-1`. -/
def Cfg.toks (cfg : Cfg) : List Tok := (List.range cfg.count).filter (fun t => decide (t ≠ 0))

/-- reswords.c 1245-1279: program start. -/
def resWordsInit (cfg : Cfg) : Option St :=
  initLoop cfg ⟨fun _ => 0, fun _ => 0, fun _ => [], fun _ => .table, fun _ => 0, fun _ => false,
    0, 0, [], false, []⟩ cfg.toks

/-- What the source does. -/
inductive Op
  /-- the tokenizer looks a name up (tokenize.c 1006) -/
  | find (n : Name)
  /-- OPTION NOKEYWORD:<n> (option.c 501-508) -/
  | noKeyword (n : Name)
  /-- OPTION RENAMEKEYWORD:<old>=new (option.c 995-999) -/
  | rename (old new : Name)
  /-- SEGMENT, ENDS, .MODEL, cpu directives (segment.c 441) -/
  | set64 (b : Bool)

/-- One operation; the result is the token found (0 if none; 0 for `set64`). -/
def step (cfg : Cfg) (st : St) : Op → Option (St × Tok)
  | .find n => do let t ← findResWord st n; return (st, t)
  | .noKeyword n => do
    let t ← findResWord st n
    if t ≠ 0 then do let st ← disableKeyword st t; return (st, t)
    else return (st, 0)
  | .rename old new => do
    let t ← findResWord st old
    if t ≠ 0 then do let st ← renameKeyword st t new; return (st, t)
    else return (st, 0)   -- RESERVED_WORD_EXPECTED
  | .set64 b => do let st ← set64Bit cfg st b; return (st, 0)

/-- A history. -/
def run (cfg : Cfg) (st : St) : List Op → Option (St × List Tok)
  | [] => some (st, [])
  | o :: os => do
    let (st, r) ← step cfg st o
    let (st, rs) ← run cfg st os
    return (st, r :: rs)

end Verif.ResWords
