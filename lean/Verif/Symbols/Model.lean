/-!
# The symbol table (symbols.c, proc.c, label.c)

Two hash tables of singly linked chains, the scan cursors `lsym`/`gsym`
left behind by the search functions and written through by the insertion functions, and the per
procedure list of bucket heads saved and restored around procedures.

Simplifications, here and nowhere else:
* a symbol carries its name, its link fields and the two attributes the table code looks at
  (`state == SYM_UNDEFINED`, `scoped`); every other attribute is left out, as are the side
  effects of a search on `used` and `structLookup`;
* memory is a map from addresses to symbols, an allocation never fails and returns a fresh
  address (C29 is about the allocator); addresses are natural numbers;
* `MAX_ID_LEN` truncation of names is left out (the tokenizer enforces it);
* a procedure is identified by a number; its own entry in the global table is
  inserted by the caller with `SymLookup`/`SymCreate` as for any other symbol.
-/

namespace Verif.Symbols

/-- A name: its bytes up to, not including, the NUL. -/
abbrev Name := List (BitVec 8)

/-- symbols.h: `GHASH_TABLE_SIZE` (8192, symbols.c 32-45). -/
def GHASH : Nat := 8192
/-- symbols.c: `LHASH_TABLE_SIZE`. -/
def LHASH : Nat := 128

/-- symbols.c 155-166 `hashpjw`: FNV-1a over `(*s | ' ')` with a *signed* `char`. -/
def hashpjw (s : Name) : Nat :=
  let h : BitVec 64 := s.foldl
    (fun h c => (h ^^^ ((c ||| 0x20#8).signExtend 64)) * 1099511628211#64) 14695981039346656037#64
  (((h >>> 16) ^^^ h) &&& 0xffff#64).toNat

/-- C library `tolower` in the "C" locale, which `_memicmp` applies to each byte. -/
def lower (c : BitVec 8) : BitVec 8 :=
  if 0x41#8 ≤ c ∧ c ≤ 0x5A#8 then c + 0x20#8 else c

/-- symbols.c 168-173 `SymSetCmpFunc` and the test `len == name_size && SYMCMP(..) == 0`:
`memcmp` if the module is case sensitive, else `_memicmp`. -/
def sameName (cs : Bool) (a b : Name) : Bool :=
  a.length == b.length && (if cs then a == b else a.map lower == b.map lower)

/-- An address of a `struct asym`. -/
abbrev Ptr := Nat
/-- A procedure. -/
abbrev Proc := Nat

/-- symbols.h `struct asym`/`struct dsym`: the fields the table code uses. -/
structure Node where
  name : Name
  /-- `nextitem`: next symbol in the bucket -/
  next : Option Ptr
  /-- `e.nextll`: next bucket head in a procedure's `labellist` -/
  nextll : Option Ptr
  /-- `state == SYM_UNDEFINED` -/
  undef : Bool
  isScoped : Bool
  deriving Repr

/-- A `struct asym **`: what `lsym` and `gsym` (symbols.c 60-75) point to. -/
inductive Link
  | g (i : Nat)   -- &gsym_table[i]
  | l (i : Nat)   -- &lsym_table[i]
  | n (p : Ptr)   -- &p->nextitem
  deriving Repr

/-- The global variables of symbols.c and proc.c that the table code uses. -/
structure St where
  heap : Ptr → Node
  brk : Nat
  gtab : Nat → Option Ptr
  ltab : Nat → Option Ptr
  lsym : Link
  gsym : Link
  /-- `SymCount` -/
  count : Int
  /-- `CurrProc` -/
  cur : Option Proc
  /-- `ProcStack` -/
  stack : List Proc
  /-- `procinfo->labellist` -/
  labellist : Proc → Option Ptr
  /-- the procedure exists (was entered in pass 1) -/
  known : Proc → Bool
  /-- `ModuleInfo.case_sensitive` -/
  cs : Bool
  /-- `Parse_Pass == PASS_1` -/
  pass1 : Bool

/-- `*k` -/
def St.get (st : St) : Link → Option Ptr
  | .g i => st.gtab i
  | .l i => st.ltab i
  | .n p => (st.heap p).next

/-- `*k = v` -/
def St.set (st : St) (k : Link) (v : Option Ptr) : St :=
  match k with
  | .g i => { st with gtab := fun j => if j = i then v else st.gtab j }
  | .l i => { st with ltab := fun j => if j = i then v else st.ltab j }
  | .n p => { st with heap := fun q => if q = p then { st.heap p with next := v } else st.heap q }

/-- Assignment to the fields of the symbol at `p`. -/
def St.upd (st : St) (p : Ptr) (f : Node → Node) : St :=
  { st with heap := fun q => if q = p then f (st.heap p) else st.heap q }

/-- symbols.c 238-243, 253-258: the scan of one bucket,
`for (x = &table[i]; *x; x = &((*x)->nextitem)) if (match) return *x;`.
Returns the final value of the cursor and the symbol found. `none` = the loop never ends. -/
def walk (st : St) (name : Name) (k : Link) : Option (Link × Option Ptr) :=
  match st.get k with
  | none => some (k, none)
  | some p =>
    if sameName st.cs name (st.heap p).name then some (k, some p)
    else walk st name (.n p)
partial_fixpoint

/-- symbols.c 255-298 `SymFind` (and 300-342 `SymCheck`, 373-411 `SymFindDeclare`, which differ in
attributes not modelled): scan the local bucket if `CurrProc`, then the global one. -/
def symFind (st : St) (name : Name) : Option (St × Option Ptr) := do
  let i := hashpjw name
  let glob (st : St) : Option (St × Option Ptr) := do
    let (k, r) ← walk st name (.g (i % GHASH))
    return ({ st with gsym := k }, r)
  match st.cur with
  | none => glob st
  | some _ =>
    let (k, r) ← walk st name (.l (i % LHASH))
    let st := { st with lsym := k }
    match r with
    | some p => return (st, some p)
    | none => glob st

/-- symbols.c 344-371 `SymFindLocal`. -/
def symFindLocal (st : St) (name : Name) : Option (St × Option Ptr) :=
  match st.cur with
  | none => return (st, none)
  | some _ => do
    let (k, r) ← walk st name (.l (hashpjw name % LHASH))
    return ({ st with lsym := k }, r)

/-- symbols.c 224-251 `SymAlloc`: a zeroed symbol (`state` 0 = `SYM_UNDEFINED`) with its name. -/
def symAlloc (st : St) (name : Name) : St × Ptr :=
  ({ st with
      brk := st.brk + 1
      heap := fun q => if q = st.brk then ⟨name, none, none, true, false⟩ else st.heap q }, st.brk)

/-- symbols.c 413-425 `SymLookup`. -/
def symLookup (st : St) (name : Name) : Option (St × Ptr) := do
  let (st, r) ← symFind st name
  match r with
  | some p => return (st, p)
  | none =>
    let (st, p) := symAlloc st name
    let st := st.set st.gsym (some p)
    return ({ st with count := st.count + 1 }, p)

/-- symbols.c 430-455 `SymLookupLocal`. -/
def symLookupLocal (st : St) (name : Name) : Option (St × Ptr) := do
  let (st, r) ← symFind st name
  match r with
  | none =>
    let (st, p) := symAlloc st name
    let st := st.upd p (fun nd => { nd with isScoped := true })
    return (st.set st.lsym (some p), p)
  | some p =>
    if (st.heap p).undef && !(st.heap p).isScoped then
      let st := st.set st.gsym (st.heap p).next
      let st := { st with count := st.count - 1 }
      let st := st.upd p (fun nd => { nd with isScoped := true })
      let st := st.upd p (fun nd => { nd with next := none })
      return (st.set st.lsym (some p), p)
    else return (st, p)

/-- symbols.c 583-596 `SymCreate`, and 565-581 `SymAddGlobal` for a symbol that
is in no table yet. `none` in the second component: error SYMBOL_ALREADY_DEFINED. -/
def symCreate (st : St) (name : Name) : Option (St × Option Ptr) := do
  let (st, r) ← symFind st name
  match r with
  | some _ => return (st, none)
  | none =>
    let (st, p) := symAlloc st name
    let st := st.set st.gsym (some p)
    return ({ st with count := st.count + 1 }, some p)

/-- symbols.c 606: `sym && sym->state != SYM_UNDEFINED`. -/
def isDefined (st : St) : Option Ptr → Bool
  | some p => !(st.heap p).undef
  | none => false

/-- symbols.c 598-617 `SymLCreate`, and 543-563 `SymAddLocal` for a symbol that is in no table yet:
a symbol that is `SYM_UNDEFINED` does not count as defined. -/
def symLCreate (st : St) (name : Name) : Option (St × Option Ptr) := do
  let (st, r) ← symFind st name
  if isDefined st r then return (st, none)
  else
    let (st, p) := symAlloc st name
    return (st.set st.lsym (some p), some p)

/-- symbols.c 177-182 `SymClearLocal`. -/
def symClearLocal (st : St) : St := { st with ltab := fun _ => none }

/-- One iteration of the loop of `SymGetLocal`. `l` is the place `*l` is written to:
`none` = `&procinfo->labellist`, `some p` = `&p->e.nextll`. -/
def putLL (st : St) (proc : Proc) (l : Option Ptr) (v : Option Ptr) : St :=
  match l with
  | none => { st with labellist := fun q => if q = proc then v else st.labellist q }
  | some p => st.upd p (fun nd => { nd with nextll := v })

/-- symbols.c 186-200 `SymGetLocal`: the loop over the table from index `i` on. -/
def getLocalLoop (st : St) (proc : Proc) (l : Option Ptr) : List Nat → St
  | [] => putLL st proc l none
  | i :: is =>
    match st.ltab i with
    | none => getLocalLoop st proc l is
    | some p => getLocalLoop (putLL st proc l (some p)) proc (some p) is

/-- symbols.c 186-200 `SymGetLocal`. -/
def symGetLocal (st : St) (proc : Proc) : St := getLocalLoop st proc none (List.range LHASH)

/-- symbols.c 216-220: the loop of `SymSetLocal`. -/
def setLocalLoop (st : St) (l : Option Ptr) : Option St :=
  match l with
  | none => some st
  | some p =>
    let i := hashpjw (st.heap p).name % LHASH
    setLocalLoop { st with ltab := fun j => if j = i then some p else st.ltab j } (st.heap p).nextll
partial_fixpoint

/-- symbols.c 209-222 `SymSetLocal`. -/
def symSetLocal (st : St) (proc : Proc) : Option St :=
  setLocalLoop (symClearLocal st) (st.labellist proc)

/-- The state of an empty symbol table at the start of pass 1 (symbols.c 640-660 `SymInit` before
it adds the predefined symbols with `SymCreate`). -/
def init : St where
  heap := fun _ => ⟨[], none, none, true, false⟩
  brk := 0
  gtab := fun _ => none
  ltab := fun _ => none
  lsym := .l 0
  gsym := .g 0
  count := 0
  cur := none
  stack := []
  labellist := fun _ => none
  known := fun _ => false
  cs := false
  pass1 := true

/-- What the source program makes the assembler do to the symbol table. -/
inductive Op
  /-- a name is looked up -/
  | find (n : Name)
  /-- a name is looked up in the current procedure only -/
  | findLocal (n : Name)
  /-- a name is referenced, and entered as undefined global if unknown -/
  | ref (n : Name)
  /-- a code label `n:` (label.c `CreateLabel`): local inside a procedure, else global -/
  | label (n : Name)
  /-- a global code label `n::`, LABEL, PROC name ... (label.c `CreateLabel` with `bLocal` false) -/
  | glabel (n : Name)
  /-- a new global symbol that must not exist yet -/
  | create (n : Name)
  /-- LOCAL or a procedure parameter -/
  | localVar (n : Name)
  /-- PROC -/
  | proc (p : Proc)
  /-- ENDP -/
  | endp
  /-- OPTION CASEMAP -/
  | casemap (cs : Bool)
  /-- the next pass begins -/
  | nextPass
  deriving Repr

/-- What the caller sees of an operation. -/
inductive Res
  /-- the symbol found or made, or that there is none -/
  | sym (p : Option Ptr)
  /-- SYMBOL_ALREADY_DEFINED / SYMBOL_REDEFINITION / unmatched ENDP -/
  | error
  | unit
  deriving Repr, DecidableEq

/-- label.c 106-135: after the lookup, in pass 1, an undefined symbol becomes SYM_INTERNAL; any other
is an error (the EXTERNDEF case is left out); later passes only update the offset. -/
def defineLabel (st : St) (p : Ptr) : St × Res :=
  if st.pass1 then
    if (st.heap p).undef then (st.upd p (fun nd => { nd with undef := false }), .sym (some p))
    else (st, .error)
  else (st, .sym (some p))

/-- proc.c 1905-1915 (`push_proc`, 563-570): an open procedure goes onto the stack, in pass 1 after
its locals have been saved. -/
def pushProc (st : St) : St :=
  match st.cur with
  | some q => { (if st.pass1 then symGetLocal st q else st) with stack := q :: st.stack }
  | none => st

/-- PROC: proc.c 1905-1972 (pass 1: a redefinition is refused, the local table is cleared),
2010-2025 (later passes: the local table is restored). -/
def procDir (st : St) (p : Proc) : Option (St × Res) :=
  if st.pass1 then
    if st.known p then some (st, .error)
    else some ({ symClearLocal (pushProc st) with
            cur := some p, known := fun q => if q = p then true else st.known q }, .unit)
  else if st.known p then
    (symSetLocal (pushProc st) p).map (fun st => ({ st with cur := some p }, .unit))
  else some (st, .error)

/-- proc.c 2190-2192, 572-578 (`pop_proc`): back to the enclosing procedure. -/
def popProc (st : St) : Option (St × Res) :=
  match st.stack with
  | [] => some ({ st with cur := none }, .unit)
  | q :: qs => (symSetLocal { st with cur := some q, stack := qs } q).map (fun st => (st, .unit))

/-- ENDP: proc.c 2174-2192 (`ProcFini`). -/
def endpDir (st : St) : Option (St × Res) :=
  match st.cur with
  | none => some (st, .error)
  | some p => popProc (if st.pass1 then symGetLocal st p else st)

/-- One operation. -/
def step (st : St) : Op → Option (St × Res)
  | .find n => do let (st, r) ← symFind st n; return (st, .sym r)
  | .findLocal n => do let (st, r) ← symFindLocal st n; return (st, .sym r)
  | .ref n => do let (st, p) ← symLookup st n; return (st, .sym (some p))
  -- label.c 106
  | .label n => do
    let (st, p) ← if st.cur.isSome then symLookupLocal st n else symLookup st n
    return defineLabel st p
  | .glabel n => do
    let (st, p) ← symLookup st n
    return defineLabel st p
  -- the callers of SymCreate set the state of the new symbol right away
  | .create n => do
    let (st, r) ← symCreate st n
    match r with
    | none => return (st, .error)
    | some p => return (st.upd p (fun nd => { nd with undef := false }), .sym (some p))
  -- proc.c 600-650 (LOCAL is refused outside of a procedure and does nothing after pass 1),
  -- 655: state = SYM_STACK; 960-1000 for parameters
  | .localVar n =>
    if !st.pass1 then return (st, .unit) else
    match st.cur with
    | none => return (st, .error)
    | some _ => do
      let (st, r) ← symLCreate st n
      match r with
      | none => return (st, .error)
      | some p => return (st.upd p (fun nd => { nd with undef := false }), .sym (some p))
  | .proc p => procDir st p
  | .endp => endpDir st
  | .casemap cs => return ({ st with cs := cs }, .unit)
  -- proc.c 5530-5540 (ProcInit); an open procedure at the end of pass 1 was reported as an error
  -- (ProcCheckOpen, 2600-2612), then there is no next pass
  | .nextPass =>
    match st.cur with
    | some _ => return (st, .error)
    | none => return ({ st with pass1 := false, stack := [] }, .unit)

/-- A history. -/
def run (st : St) : List Op → Option (St × List Res)
  | [] => some (st, [])
  | o :: os => do
    let (st, r) ← step st o
    let (st, rs) ← run st os
    return (st, r :: rs)

end Verif.Symbols
