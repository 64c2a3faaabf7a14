/-
  Model of `data.c`: `data_item` (545-1250), the routine behind DB/DW/DD/DF/DQ/DT/DO/... and
  the simple types, together with `little_endian` (471-488).

  Simplifications, for the whole file:
  * an initializer operand is one token which carries the result of `EvalOperand` (the expression
    evaluator itself is modelled in `Verif.Expr`): a constant (`llvalue`, `hlvalue`, `negative`), a
    quoted string, an address, `?`;
  * `type_sym` is NULL (no STRUCT/UNION/RECORD item) and `is_float` is FALSE;
  * with OPTION LITERALS:ON only strings of 7-bit characters are modelled (the branch with
    `half` set is not);
  * the warning for initialized data in BSS/AT segments has no effect and is left out.
-/
namespace Verif.Data

abbrev Byte := BitVec 8

/-- fixup types, `H/fixup.h` 36-54 (those which `data_item` can choose) -/
inductive FixT | void | off8 | off16 | off32 | off64 | seg | ptr16 | ptr32 | hibyte | imgrel | secrel
deriving DecidableEq, Repr

/-- USE16/USE32/USE64, and USE_EMPTY, `H/globals.h` -/
inductive Ofs | use16 | use32 | use64 | empty
deriving DecidableEq, Repr

/-- `opndx.instr`, `data.c` 957-1043; `none` is the default label -/
inductive AInstr | none | seg | offset | imagerel | sectionrel | low | high | lowword | high32 | highword | low32
deriving DecidableEq, Repr

/-- `sym->state` as far as it is tested -/
inductive SymState | undefined | external | segGrp | other
deriving DecidableEq, Repr

/-- `opndx.mem_type` as far as it is tested -/
inductive AMem | near | far | other
deriving DecidableEq, Repr

/-- The symbol of an address operand: state and `GetSymOfssize()` -/
structure ASym where
  state : SymState
  ofs : Ofs
deriving DecidableEq, Repr

/-- An EXPR_ADDR operand (`struct expr`, `H/expreval.h`); `value` holds value and hvalue. -/
structure Addr where
  instr : AInstr
  indirect : Bool
  value : BitVec 64
  explic : Bool
  mem : AMem
  memSize : Nat
  ofs : Ofs
  isAbs : Bool
  sym : Option ASym
deriving DecidableEq, Repr

/-- An EXPR_CONST operand that is not a string. -/
structure Const where
  ll : BitVec 64
  hl : BitVec 64
  neg : Bool
deriving DecidableEq, Repr

inductive Tok
  | const (c : Const)
  | str (s : List Byte)
  | addr (a : Addr)
  | question
  | dup
  | op
  | cl
  | comma
  | other
deriving DecidableEq, Repr

/-- The part of the module state `data_item` reads. -/
structure Cfg where
  n : Nat              -- no_of_bytes
  label : Bool         -- sym != NULL
  pass1 : Bool         -- Parse_Pass == PASS_1
  inStruct : Bool      -- inside_struct
  lit : Bool           -- Options.literal_strings and no MASM compatibility option
  wordSym : Bool       -- sym->mem_type == MT_WORD
  ofs : Ofs            -- ModuleInfo.Ofssize
  coffElf : Bool       -- output format is COFF or ELF
  badFix : FixT → Bool -- ModuleInfo.fmtopt->invalid_fixup_type

inductive Err
  | constantExpected | negCount | expectedOp | expectedCl | syntaxErr | emptyString
  | outOfRange | tooLarge | invalidInit | invalidReg | offsetTooLarge | symTypeConflict
  | unsupportedFixup | notModelled
deriving DecidableEq, Repr

/-- What ends up in the segment: a byte; a byte of uninitialized space; the `n` bytes of an address
    with its fixup. -/
inductive Chunk
  | byte (b : Byte)
  | undef
  | ref (bytes : List Byte) (fix : Option FixT)
deriving DecidableEq, Repr

structure St where
  out : List Chunk := []
  isarray : Bool := false
  firstLen : BitVec 32 := 0#32
  firstSize : BitVec 32 := 0#32
  totLen : BitVec 32 := 0#32
  totSize : BitVec 32 := 0#32
deriving DecidableEq, Repr

/-- `OutputDataBytes`, `assemble.c` 324-331 and `H/globals.h`: append bytes to the segment. -/
def St.put (s : St) (bs : List Byte) : St := { s with out := s.out ++ bs.map Chunk.byte }

/-- `little_endian`, `data.c` 471-488. Each turn takes the two outer bytes (the C code counts `len`
    down by two), swaps them, and goes on with the inner ones; the middle byte is copied. -/
def littleEndian : List Byte → List Byte
  | [] => []
  | a :: r =>
    match h : r.getLast? with
    | none => [a]
    | some z => z :: littleEndian r.dropLast ++ [a]
termination_by l => l.length
decreasing_by simp; omega

/-- byte `i` of `chararray` (`llvalue` and `hlvalue` share it, `H/expreval.h` 84-99) -/
def Const.char (c : Const) (i : Nat) : Byte :=
  if i < 8 then c.ll.extractLsb' (8 * i) 8 else c.hl.extractLsb' (8 * (i - 8)) 8

/-- the first `n` bytes of `chararray` -/
def Const.chars (c : Const) (n : Nat) : List Byte := (List.range n).map c.char

/-- the value of a quoted string as an operand: `expreval.c` 962-969, the (at most 16) first characters,
    the last one at byte 0 -/
def strConst (s : List Byte) : Const :=
  let t := (s.take 16).reverse
  let f := fun (l : List Byte) => l.foldr (fun (b : Byte) (acc : BitVec 64) => (acc <<< 8) ||| b.setWidth 64) 0#64
  ⟨f (t.take 8), f (t.drop 8), false⟩

/-- `memset( opndx.chararray, tmp, no_of_bytes )`, `data.c` 912, for `n <= 8`: the new llvalue -/
def fillLow (ll : BitVec 64) (n : Nat) (ff : Bool) : BitVec 64 :=
  let mask : BitVec 64 := (BitVec.allOnes 64) <<< (8 * n)
  (ll &&& mask) ||| (if ff then ~~~ mask else 0#64)

/-- a numeric constant, `data.c` 884-926. Returns the state and whether data_item goes on. -/
def number (c : Cfg) (k : Const) (s : St) : Except Err St :=
  if c.inStruct then .ok s else
  if c.n > 16 then
    let fill : Byte := if (k.char 15).toNat < 0x80 then 0#8 else 0xFF#8
    .ok (s.put (k.chars 16 ++ List.replicate (c.n - 16) fill))
  else
    let k := if c.n > 8 && k.neg && k.ll.msb && k.hl == 0#64 then { k with hl := BitVec.allOnes 64 } else k
    let s := s.put (k.chars c.n)
    if c.n ≤ 8 then
      let ll := fillLow k.ll c.n (decide (¬ (k.char 7).toNat < 0x80))
      if ll ≠ 0#64 ∧ ll ≠ BitVec.allOnes 64 then .error .tooLarge else .ok s
    else if c.n = 10 then
      if 0xffff < k.hl.toNat ∧ k.hl.toNat < 2^64 - 0xffff then .error .tooLarge else .ok s
    else .ok s

/-- emission of a string, `data.c` 847-882 -/
def strOut (c : Cfg) (b : List Byte) (s : St) : St :=
  let len := b.length
  if c.inStruct then s
  else if !c.lit then
    let b := if len > 1 && c.n > 1 then littleEndian b else b
    let s := s.put b
    if c.n > len then s.put (List.replicate (c.n - len) 0#8) else s
  else
    let s :=
      if len > 1 && c.n > 1 && c.label && c.wordSym then
        s.put (b.flatMap fun x => [x, 0#8])                -- OutputInterleavedDataBytes
      else if len > 1 && c.n > 1 then s                    -- only `half` strings are written here
      else s.put (if c.n > 1 then littleEndian b else b)
    if c.n > len then s.put (List.replicate (c.n - len) 0#8) else s

/-- a quoted string, `data.c` 764-883. Returns state, `total`, `first`. -/
def string (c : Cfg) (b : List Byte) (total : BitVec 32) (first : Bool) (s : St) :
    Except Err (St × BitVec 32 × Bool) :=
  let len := b.length
  if len = 0 ∧ !c.inStruct then .error .emptyString else
  let s := if len = 0 then { s with isarray := true } else s
  if c.n ≠ 1 ∧ !c.lit ∧ len > c.n then .error .outOfRange else
  if c.n ≠ 1 ∧ c.lit ∧ len > c.n ∧ c.label ∧ !c.wordSym then .error .outOfRange else
  if c.n ≠ 1 ∧ c.lit ∧ b.any (fun x => x.toNat > 0x7F) then .error .notModelled else
  let (s, total, first) :=
    if c.label && c.pass1 && len > 0 then
      if c.n = 1 ∧ len > 1 then
        ({ s with isarray := true,
                  firstLen := if first then 1#32 else s.firstLen,
                  firstSize := if first then 1#32 else s.firstSize },
         total + 1#32 + BitVec.ofNat 32 (len - 1), false)
      else if c.n = 2 ∧ len > 1 then
        ({ s with isarray := true,
                  firstLen := if first then 1#32 else s.firstLen,
                  firstSize := if first then 2#32 else s.firstSize },
         total + 1#32 + BitVec.ofNat 32 (len - 1), false)
      else (s, total + 1#32, first)
    else (s, total, first)
  .ok (strOut c b s, total, first)

/-- `opndx.sym && <test of opndx.sym>` -/
def Addr.symIs (a : Addr) (p : ASym → Bool) : Bool := match a.sym with
  | some y => p y
  | none => false

/-- choice of the fixup type, `data.c` 957-1191; the errors are emitted without return; `none` as type
    is the path on which the C variable `fixup_type` is never assigned. -/
def fixType (c : Cfg) (a : Addr) : Option FixT × List Err :=
  let isUndef : Bool := a.symIs fun y => y.state == .undefined
  let symOfs (o : Ofs) : Bool := a.symIs fun y => y.ofs == o
  match a.instr with
  | .seg => (some .seg, if c.n < 2 then [.tooLarge] else [])
  | .offset =>
    if c.n = 1 then
      if c.pass1 && isUndef then (some .void, []) else (some .off8, [.offsetTooLarge])
    else if c.n = 2 then (some .off16, [])
    else if c.n = 8 ∧ c.ofs = .use64 then (some .off64, [])
    else if symOfs .use16 then (some .off16, []) else (some .off32, [])
  | .imagerel => (some .imgrel, if c.n < 4 then [.offsetTooLarge] else [])
  | .sectionrel => (some .secrel, if c.n < 4 then [.offsetTooLarge] else [])
  | .low => (some .off8, [])
  | .high => (some .hibyte, [])
  | .lowword => (some .off16, if c.n < 2 then [.tooLarge] else [])
  | .high32 | .highword => (some .void, [.constantExpected])
  | .low32 => (some .off32, if c.n < 4 then [.tooLarge] else [])
  | .none =>
    if c.n < 2 ∧ !(c.pass1 && isUndef) then
      (some .off8,
        if (a.symIs fun y => y.state == .external) && a.isAbs then []
        else [.tooLarge])
    else if (a.symIs fun y => y.state == .segGrp) then (some .seg, [])
    else if c.n = 2 then
      (some .off16,
        if a.explic then (if a.memSize > c.n then [.tooLarge] else [])
        else if (a.symIs fun y => y.state == .external) && a.isAbs then []
        else if (a.symIs fun y => y.state != .undefined && (y.ofs == .use32 || y.ofs == .use64)) then [.tooLarge]
        else [])
    else if c.n = 4 then
      if a.explic then
        match a.mem with
        | .far => (some .ptr16, if a.ofs ≠ .empty ∧ a.ofs ≠ .use16 then [.tooLarge] else [])
        | .near => (if a.ofs = .use16 then some .off16
                    else if symOfs .use16 then some .off16 else some .off32, [])
        | .other => (none, [])
      else if c.ofs = .use16 then
        if a.mem = .near ∧ c.coffElf then (some .off16, [.symTypeConflict]) else (some .ptr16, [])
      else (some .off32, [])
    else if c.n = 6 then (if c.coffElf then some .off32 else some .ptr32, [])
    else if a.explic ∧ a.mem = .far ∧ a.ofs = .use32 then (some .ptr32, [])
    else if c.ofs = .use32 then (some .off32, [])
    else if c.ofs = .use64 then (some .off64, [])
    else (some .ptr16, [])

/-- an address operand, `data.c` 930-1219. `OutputBytes` copies the `n` bytes of `opndx.value`; a fixup is
    created if `write_to_file` is set, i.e. never in pass 1. Simplification: some of the errors are emitted
    without a return, and the C code goes on with the line; since any error suppresses the object file, the
    model stops at the first one. An unassigned `fixup_type` is reported as `notModelled`: what the program
    does then is undefined. Returns state and `total`. -/
def address (c : Cfg) (a : Addr) (total : BitVec 32) (s : St) : Except Err (St × BitVec 32) :=
  if c.n > 8 then .error .invalidInit
  else if a.indirect then .error .invalidReg
  else if c.ofs ≠ .use64 ∧ a.value.extractLsb' 32 32 ≠ 0#32 ∧
      (a.value.extractLsb' 32 32 ≠ BitVec.allOnes 32 ∨ ¬ (a.value.extractLsb' 0 32).msb) then
    .error .tooLarge
  else if c.inStruct then .ok (s, total + 1#32)
  else
    match fixType c a with
    | (none, _) => .error .notModelled
    | (some _, e :: _) => .error e
    | (some f, []) =>
      if c.badFix f then .error .unsupportedFixup
      else
        .ok ({ s with out := s.out ++ [.ref ((Const.mk a.value 0#64 false).chars c.n)
                                            (if c.pass1 then none else some f)] }, total + 1#32)

/-- `level` loop that skips the operand of `0 DUP (...)`, `data.c` 662-671; stops at the matching `)`. -/
def skip : Nat → List Tok → List Tok
  | _, [] => []
  | lvl, t :: r =>
    match t with
    | .op => skip (lvl + 1) r
    | .cl => if lvl = 1 then t :: r else skip (lvl - 1) r
    | _ => skip lvl r

/-- update at `item_done`, `data.c` 1228-1231 -/
def markFirst (c : Cfg) (total : BitVec 32) (first : Bool) (s : St) : St :=
  if c.label && first && c.pass1 then
    { s with firstLen := total, firstSize := total * BitVec.ofNat 32 c.n }
  else s

/-- after a DUP, `data.c` 691-695 -/
def dupFirst (c : Cfg) (count : BitVec 32) (first : Bool) (s : St) : St × Bool :=
  if c.label && first && c.pass1 then
    ({ s with firstSize := count * BitVec.ofNat 32 c.n, firstLen := count }, false)
  else (s, first)

/-- exit of `data_item`, `data.c` 1246-1249 -/
def finish (c : Cfg) (total : BitVec 32) (s : St) : St :=
  if c.label && c.pass1 then
    { s with totLen := s.totLen + total, totSize := s.totSize + total * BitVec.ofNat 32 c.n }
  else s

/-- What one initializer does to the local variables: the state, the rest of the line, `dup`, `total`,
    `first`. -/
structure Step where
  s : St
  rest : List Tok
  dup : Nat
  total : BitVec 32
  first : Bool

/-- `?`, `data.c` 716-731; `alone` is the test `i == *start_pos` -/
def question (c : Cfg) (alone : Bool) (rest : List Tok) (dup : Nat) (total : BitVec 32) (first : Bool)
    (s : St) : Step :=
  if rest.head? ≠ some .comma ∧ alone then
    let k := BitVec.ofNat 32 c.n * BitVec.ofNat 32 dup
    ⟨if c.inStruct then s else { s with out := s.out ++ List.replicate k.toNat .undef }, rest, 1,
      total + BitVec.ofNat 32 dup, first⟩
  else
    ⟨if c.inStruct then s else { s with out := s.out ++ List.replicate (BitVec.ofNat 32 c.n).toNat .undef },
      rest, dup, total + 1#32, first⟩

/-- The operand of a token as DUP count: EXPR_CONST operands have one. -/
def countOf : Tok → Option Const
  | .const k => some k
  | .str b => some (strConst b)
  | _ => none

/-- an initializer which is not a DUP, `data.c` 716-1227 -/
def plain (c : Cfg) (alone : Bool) (t : Tok) (rest : List Tok) (dup : Nat) (total : BitVec 32) (first : Bool)
    (s : St) : Except Err Step :=
  match t with
  | .question => .ok (question c alone rest dup total first s)
  | .const k =>
    match number c k s with
    | .error e => .error e
    | .ok s => .ok ⟨s, rest, dup, total + 1#32, first⟩
  | .str b =>
    match string c b total first s with
    | .error e => .error e
    | .ok (s, total, first) => .ok ⟨s, rest, dup, total, first⟩
  | .addr a =>
    match address c a total s with
    | .error e => .error e
    | .ok (s, total) => .ok ⟨s, rest, dup, total, first⟩
  | _ => .error .syntaxErr

abbrev R := Option (Except Err (St × List Tok))

/-- `data_item`, `data.c` 545-1252, from label `next_item` on: `start` is the line from `*start_pos` on, `cur` the line
    from `i` on, `dup` the loop counter, `total` and `first` the local variables. The outer `Option` is
    divergence (it is proved that it never happens). -/
def items (c : Cfg) (start cur : List Tok) (dup : Nat) (total : BitVec 32) (first : Bool) (s : St) : R := do
  let itemDone (st : Step) : R := do
    let s := markFirst c st.total st.first st.s
    match st.rest with
    | .comma :: rest =>
      match rest with
      | [] | .cl :: _ =>
        if st.dup ≤ 1 then some (.ok (finish c st.total s, rest))
        else items c start start (st.dup - 1) st.total st.first s
      | _ =>
        items c start rest st.dup st.total false (if c.label then { s with isarray := true } else s)
    | rest =>
      if st.dup ≤ 1 then some (.ok (finish c st.total s, rest))
      else items c start start (st.dup - 1) st.total st.first s
  match cur with
  | [] => some (.error .syntaxErr)
  | .question :: rest =>
    itemDone (question c (decide (cur.length = start.length)) rest dup total first s)
  | t :: .dup :: rest =>
    match countOf t with
    | none => some (.error .constantExpected)
    | some k =>
      let v := k.ll.extractLsb' 0 32
      if v.msb then some (.error .negCount)
      else match rest with
      | .op :: rest => do
        let s := if c.label then { s with isarray := true } else s
        let r ← (if v = 0#32 then some (.ok (s, skip 1 rest)) else items c rest rest v.toNat 0#32 first s)
        match r with
        | .error e => some (.error e)
        | .ok (s, rest) =>
          match rest with
          | .cl :: rest =>
            let sf := dupFirst c v first s
            itemDone ⟨sf.1, rest, dup, total, sf.2⟩
          | _ => some (.error .expectedCl)
      | _ => some (.error .expectedOp)
  | t :: rest =>
    match plain c (decide (cur.length = start.length)) t rest dup total first s with
    | .error e => some (.error e)
    | .ok st => itemDone st
partial_fixpoint

/-- the call in `data_dir`, `data.c` 1625-1636: `dup` = 1, `first` = TRUE, and nothing may follow -/
def dataDir (c : Cfg) (line : List Tok) (s : St) : Option (Except Err St) := do
  let r ← items c line line 1 0#32 true s
  match r with
  | .error e => some (.error e)
  | .ok (s, []) => some (.ok s)
  | .ok (_, _) => some (.error .syntaxErr)

end Verif.Data
