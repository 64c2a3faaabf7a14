/-
  `.SWITCH` / `.CASE` / `.DEFAULT` / `.BREAK` / `.ENDSWITCH` of hll.c: the labels and the list of cases kept while
  the block is open (HllStartDir, HllExitDir), the tables and the instructions written by `.ENDSWITCH` (HllEndDir),
  and the processor that executes them.

  Simplifications of the whole file:
  * C style switches (`OPTION SWITCHSTYLE:CSWITCH`) in 32- and 64-bit code; the assembler style, which inserts the
    jumps itself after peeking at the next line, is not modelled.
  * The lines written when `Parse_Pass` is not 0 are modelled (the code of the last pass).
  * The labels created for the block (LSTART, LEXIT, LDEF, LTOP, LJUMP, LSKIP, LCONT, LDATA1, LDATA2) are names
    of their own; only the labels of the cases keep their number, because the tables store them in 16 bits.
  * Statements between the directives are opaque functions on registers and memory that do not jump and leave the
    stack balanced; `.BREAK .IF c` is one conditional jump (its lines are the subject of `Verif.Hll`).
  * A `.SWITCH` without any `.CASE` is not modelled (the code then works on data left by an earlier block).
  * C's signed overflow wraps.
-/
namespace Verif.Switch

/-- hll.c 1549, 1574, 1598: ModuleInfo.Ofssize and hll->csize: 32-bit code; 64-bit code and an operand of at most
    32 bits; 64-bit code and a 64-bit operand. -/
inductive Mode | m32 | m64d | m64q
deriving DecidableEq, Repr

def Mode.is64 : Mode → Bool
  | .m32 => false
  | _ => true

/-- the registers used by the generated lines -/
inductive Reg | ax | cx | dx | bx | si | di | r10
deriving DecidableEq, Repr

/-- hll.c 102-114: the labels; `case n` is a label `@Cn` created by `.CASE`. -/
inductive Lbl | case (n : Nat) | dflt | exit | start | top | jump | skip | cont | data1 | data2
deriving DecidableEq, Repr

inductive W | w32 | w64
deriving DecidableEq, Repr

inductive CC | e | l | g | ge | le | s
deriving DecidableEq, Repr

/-- a memory operand: label + base + index*scale + displacement -/
structure Mem where
  lbl : Option Lbl := none
  base : Option Reg := none
  idx : Option Reg := none
  scale : Nat := 1
  disp : Int := 0
deriving DecidableEq, Repr

/-- the instructions written by `.SWITCH` and `.ENDSWITCH` -/
inductive Ins
  | mov (w : W) (d s : Reg)
  | movI (w : W) (d : Reg) (n : Int)
  | xorSelf (d : Reg)
  | lea (w : W) (d : Reg) (m : Mem)
  | subI (w : W) (d : Reg) (n : Int)
  | sub (w : W) (d s : Reg)
  | sar1 (w : W) (d : Reg)
  | cdq
  | cdqe
  | push (r : Reg)
  | pop (r : Reg)
  | xchgSp (r : Reg)
  | retn
  /-- movzx / mov from memory, `n` bytes, into the register (the rest of the register is cleared) -/
  | load (d : Reg) (n : Nat) (m : Mem)
  | cmpI (w : W) (r : Reg) (n : Int)
  | cmp (w : W) (a b : Reg)
  | cmpM (w : W) (m : Mem) (r : Reg)
  | jcc (c : CC) (l : Lbl)
  | jmp (l : Lbl)
  | jmpM (n : Nat) (m : Mem)
  | jmpR (r : Reg)
deriving DecidableEq, Repr

abbrev Regs := Reg → BitVec 64

/-- what a statement of the program sees and changes: the registers and the rest -/
abbrev X (σ : Type) := Regs × σ

inductive Line (σ : Type)
  | lab (l : Lbl)
  | ins (i : Ins)
  | stm (f : X σ → X σ)
  /-- the lines of `.BREAK .IF p` -/
  | brIf (p : X σ → Bool) (l : Lbl)
  /-- `mov`/`movzx` of the operand of `.SWITCH` into EAX/RAX -/
  | loadOp (f : X σ → BitVec 64)

/-! ### the machine -/

/-- addresses of the labels and the contents of the data section: `rd a n` is the number in the `n` bytes at `a` -/
structure Env where
  adr : Lbl → BitVec 64
  rd : BitVec 64 → Nat → BitVec 64

structure St (σ : Type) where
  r : Regs
  stk : List (BitVec 64)
  /-- the operands of the last comparison, as signed numbers -/
  fl : Int × Int
  u : σ

def Regs.set (r : Regs) (d : Reg) (v : BitVec 64) : Regs := fun x => if x = d then v else r x

/-- addresses have 32 bits in 32-bit code -/
def trunc (m : Mode) (a : BitVec 64) : BitVec 64 := if m.is64 then a else (a.setWidth 32).setWidth 64

def lbA (env : Env) : Option Lbl → BitVec 64
  | none => 0
  | some l => env.adr l
def rgA (r : Regs) : Option Reg → BitVec 64
  | none => 0
  | some x => r x

def ea (env : Env) (m : Mode) (r : Regs) (x : Mem) : BitVec 64 :=
  trunc m (lbA env x.lbl + rgA r x.base + rgA r x.idx * BitVec.ofNat 64 x.scale + BitVec.ofInt 64 x.disp)

/-- writing a 32-bit register clears the upper half -/
def put (r : Regs) (w : W) (d : Reg) (v : BitVec 64) : Regs :=
  match w with
  | .w32 => r.set d ((v.setWidth 32).setWidth 64)
  | .w64 => r.set d v

def sgn (w : W) (v : BitVec 64) : Int :=
  match w with
  | .w32 => (v.setWidth 32).toInt
  | .w64 => v.toInt

def holds (c : CC) (f : Int × Int) : Bool :=
  match c with
  | .e => decide (f.1 = f.2)
  | .l => decide (f.1 < f.2)
  | .g => decide (f.1 > f.2)
  | .ge => decide (f.1 ≥ f.2)
  | .le => decide (f.1 ≤ f.2)
  | .s => decide (f.1 - f.2 < 0)

variable {σ : Type}

/-- the lines behind a label -/
def after (l : Lbl) : List (Line σ) → Option (List (Line σ))
  | [] => none
  | .lab k :: rest => if k = l then some rest else after l rest
  | _ :: rest => after l rest

/-- the lines behind the first label with the address `a` -/
def afterA (env : Env) (a : BitVec 64) : List (Line σ) → Option (List (Line σ))
  | [] => none
  | .lab k :: rest => if env.adr k = a then some rest else afterA env a rest
  | _ :: rest => afterA env a rest

abbrev Conf (σ : Type) := List (Line σ) × St σ

/-- one instruction; `rest` are the lines behind it. The flags of `sub`, `sar` and `xor` are not used by the code
    (`xor r,r` in front of `js` gives a zero); `none`: the machine is stuck. -/
def exec (env : Env) (m : Mode) (prog rest : List (Line σ)) (s : St σ) : Ins → Option (Conf σ)
  | .mov w d x => some (rest, { s with r := put s.r w d (s.r x) })
  | .movI w d n => some (rest, { s with r := put s.r w d (BitVec.ofInt 64 n) })
  | .xorSelf d => some (rest, { s with r := put s.r .w32 d 0, fl := (0, 0) })
  | .lea w d x => some (rest, { s with r := put s.r w d (ea env m s.r x) })
  | .subI w d n => some (rest, { s with r := put s.r w d (s.r d - BitVec.ofInt 64 n) })
  | .sub w d x => some (rest, { s with r := put s.r w d (s.r d - s.r x) })
  | .sar1 .w32 d => some (rest, { s with r := put s.r .w32 d ((((s.r d).setWidth 32).sshiftRight 1).setWidth 64) })
  | .sar1 .w64 d => some (rest, { s with r := put s.r .w64 d ((s.r d).sshiftRight 1) })
  | .cdq => some (rest, { s with r := put s.r .w32 .dx (if ((s.r .ax).setWidth 32).msb then -1 else 0) })
  | .cdqe => some (rest, { s with r := put s.r .w64 .ax (((s.r .ax).setWidth 32).signExtend 64) })
  | .push x => some (rest, { s with stk := s.r x :: s.stk })
  | .pop x =>
    match s.stk with
    | [] => none
    | v :: t => some (rest, { s with r := s.r.set x v, stk := t })
  | .xchgSp x =>
    match s.stk with
    | [] => none
    | v :: t => some (rest, { s with r := s.r.set x v, stk := s.r x :: t })
  | .retn =>
    match s.stk with
    | [] => none
    | v :: t => (afterA env v prog).map (·, { s with stk := t })
  | .load d n x => some (rest, { s with r := s.r.set d (env.rd (ea env m s.r x) n) })
  | .cmpI w x n => some (rest, { s with fl := (sgn w (s.r x), sgn w (BitVec.ofInt 64 n)) })
  | .cmp w a b => some (rest, { s with fl := (sgn w (s.r a), sgn w (s.r b)) })
  | .cmpM w x b =>
    some (rest, { s with fl := (sgn w (env.rd (ea env m s.r x) (match w with | .w32 => 4 | .w64 => 8)), sgn w (s.r b)) })
  | .jcc c l => if holds c s.fl then (after l prog).map (·, s) else some (rest, s)
  | .jmp l => (after l prog).map (·, s)
  | .jmpM n x => (afterA env (env.rd (ea env m s.r x) n) prog).map (·, s)
  | .jmpR x => (afterA env (s.r x) prog).map (·, s)

def step (env : Env) (m : Mode) (prog : List (Line σ)) : Conf σ → Option (Conf σ)
  | ([], _) => none
  | (.lab _ :: rest, s) => some (rest, s)
  | (.ins i :: rest, s) => exec env m prog rest s i
  | (.stm f :: rest, s) => some (rest, { s with r := (f (s.r, s.u)).1, u := (f (s.r, s.u)).2 })
  | (.brIf p l :: rest, s) => if p (s.r, s.u) then (after l prog).map (·, s) else some (rest, s)
  | (.loadOp f :: rest, s) => some (rest, { s with r := s.r.set .ax (f (s.r, s.u)) })

/-- the configurations the machine passes through -/
inductive Reach (env : Env) (m : Mode) (prog : List (Line σ)) : Conf σ → Conf σ → Prop
  | refl (c) : Reach env m prog c c
  | head {c d e} : step env m prog c = some d → Reach env m prog d e → Reach env m prog c e

/-! ### the directives inside the block -/

/-- hll.c 1549-1612: the operand of `.SWITCH` -/
inductive OpKind
  /-- AL..BH, AX..DI -/
  | reg8or16
  | eax
  /-- ECX..EDI -/
  | reg32
  | rax
  /-- RCX..R15 -/
  | reg64
  /-- registers with a token behind EDI that are not 64 bits wide (R8D, R9W, SIL, ..) -/
  | regNew
  | memByte | memWord | memDword
  /-- any other type of a memory operand -/
  | memOther (size : Nat)
  /-- a constant or another expression -/
  | other
deriving DecidableEq, Repr

/-- hll.c 1549-1619: the mode (hll->csize) and the line that loads the operand; `val` gives the operand's value with
    zeros above its size. `none`: the generated line is refused by the assembler (operands of different sizes). -/
def switchOperand (is64 : Bool) (k : OpKind) (val : X σ → BitVec 64) : Option (Mode × List (Line σ)) :=
  if is64 then
    match k with
    | .eax => some (.m64d, [])
    | .reg8or16 => some (.m64d, [.loadOp val])
    | .reg32 => some (.m64d, [.loadOp val])
    | .rax => some (.m64q, [])
    | .reg64 => some (.m64q, [.loadOp val])
    | .regNew => none
    | .memByte | .memWord => some (.m64d, [.loadOp val])
    | .memDword => some (.m64d, [.loadOp val])
    | .memOther n => if n = 8 then some (.m64q, [.loadOp val]) else none
    | .other => some (.m64d, [])
  else
    match k with
    | .reg8or16 => some (.m32, [.loadOp val])
    | .eax => some (.m32, [])
    | .reg32 => some (.m32, [.loadOp val])
    | .rax | .reg64 | .regNew => none
    | .memByte | .memWord => some (.m32, [.loadOp val])
    | .memDword => some (.m32, [.loadOp val])
    | .memOther _ => none
    | .other => some (.m32, [])

/-- a line between `.SWITCH` and `.ENDSWITCH` -/
inductive Dir (σ : Type)
  | case (vs : List Int)
  | dflt
  | brk
  | brkIf (p : X σ → Bool)
  | stm (f : X σ → X σ)

/-- the members of struct hll_item (hll.c 125-152) that change -/
structure DSt where
  /-- ModuleInfo.hll_label -/
  cnt : Nat
  brk : Bool := true
  savedlab : Nat := 0
  dflt : Bool := false
  /-- pcases / plabels -/
  cases : List (Int × Nat) := []
deriving DecidableEq, Repr

def wrap32 (v : Int) : Int := (BitVec.ofInt 32 v).toInt
def wrap64 (v : Int) : Int := (BitVec.ofInt 64 v).toInt

/-- hll.c 2970-3036: the value stored by `.CASE`: 32 bits (opndx.value) or 64 bits (opndx.value64) -/
def caseVal (m : Mode) (v : Int) : Int :=
  match m with
  | .m64q => wrap64 v
  | _ => wrap32 v

/-- hll.c 2941-3038: the loop over the values of one `.CASE`; `none` = CASE_ALREADY_OCCURED. -/
def addCases (m : Mode) (lab : Nat) : List Int → List (Int × Nat) → Option (List (Int × Nat))
  | [], cs => some cs
  | v :: vs, cs =>
    if cs.any (fun c => c.1 == caseVal m v) then none
    else addCases m lab vs (cs ++ [(caseVal m v, lab)])

/-- hll.c 2885-3040, 3075-3118: HllExitDir for `.CASE`, `.DEFAULT`, `.BREAK`, and any other line. -/
def dirStep (m : Mode) (d : DSt) : Dir σ → Option (DSt × List (Line σ))
  | .case vs =>
    if vs = [] then none
    else
      let lab := if d.brk then (d.cnt + 1) % 65536 else d.savedlab
      (addCases m lab vs d.cases).map fun cs =>
        ({ d with brk := false, savedlab := lab, cnt := if d.brk then d.cnt + 1 else d.cnt, cases := cs },
         if d.brk then [.lab (.case (d.cnt + 1))] else [])
  | .dflt => if d.dflt then none else some ({ d with dflt := true }, [.lab .dflt])
  | .brk => some ({ d with brk := true }, [.ins (.jmp .exit)])
  | .brkIf p => some ({ d with brk := true }, [.brIf p .exit])
  | .stm f => some (d, [.stm f])

def dirs (m : Mode) (d : DSt) : List (Dir σ) → Option (DSt × List (Line σ))
  | [] => some (d, [])
  | x :: xs =>
    match dirStep m d x with
    | none => none
    | some (d1, l1) =>
      match dirs m d1 xs with
      | none => none
      | some (d2, l2) => some (d2, l1 ++ l2)

/-! ### `.ENDSWITCH`: sorting and choice of the method -/

/-- hll.c 335-348 (and 362-375): the inner loop for one `i` -/
def exch : Int × Nat → List (Int × Nat) → (Int × Nat) × List (Int × Nat)
  | x, [] => (x, [])
  | x, y :: ys =>
    if x.1 > y.1 then ((exch y ys).1, x :: (exch y ys).2)
    else ((exch x ys).1, y :: (exch x ys).2)

/-- hll.c 327-353, 355-380: bubblesort, bubblesort64; `n` bounds the outer loop. -/
def exsort : Nat → List (Int × Nat) → List (Int × Nat)
  | 0, l => l
  | _ + 1, [] => []
  | n + 1, x :: xs => (exch x xs).1 :: exsort n (exch x xs).2

def sortCases (l : List (Int × Nat)) : List (Int × Nat) := exsort l.length l

inductive Method | chain | both8 | both16 | jump | tree
deriving DecidableEq, Repr

def minOf (s : List (Int × Nat)) : Int := match s with | [] => 0 | c :: _ => c.1
def maxOf (s : List (Int × Nat)) : Int := match s.getLast? with | none => 0 | some c => c.1

/-- hll.c 1898-1933: cflag 1..3 = `chain`, 4 = `both8`, 7 = `both16`, 6 = `jump`, 5 = `tree`. `s` is sorted. -/
def method (m : Mode) (swsize : Int) (s : List (Int × Nat)) : Method :=
  let n : Int := s.length
  if s.length ≤ 3 then .chain
  else if m = .m64q then
    let d : Nat := (BitVec.ofInt 64 (maxOf s - minOf s)).toNat
    if (BitVec.ofNat 64 (d * 8)).toNat ≤ (BitVec.ofInt 64 (n * 10)).toNat then .jump
    else if d < 256 then .both8
    else if d < (BitVec.ofInt 64 swsize).toNat then .both16
    else .tree
  else
    let d := wrap32 (maxOf s - minOf s)
    if wrap32 (d * 4) ≤ n * 6 then .jump
    else if d < 256 then .both8
    else if d < swsize then .both16
    else .tree

/-! ### the tables -/

inductive Piece (α : Type) | comma | item (x : α)
deriving DecidableEq, Repr

abbrev Row (α : Type) := List (Piece α)

/-- `if (buffer[4] == ',') buffer[4] = ' '` (and the same for buffer[10] in the first row): a comma in front of the
    first item is removed. -/
def blank {α : Type} : Row α → Row α
  | .comma :: r => r
  | r => r

/-- data.c: the operands of a data directive: items with commas between them; anything else is a syntax error -/
def parseRow {α : Type} : Row α → Option (List α)
  | [.item x] => some [x]
  | .item x :: .comma :: r => (parseRow r).map (x :: ·)
  | _ => none

def parseRows {α : Type} : List (Row α) → Option (List α)
  | [] => some []
  | r :: rs =>
    match parseRow r, parseRows rs with
    | some a, some b => some (a ++ b)
    | _, _ => none

/-- hll.c 1941-1977, the loop: jump table of cflag 4 and 7 (labels, one for a run of equal ones) -/
structure T1 where
  rows : List (Row Lbl) := []
  cur : Row Lbl := []
  dcnt : Nat := 0
  lbl : Nat := 0
  acnt : Nat := 0

def t1Step (t : T1) (l : Nat) : T1 :=
  let t := if t.dcnt ≥ 75 then { t with rows := t.rows ++ [t.cur], cur := [], dcnt := 0 } else t
  let t := if l ≠ t.lbl then
      { t with cur := t.cur ++ (if t.dcnt ≠ 0 then [.comma] else []) ++ [.item (.case l)], acnt := t.acnt + 1 }
    else t
  { t with lbl := l, dcnt := t.dcnt + 1 }

/-- hll.c 1941-1977 -/
def table1 (dl : Lbl) (s : List (Int × Nat)) : List (Row Lbl) × Nat :=
  let t := (s.map (·.2)).foldl t1Step {}
  let cur := if t.dcnt ≠ 0 ∧ t.dcnt < 75 then t.cur ++ [.comma, .item dl] else t.cur
  (t.rows ++ [cur], t.acnt)

/-- hll.c 1985-2033, 2125-2170: the number table of cflag 4 and 7 -/
structure T2 where
  rows : List (Row Int) := []
  cur : Row Int := []
  dcnt : Nat := 0
  n : Int := 0
  bcnt : Nat := 0

/-- the flush of a full row -/
def t2Flush (t : T2) : T2 :=
  if t.dcnt ≥ 75 then { t with rows := t.rows ++ [blank t.cur], cur := [], dcnt := 0 } else t

/-- hll.c 2005-2021 (2144-2160): one turn of the `while` loop -/
def t2Fill (acnt : Nat) (t : T2) : T2 :=
  t2Flush { t with cur := t.cur ++ (if t.dcnt ≠ 0 then [.comma] else []) ++ [.item (acnt : Int)],
                   n := t.n + 1, dcnt := t.dcnt + 1 }

def iter {α : Type} (f : α → α) : Nat → α → α
  | 0, a => a
  | n + 1, a => iter f n (f a)

/-- `temp`: hll.c 1999-2003, 2137-2142: the distance to the smallest case -/
def tempOf (m : Mode) (me : Method) (minc v : Int) : Int :=
  match m with
  | .m64q => if me = .both8 then wrap32 v - minc else wrap64 (v - minc)
  | _ => wrap32 (v - minc)

/-- hll.c 1991-2030: one turn of the `for` loop; `next` is plabels[j + 1] (behind the last one: anything) -/
def t2Case (temp : Int) (acnt : Nat) (l next : Nat) (t : T2) : T2 :=
  let t := t2Flush t
  let t := iter (t2Fill acnt) (temp - t.n).toNat t
  { t with cur := t.cur ++ (if t.n ≠ 0 then [.comma] else []) ++ [.item (t.bcnt : Int)],
           n := t.n + 1, bcnt := if l ≠ next then t.bcnt + 1 else t.bcnt, dcnt := t.dcnt + 1 }

def headLab : List (Int × Nat) → Nat
  | [] => 0
  | d :: _ => d.2

def t2Loop (m : Mode) (me : Method) (minc : Int) (acnt : Nat) : List (Int × Nat) → T2 → T2
  | [], t => t
  | c :: cs, t =>
    t2Loop m me minc acnt cs
      (t2Case (tempOf m me minc c.1) acnt c.2 (headLab cs) t)

/-- hll.c 1985-2033 (`both8`) and 2125-2170 (`both16`, which writes the last number twice) -/
def table2 (m : Mode) (me : Method) (acnt : Nat) (s : List (Int × Nat)) : List (Row Int) :=
  let t := t2Loop m me (minOf s) acnt s {}
  t.rows ++ [if me = .both16 then blank t.cur ++ t.cur.drop (t.cur.length - (if s.length = 1 then 1 else 2)) else blank t.cur]

/-- hll.c 2178-2235 (32-bit) and 2240-2330 (64-bit): the jump table of cflag 6 -/
structure T6 where
  rows : List (Row Lbl) := []
  cur : Row Lbl := []
  dcnt : Nat := 0
  n : Int := 0

def t6Flush (t : T6) : T6 := { t with rows := t.rows ++ [blank t.cur], cur := [], dcnt := 0 }

def t6Add (l : Lbl) (t : T6) : T6 := { t with cur := t.cur ++ [.comma, .item l] }

/-- one turn of the `while` loop that fills a hole -/
def t6Fill (m : Mode) (dl : Lbl) (t : T6) : T6 :=
  let t :=
    if m.is64 then
      if t.dcnt ≤ 75 then { t6Add dl t with dcnt := t.dcnt + 1 } else t6Flush (t6Add dl t)
    else
      if t.dcnt < 75 then t6Add dl t else t6Flush (t6Add dl t)
  { t with dcnt := t.dcnt + 1, n := t.n + 1 }

/-- is there room in the row: `dcnt < 75` in 32-bit, `dcnt <= 75` in 64-bit code -/
def t6Room (m : Mode) (t : T6) : Bool := if m.is64 then t.dcnt ≤ 75 else t.dcnt < 75

/-- one turn of the `for` loop: the label of a case (which is not written when the row is full) -/
def t6Case (m : Mode) (dl : Lbl) (temp : Int) (l : Nat) (t : T6) : T6 :=
  let t := if t.dcnt ≥ 75 then t6Flush t else t
  let t := iter (t6Fill m dl) (temp - t.n).toNat t
  let t := if t6Room m t then t6Add (.case l) t else t6Flush t
  { t with n := t.n + 1, dcnt := t.dcnt + 1 }

def t6Loop (m : Mode) (dl : Lbl) (minc : Int) : List (Int × Nat) → T6 → T6
  | [], t => t
  | c :: cs, t => t6Loop m dl minc cs (t6Case m dl (tempOf m .jump minc c.1) c.2 t)

def table6 (m : Mode) (dl : Lbl) (s : List (Int × Nat)) : List (Row Lbl) :=
  let t := t6Loop m dl (minOf s) s {}
  let t := if t6Room m t then t6Add dl t else t6Flush (t6Add dl t)
  t.rows ++ (if m.is64 ∨ t.cur ≠ [] then [blank t.cur] else [])

/-- hll.c 2043-2076, 2078-2120: the rows of cflag 5: at most `k` items, a comma in front of all but the first -/
def chunk {α : Type} (k : Nat) (cur : Row α) (dcnt : Nat) : List α → List (Row α)
  | [] => [cur]
  | x :: xs =>
    if dcnt ≥ k then cur :: chunk k [.item x] 1 xs
    else chunk k (cur ++ (if dcnt ≠ 0 then [.comma] else []) ++ [.item x]) (dcnt + 1) xs

/-- hll.c 2043-2067: labels, 15 in a row -/
def tableL (s : List (Int × Nat)) : List (Row Lbl) := chunk 15 [] 0 (s.map fun c => .case c.2)

/-- hll.c 2078-2120: the cases, 30 in a row; they are printed with "%d", also if they have 64 bits -/
def tableV (s : List (Int × Nat)) : List (Row Int) := chunk 30 [] 0 (s.map fun c => wrap32 c.1)

/-! ### the instructions of `.ENDSWITCH` -/

def idx4 : Mem := { lbl := some .data1, idx := some .ax, scale := 4 }

def opW : Mode → W
  | .m64q => .w64
  | _ => .w32

/-- hll.c 2336-2407: cflag 1, 2, 3 -/
def chainCode (m : Mode) (dl : Lbl) (cs : List (Int × Nat)) : List Ins :=
  cs.flatMap (fun c => [.cmpI (opW m) .ax c.1, .jcc .e (.case c.2)]) ++ [.jmp dl]

/-- hll.c 2416-2429, 2466-2479, 2516-2529: values outside of min..max go to the default -/
def rangeCode (m : Mode) (dl : Lbl) (lo hi : Int) : List Ins :=
  [.cmpI (opW m) .ax lo, .jcc .l dl, .cmpI (opW m) .ax hi, .jcc .g dl]

/-- `if (hll->mincase) sub eax,mincase` -/
def subMin (m : Mode) (lo : Int) : List Ins := if lo = 0 then [] else [.subI (opW m) .ax lo]

/-- hll.c 2409-2456: cflag 4 -/
def both8Code (m : Mode) (dl : Lbl) (lo hi : Int) : List Ins :=
  rangeCode m dl lo hi ++
  match m with
  | .m32 => [.load .ax 1 { lbl := some .data2, base := some .ax, disp := -lo }, .jmpM 4 idx4]
  | _ =>
    [.push .r10, .lea .w64 .r10 { lbl := some .data2 }] ++
    (if m = .m64d then [.cdqe] else []) ++
    [.load .r10 1 { base := some .r10, idx := some .ax, disp := -lo },
     .lea .w64 .ax { lbl := some .data1 },
     .load .ax 8 { base := some .ax, idx := some .r10, scale := 8 },
     .pop .r10, .jmpR .ax]

/-- hll.c 2458-2507: cflag 7 -/
def both16Code (m : Mode) (dl : Lbl) (lo hi : Int) : List Ins :=
  rangeCode m dl lo hi ++
  match m with
  | .m32 =>
    subMin m lo ++ [.load .ax 2 { lbl := some .data2, idx := some .ax, scale := 2 }, .jmpM 4 idx4]
  | _ =>
    [.push .r10, .lea .w64 .r10 { lbl := some .data2 }] ++ subMin m lo ++
    [.load .r10 2 { base := some .r10, idx := some .ax, scale := 2 },
     .lea .w64 .ax { lbl := some .data1 },
     .load .ax 8 { base := some .ax, idx := some .r10, scale := 8 },
     .pop .r10, .jmpR .ax]

/-- hll.c 2509-2556: cflag 6 -/
def jumpCode (m : Mode) (dl : Lbl) (lo hi : Int) : List Ins :=
  rangeCode m dl lo hi ++ subMin m lo ++
  match m with
  | .m32 => [.jmpM 4 idx4]
  | _ =>
    [.push .r10, .lea .w64 .r10 { lbl := some .data1 },
     .load .ax 8 { base := some .r10, idx := some .ax, scale := 8 },
     .pop .r10, .jmpR .ax]

/-- hll.c 2567-2612: cflag 5, in front of LTOP -/
def treeInit (m : Mode) (dl : Lbl) (n : Nat) : List Ins :=
  match m with
  | .m32 =>
    [.push .ax, .push .dx, .push .cx, .push .bx, .push .si, .push .di,
     .mov .w32 .si .ax, .movI .w32 .bx ((n : Int) - 1), .xorSelf .cx,
     .lea .w32 .di { lbl := some .data2 }, .jcc .s dl]
  | _ =>
    [.push .ax, .push .cx, .push .bx, .push .si, .push .di,
     .mov (opW m) .si .ax, .movI (opW m) .bx ((n : Int) - 1), .xorSelf .cx,
     .lea .w64 .di { lbl := some .data2 }, .jcc .s dl]

/-- hll.c 2614-2652: LTOP -/
def treeTop (m : Mode) : List Ins :=
  match m with
  | .m32 =>
    [.lea .w32 .ax { base := some .cx, idx := some .bx }, .cdq, .sub .w32 .ax .dx, .sar1 .w32 .ax,
     .cmpM .w32 { base := some .di, idx := some .ax, scale := 4 } .si,
     .jcc .e .jump, .jcc .ge .skip, .lea .w32 .cx { base := some .ax, disp := 1 }, .jmp .cont]
  | .m64d =>
    [.lea .w32 .ax { base := some .cx, idx := some .bx }, .sar1 .w64 .ax,
     .cmpM .w32 { base := some .di, idx := some .ax, scale := 4 } .si,
     .jcc .e .jump, .jcc .ge .skip, .lea .w32 .cx { base := some .ax, disp := 1 }, .jmp .cont]
  | .m64q =>
    [.lea .w64 .ax { base := some .cx, idx := some .bx }, .sar1 .w64 .ax,
     .cmpM .w64 { base := some .di, idx := some .ax, scale := 8 } .si,
     .jcc .e .jump, .jcc .ge .skip, .lea .w64 .cx { base := some .ax, disp := 1 }, .jmp .cont]

/-- hll.c 2653-2682: LJUMP -/
def treeJump (m : Mode) : List Ins :=
  match m with
  | .m32 =>
    [.pop .di, .pop .si, .pop .bx, .pop .cx, .pop .dx, .load .ax 4 idx4, .xchgSp .ax, .retn]
  | _ =>
    [.pop .di, .pop .si, .pop .bx, .lea .w64 .cx { lbl := some .data1 },
     .load .ax 8 { base := some .cx, idx := some .ax, scale := 8 }, .pop .cx, .xchgSp .ax, .retn]

/-- hll.c 2683-2696: LSKIP -/
def treeSkip (m : Mode) : List Ins :=
  match m with
  | .m64q => [.lea .w64 .bx { base := some .ax, disp := -1 }]
  | _ => [.lea .w32 .bx { base := some .ax, disp := -1 }]

/-- hll.c 2697-2728: LCONT -/
def treeCont (m : Mode) (dl : Lbl) : List Ins :=
  match m with
  | .m32 =>
    [.cmp .w32 .cx .bx, .jcc .le .top, .pop .di, .pop .si, .pop .bx, .pop .cx, .pop .dx, .pop .ax, .jmp dl]
  | _ =>
    [.cmp (opW m) .cx .bx, .jcc .le .top, .pop .di, .pop .si, .pop .bx, .pop .cx, .pop .ax, .jmp dl]

def onTree (me : Method) (l : List Ins) : List (Line σ) := if me = .tree then l.map .ins else []

/-- the dispatching code behind LSTART -/
def headCode (m : Mode) (me : Method) (dl : Lbl) (cs s : List (Int × Nat)) : List Ins :=
  match me with
  | .chain => chainCode m dl cs
  | .both8 => both8Code m dl (minOf s) (maxOf s)
  | .both16 => both16Code m dl (minOf s) (maxOf s)
  | .jump => jumpCode m dl (minOf s) (maxOf s)
  | .tree => treeInit m dl cs.length

def dispatch (m : Mode) (me : Method) (dl : Lbl) (cs s : List (Int × Nat)) : List (Line σ) :=
  (headCode m me dl cs s).map .ins ++
  .lab .top :: onTree me (treeTop m) ++
  .lab .jump :: onTree me (treeJump m) ++
  .lab .skip :: onTree me (treeSkip m) ++
  .lab .cont :: onTree me (treeCont m dl)

/-- what the assembler makes of a switch block: the code, and the contents of the tables LDATA1 (of pointers) and
    LDATA2 (of numbers of `w2` bytes) -/
structure Out (σ : Type) where
  mode : Mode
  code : List (Line σ)
  t1 : List Lbl
  t2 : List Int
  w2 : Nat

def tables (m : Mode) (me : Method) (dl : Lbl) (s : List (Int × Nat)) : Option (List Lbl × List Int × Nat) :=
  match me with
  | .chain => some ([], [], 1)
  | .both8 =>
    match parseRows (table1 dl s).1, parseRows (table2 m me (table1 dl s).2 s) with
    | some a, some b => some (a, b, 1)
    | _, _ => none
  | .both16 =>
    match parseRows (table1 dl s).1, parseRows (table2 m me (table1 dl s).2 s) with
    | some a, some b => some (a, b, 2)
    | _, _ => none
  | .jump => (parseRows (table6 m dl s)).map fun a => (a, [], 1)
  | .tree =>
    match parseRows (tableL s), parseRows (tableV s) with
    | some a, some b => some (a, b, if m = .m64q then 8 else 4)
    | _, _ => none

/-- hll.c 1538-1620, 1877-2738: the whole block. `cnt` is the label counter in front of the block (behind the labels
    of `.SWITCH` itself), `swsize` the limit set by OPTION SWITCHSIZE (0x4000 by default). -/
def assemble (is64 : Bool) (swsize : Int) (cnt : Nat) (k : OpKind) (val : X σ → BitVec 64) (ds : List (Dir σ)) :
    Option (Out σ) :=
  match switchOperand is64 k val with
  | none => none
  | some (m, ld) =>
    match dirs m { cnt := cnt } ds with
    | none => none
    | some (d, body) =>
      if d.cases = [] then none
      else
        let s := sortCases d.cases
        let dl := if d.dflt then .dflt else .exit
        let me := method m swsize s
        match tables m me dl s with
        | none => none
        | some (t1, t2, w2) =>
          some { mode := m, t1 := t1, t2 := t2, w2 := w2,
                 code := ld ++ .ins (.jmp .start) :: body ++ (if d.dflt then [] else [.lab .dflt]) ++
                   .lab .start :: dispatch m me dl d.cases s ++ [.lab .exit] }

end Verif.Switch
