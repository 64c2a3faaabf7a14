/-!
# Model of the conditions of the high level directives (`/repo/hll.c` 79-1140)

Simplifications, valid for the whole file:
* The text buffer is a list of lines. All pointers into it (`buffer`, `ptr`, `lastjmp`) point to the beginning of a line, so
  they are line numbers; `p == length` is a pointer to the terminating NUL. The 4 characters of a jump mnemonic are
  modelled as characters, because `InvertJump` edits them in place.
* `@C%04X` label texts are numbers. This is exact if less than 0x10000 labels exist and if operands do not contain the
  text of a generated label (see the todo at hll.c 900).
* An operand is one token, possibly inside of parentheses; all the ways the expression evaluator can fail are `none`.
-/
namespace Verif.Hll

/-- `struct expr.kind` with `indirect` for registers (hll.c 686-727). -/
inductive Kind | reg | regInd | addr | const (v : BitVec 64) | float
  deriving DecidableEq, Repr

/-- The attributes of an evaluated operand that `GetSimpleExpression` looks at. `ref` identifies the operand text. -/
structure Opnd (α : Type) where
  kind : Kind
  /-- `IS_SIGNED(mem_type)` -/
  signed : Bool := false
  /-- `GetValueSp(base_reg) & OP_XMM` -/
  xmm : Bool := false
  /-- `SizeFromRegister(base_reg) == 16` -/
  size16 : Bool := false
  /-- `mem_type == MT_REAL8` -/
  real8 : Bool := false
  ref : α

/-- `enum c_bop`, hll.c 165-189. -/
inductive Cmp | eq | ne | gt | lt | ge | le
  deriving DecidableEq, Repr
inductive FlagOp | zero | carry | sign | parity | overflow | less | greater | above | equal | below
  deriving DecidableEq, Repr
inductive Cop | cmp (c : Cmp) | and | or | andb | neg | flag (f : FlagOp)
  deriving DecidableEq, Repr

/-- Tokens of the line; the end of the list is T_FINAL. -/
inductive Tok (α : Type) | opnd (o : Opnd α) | lpar | rpar | cop (c : Cop)

/-- Generated instructions other than jumps: RenderInstr (hll.c 381), RenderSimdInstr (hll.c 421). -/
inductive Ins (α : Type)
  | test (a b : α) | or (a b : α) | cmp (a b : α) | cmp0 (a : α) | ucomi (dbl : Bool) (a b : α)

/-- The four characters before the label: `jcc `, hll.c 513-521. -/
structure Mnem where
  (c0 c1 c2 c3 : Char)
  deriving DecidableEq, Repr

inductive Line (α : Type)
  | ins (i : Ins α)
  | jump (m : Mnem) (l : Nat)
  | label (l : Nat)
  /-- text that is neither an instruction nor a label -/
  | garbage

inductive Err | syntax | const | crash
  deriving DecidableEq, Repr

/-- The buffer, `ModuleInfo.hll_label` and `struct hll_opnd` (hll.c 155). -/
structure St (α : Type) where
  buf : List (Line α)
  cnt : Nat
  lastjmp : Option Nat
  lasttrue : Nat

/-- What is constant during the evaluation of one condition: the label (`hll->labels[ilabel]`), `hll->cmd == HLL_REPEAT`,
`Options.masm_compat_gencode`, `ModuleInfo.arch` is irrelevant (the V-forms set the same flags). -/
structure Cfg where
  lbl : Nat
  isRepeat : Bool
  masm : Bool

/-- hll.c 193 -/
def flaginstr : FlagOp → Char
  | .zero => 'z' | .carry => 'c' | .sign => 's' | .parity => 'p' | .overflow => 'o'
  | .less => 'l' | .greater => 'g' | .above => 'a' | .equal => 'e' | .below => 'b'

/-- hll.c 196 -/
def unsigned_cjmptype : Cmp → Char
  | .eq => 'z' | .ne => 'z' | .gt => 'a' | .lt => 'b' | .ge => 'b' | .le => 'a'
/-- hll.c 197 -/
def signed_cjmptype : Cmp → Char
  | .eq => 'z' | .ne => 'z' | .gt => 'g' | .lt => 'l' | .ge => 'l' | .le => 'g'
/-- hll.c 198 -/
def neg_cjmptype : Cmp → Bool
  | .eq => false | .ne => true | .gt => false | .lt => false | .ge => true | .le => true

/-- RenderJcc, hll.c 507-527. -/
def jcc (cc : Char) (neg : Bool) : Mnem :=
  if neg then ⟨'j', 'n', cc, ' '⟩ else ⟨'j', cc, ' ', ' '⟩

def jmpMnem : Mnem := ⟨'j', 'm', 'p', ' '⟩

/-- InvertJump on a jump, hll.c 839-893; `none`: the text is cut off here. -/
def invertJump (m : Mnem) : Option Mnem :=
  if m.c1 = 'e' ∨ m.c1 = 'z' ∨ m.c1 = 'c' ∨ m.c1 = 's' ∨ m.c1 = 'p' ∨ m.c1 = 'o' then some ⟨m.c0, 'n', m.c1, m.c3⟩
  else if m.c1 = 'n' then some ⟨m.c0, m.c2, ' ', m.c3⟩
  else if m.c1 = 'a' then some ⟨m.c0, 'b', if m.c2 = 'e' then ' ' else 'e', m.c3⟩
  else if m.c1 = 'b' then some ⟨m.c0, 'a', if m.c2 = 'e' then ' ' else 'e', m.c3⟩
  else if m.c1 = 'g' then some ⟨m.c0, 'l', if m.c2 = 'e' then ' ' else 'e', m.c3⟩
  else if m.c1 = 'l' then some ⟨m.c0, 'g', if m.c2 = 'e' then ' ' else 'e', m.c3⟩
  else if m.c1 = 'm' then none
  else some m

/-- InvertJump at `lastjmp` and new destination, hll.c 945-954 and 1028-1036: an empty text becomes `jmp`; writing the
label ends the text there. A label line found at `lastjmp` is destroyed. -/
def retarget {α : Type} (buf : List (Line α)) (k t : Nat) : List (Line α) :=
  match buf[k]? with
  | none => buf.take k ++ [.jump jmpMnem t]
  | some (.jump m _) =>
    match invertJump m with
    | none => buf.take k
    | some m' => buf.take k ++ [.jump m' t]
  | some _ => buf.take k ++ [.garbage]

/-- ReplaceLabel in one line, hll.c 901-919. -/
def replLine {α : Type} (o n : Nat) : Line α → Line α
  | .jump m l => .jump m (if l = o then n else l)
  | .label l => .label (if l = o then n else l)
  | x => x

/-- ReplaceLabel( p, olabel, nlabel ) for `p` = line number. -/
def replaceLabel {α : Type} (buf : List (Line α)) (p o n : Nat) : List (Line α) :=
  buf.take p ++ (buf.drop p).map (replLine o n)

/-- What EvalOperand accepts: an operand in any number of parentheses. -/
def evalOperand {α : Type} : List (Tok α) → Option (Opnd α × List (Tok α))
  | .opnd o :: rest => some (o, rest)
  | .lpar :: rest =>
    match evalOperand rest with
    | some (o, .rpar :: rest') => some (o, rest')
    | _ => none
  | _ => none

/-- GetToken, hll.c 540-566; the inner `none` is EXPR_EMPTY. -/
def getToken {α : Type} (toks : List (Tok α)) : Option (Option (Opnd α) × List (Tok α)) :=
  match toks with
  | [] => some (none, [])
  | .cop c :: rest => some (none, .cop c :: rest)
  | toks =>
    match evalOperand toks with
    | some (o, rest) => some (some o, rest)
    | none => none

/-- The scan for the closing bracket, hll.c 610-621: `true` = not a plain operand. -/
def isHll {α : Type} : Nat → List (Tok α) → Bool
  | brcnt, [] => brcnt != 0
  | brcnt, .lpar :: t => isHll (brcnt + 1) t
  | brcnt, .rpar :: t => if brcnt - 1 = 0 then false else isHll (brcnt - 1) t
  | brcnt, .cop _ :: _ => brcnt != 0
  | brcnt, .opnd _ :: t => isHll brcnt t

/-- GetCOp at the current position with the handling of && and ||, hll.c 644-655. -/
def getOp {α : Type} : List (Tok α) → Option Cop × List (Tok α)
  | .cop .and :: t => (none, .cop .and :: t)
  | .cop .or :: t => (none, .cop .or :: t)
  | .cop c :: t => (some c, t)
  | t => (none, t)

/-- Append `ls`; the jump, if any, is the line number `k` of `ls`. -/
def St.emit {α : Type} (st : St α) (ls : List (Line α)) (k : Nat) : St α :=
  { st with buf := st.buf ++ ls, lastjmp := some (st.buf.length + k) }

/-- The low and high dword of a constant are `value` and `hvalue` (hll.c 711, 716). -/
def constOk (v : BitVec 64) : Bool := (v >>> 32).setWidth 32 == 0#32 || (v >>> 32).setWidth 32 == 0xFFFFFFFF#32
def constTrue (v : BitVec 64) : Bool := v.setWidth 32 != 0#32

/-- One operand without operator, hll.c 689-727. EXPR_FLOAT was rejected before (hll.c 682). -/
def genValue {α : Type} (cfg : Cfg) (o : Opnd α) (isTrue : Bool) (st : St α) : Except Err (St α) :=
  match o.kind with
  | .reg => .ok (st.emit [.ins (.test o.ref o.ref), .jump (jcc 'z' isTrue) cfg.lbl] 1)
  | .regInd | .addr => .ok (st.emit [.ins (.cmp0 o.ref), .jump (jcc 'z' isTrue) cfg.lbl] 1)
  | .const v =>
    if constOk v then
      if isTrue = constTrue v then .ok (st.emit [.jump jmpMnem cfg.lbl] 0)
      else .ok (st.emit [] 0)
    else .error .const
  | .float => .error .syntax

def Kind.isConst : Kind → Bool
  | .const _ => true
  | _ => false

/-- The comparison instruction, hll.c 756-822; `none` = syntax error. -/
def cmpIns {α : Type} (cfg : Cfg) (op : Cmp) (a b : Opnd α) : Option (Ins α) :=
  if cfg.masm = true ∧ (op = .eq ∨ op = .ne) ∧ a.kind = .reg ∧ b.kind = .const 0#64 then some (.or a.ref a.ref)
  else if (op = .eq ∨ op = .ne) ∧ a.kind = .reg ∧ b.kind = .const 0#64 then some (.test a.ref a.ref)
  else if a.kind = .reg ∧ a.xmm = true ∧ b.kind = .reg ∧ b.xmm = true then
    some (.ucomi (a.real8 || b.real8) a.ref b.ref)
  else if a.kind = .reg ∧ a.size16 = true ∧ (b.kind = .regInd ∨ b.kind = .addr) then
    some (.ucomi (a.real8 || b.real8) a.ref b.ref)
  else if a.kind = .reg ∧ a.size16 = true ∧ (b.kind.isConst = true ∨ b.kind = .float) then none
  else some (.cmp a.ref b.ref)

/-- Code for `op1 op op2`, hll.c 743-835. -/
def genBinary {α : Type} (cfg : Cfg) (op : Cop) (a b : Opnd α) (isTrue : Bool) (st : St α) : Except Err (St α) :=
  match op with
  | .andb => .ok (st.emit [.ins (.test a.ref b.ref), .jump (jcc 'e' isTrue) cfg.lbl] 1)
  | .cmp c =>
    match cmpIns cfg c a b with
    | none => .error .syntax
    | some i =>
      let instr := if a.signed || b.signed then signed_cjmptype c else unsigned_cjmptype c
      .ok (st.emit [.ins i, .jump (jcc instr (if neg_cjmptype c then isTrue else !isTrue)) cfg.lbl] 1)
  | _ => .error .syntax

/-- A condition that is not a parenthesised condition, hll.c 637-836. -/
def simpleCode {α : Type} (cfg : Cfg) (toks : List (Tok α)) (isTrue : Bool) (st : St α) :
    Except Err (List (Tok α) × St α) :=
  match getToken toks with
  | none => .error .syntax
  | some (op1, toks) =>
    match op1, getOp toks with
    | none, (some (.flag f), toks) =>
      .ok (toks, st.emit [.jump (jcc (flaginstr f) (!isTrue)) cfg.lbl] 0)
    | none, _ => .error .syntax
    | some _, (some (.flag _), _) => .error .syntax
    | some a, (none, toks) =>
      match genValue cfg a isTrue st with
      | .error e => .error e
      | .ok st => .ok (toks, st)
    | some a, (some op, toks) =>
      if a.kind = .float then .error .syntax
      else
        match getToken toks with
        | some (some b, toks) =>
          match genBinary cfg op a b isTrue st with
          | .error e => .error e
          | .ok st => .ok (toks, st)
        | _ => .error .syntax

/-- hll.c 941-968: `&&` behind an operand with `is_true`. Returns `truelabel` and the state. -/
def andFix {α : Type} (cfg : Cfg) (buffer truelabel : Nat) (st : St α) : Nat × St α :=
  match st.lastjmp with
  | none => (truelabel, st)
  | some k =>
    let (truelabel, cnt) := if truelabel = 0 then (st.cnt + 1, st.cnt + 1) else (truelabel, st.cnt)
    let buf := retarget st.buf k truelabel
    let buf := if st.lasttrue ≠ 0 then replaceLabel buf buffer st.lasttrue truelabel else buf
    let nlabel := cnt + 1
    let buf := buf ++ [.label cfg.lbl]
    let buf := replaceLabel buf buffer cfg.lbl nlabel
    (truelabel, { st with buf := buf, cnt := nlabel, lastjmp := none })

/-- hll.c 977-983: the end of GetAndExpression. -/
def andEnd {α : Type} (truelabel : Nat) (st : St α) : St α :=
  if truelabel > 0 then { st with buf := st.buf ++ [.label truelabel], lastjmp := none } else st

/-- hll.c 1025-1054: `||` behind an operand with `is_true == FALSE`. -/
def orFix {α : Type} (cfg : Cfg) (buffer ptr truelabel : Nat) (st : St α) : Nat × St α :=
  match st.lastjmp with
  | none => (truelabel, st)
  | some k =>
    let (truelabel, cnt) := if truelabel = 0 then (st.cnt + 1, st.cnt + 1) else (truelabel, st.cnt)
    let buf := retarget st.buf k truelabel
    let buf := if st.lasttrue ≠ 0 then replaceLabel buf ptr st.lasttrue truelabel else buf
    let nlabel := cnt + 1
    let buf :=
      if cfg.isRepeat then replaceLabel buf buffer cfg.lbl nlabel ++ [.label nlabel]
      else replaceLabel (buf ++ [.label cfg.lbl]) buffer cfg.lbl nlabel
    (truelabel, { st with buf := buf, cnt := nlabel, lastjmp := none })

/-- hll.c 1062-1074: the end of GetExpression. -/
def orEnd {α : Type} (ptr truelabel : Nat) (st : St α) : Except Err (St α) :=
  if truelabel > 0 then
    match st.lastjmp with
    | some k =>
      if st.lasttrue ≠ 0 then
        if k < st.buf.length then
          .ok { st with
                buf := (replaceLabel st.buf ptr st.lasttrue truelabel).take (k + 1) ++ [.label truelabel],
                lasttrue := truelabel }
        else .error .crash
      else .ok { st with buf := st.buf ++ [.label truelabel], lasttrue := truelabel }
    | none => .ok { st with buf := st.buf ++ [.label truelabel], lasttrue := truelabel }
  else .ok st

/-- The result of the recursive functions; they return `Option (R α)`, where `none` = does not terminate. -/
abbrev R (α : Type) := Except Err (List (Tok α) × St α)

mutual

/-- GetSimpleExpression, hll.c 583-836. -/
def getSimple {α : Type} (cfg : Cfg) (toks : List (Tok α)) (isTrue : Bool) (st : St α) : Option (R α) :=
  match toks with
  | .cop .neg :: t => do
    let r ← getSimple cfg t (!isTrue) st
    return r
  | .lpar :: t =>
    if isHll 1 t then do
      let r ← getExpr cfg t isTrue st
      match r with
      | .ok (.rpar :: t', st') => return .ok (t', st')
      | .ok _ => return .error .syntax
      | .error e => return .error e
    else return simpleCode cfg toks isTrue st
  | _ => return simpleCode cfg toks isTrue st
partial_fixpoint

/-- The loop of GetAndExpression, hll.c 936-984. -/
def andLoop {α : Type} (cfg : Cfg) (toks : List (Tok α)) (isTrue : Bool) (buffer truelabel : Nat) (st : St α) : Option (R α) :=
  match toks with
  | .cop .and :: t => do
    let (truelabel, st) := if isTrue then andFix cfg buffer truelabel st else (truelabel, st)
    let r ← getSimple cfg t isTrue { st with lasttrue := 0 }
    match r with
    | .error e => return .error e
    | .ok (t', st') => do
      let r ← andLoop cfg t' isTrue buffer truelabel st'
      return r
  | _ => return .ok (toks, andEnd truelabel st)
partial_fixpoint

/-- GetAndExpression, hll.c 924-985. -/
def getAnd {α : Type} (cfg : Cfg) (toks : List (Tok α)) (isTrue : Bool) (st : St α) : Option (R α) := do
  let r ← getSimple cfg toks isTrue st
  match r with
  | .error e => return .error e
  | .ok (t', st') => do
    let r ← andLoop cfg t' isTrue st.buf.length 0 st'
    return r
partial_fixpoint

/-- The loop of GetExpression, hll.c 1003-1074. -/
def orLoop {α : Type} (cfg : Cfg) (toks : List (Tok α)) (isTrue : Bool) (buffer ptr truelabel : Nat) (st : St α) :
    Option (R α) :=
  match toks with
  | .cop .or :: t => do
    let (truelabel, st) := if isTrue then (truelabel, st) else orFix cfg buffer ptr truelabel st
    let ptr := st.buf.length
    let r ← getAnd cfg t isTrue { st with lasttrue := 0 }
    match r with
    | .error e => return .error e
    | .ok (t', st') => do
      let r ← orLoop cfg t' isTrue buffer ptr truelabel st'
      return r
  | _ =>
    match orEnd ptr truelabel st with
    | .error e => return .error e
    | .ok st' => return .ok (toks, st')
partial_fixpoint

/-- GetExpression, hll.c 986-1076. -/
def getExpr {α : Type} (cfg : Cfg) (toks : List (Tok α)) (isTrue : Bool) (st : St α) : Option (R α) := do
  let r ← getAnd cfg toks isTrue st
  match r with
  | .error e => return .error e
  | .ok (t', st') => do
    let r ← orLoop cfg t' isTrue st.buf.length st.buf.length 0 st'
    return r
partial_fixpoint

end

/-- EvaluateHllExpression, hll.c 1121-1139: the generated lines and the new label counter. -/
def evaluateHll {α : Type} (cfg : Cfg) (toks : List (Tok α)) (isTrue : Bool) (cnt : Nat) :
    Option (Except Err (List (Line α) × Nat)) := do
  let r ← getExpr cfg toks isTrue { buf := [], cnt := cnt, lastjmp := none, lasttrue := 0 }
  match r with
  | .ok ([], st) => return .ok (st.buf, st.cnt)
  | .ok _ => return .error .syntax
  | .error e => return .error e

end Verif.Hll
