import Verif.Hll.Model
/-!
# Model of the block directives (`/repo/hll.c` 1121-1190, 1465-1530, 1621-1825, 1830-1876, 2739-2850, 3037-3135)

.IF .ELSEIF .ELSE .ENDIF, .WHILE .ENDW, .REPEAT .UNTIL .UNTILCXZ, .FOR .ENDFOR, .BREAK and .CONTINUE (with and without
.IF), as the assembler meets them, one source line after the other. Not here: .SWITCH.

Simplifications:
* The lines put into the line queue are assembled immediately (RunLineQueue at the end of every directive), so the output is
  the concatenation of the lines of all directives and of the other lines of the source.
* Items of `HllFree` are reused without being cleared. All members that are read are written when a block is opened, so an
  item is a value here.
* The texts before and behind the colons of .FOR are given as the lines `ForInitAndNext` (hll.c 1215) makes of them.
* A directive with an error is `none`: the source is not accepted.
-/
namespace Verif.Hll

/-- `enum hll_cmd`, hll.c 93-100. -/
inductive Cmd | ifc | whilec | repeatc | forc
  deriving DecidableEq, Repr

/-- Lines of the resulting program: generated lines, LOOP instructions of .UNTILCXZ, and lines of the source which are not
block directives. -/
inductive LoopK | loop | loopz | loopnz
  deriving DecidableEq, Repr

inductive BLine (α β : Type)
  | gen (l : Line α)
  | loop (k : LoopK) (l : Nat)
  | user (u : β)

/-- `struct hll_item`, hll.c 126-138; 0 = no label. -/
structure Item (α β : Type) where
  cmd : Cmd
  ltest : Nat := 0
  lexit : Nat := 0
  lstart : Nat := 0
  lcont : Nat := 0
  elseOcc : Bool := false
  condlines : List (Line α) := []
  counter : List β := []

/-- `HllStack` and `ModuleInfo.hll_label`. -/
structure HSt (α β : Type) where
  stack : List (Item α β) := []
  cnt : Nat := 0

/-- A line of the source. -/
inductive Dir (α β : Type)
  | user (u : β)
  | if_ (c : List (Tok α))
  | elseif (c : List (Tok α))
  | else_
  | endif
  | while_ (c : List (Tok α))
  | endw
  | repeat_
  | until_ (c : List (Tok α))
  | untilcxz (c : List (Tok α))
  | for_ (init : List β) (c : List (Tok α)) (count : List β)
  | endfor
  | break_ (c : Option (List (Tok α)))
  | continue_ (c : Option (List (Tok α)))

section
variable {α β : Type}

/-- `if ( label ) AddLineQueueX( "%s:", label )` -/
def lab (l : Nat) : List (BLine α β) := if l = 0 then [] else [.gen (.label l)]

def jmpTo (l : Nat) : BLine α β := .gen (.jump jmpMnem l)

/-- EvaluateHllExpression (hll.c 1121) with errors dropped. -/
def evalCond (lbl : Nat) (isRepeat masm : Bool) (toks : List (Tok α)) (isTrue : Bool) (cnt : Nat) :
    Option (List (Line α) × Nat) :=
  match evaluateHll { lbl := lbl, isRepeat := isRepeat, masm := masm } toks isTrue cnt with
  | some (.ok r) => some r
  | _ => none

/-- The lines of the condition of .WHILE, hll.c 1770-1784: none if there is no condition. -/
def whileCond (lbl : Nat) (masm : Bool) (toks : List (Tok α)) (cnt : Nat) : Option (List (Line α) × Nat) :=
  if toks.isEmpty then some ([], cnt) else evalCond lbl false masm toks true cnt

/-- `!_memicmp( buffer, "jmp", 3 )`, hll.c 1787 -/
def startsJmp : List (Line α) → Bool
  | .jump m _ :: _ => m.c0 == 'j' && m.c1 == 'm' && m.c2 == 'p'
  | _ => false

/-- One line in CheckCXZLines, hll.c 1158-1190; `lines`: number of lines before it. -/
def cxzLine (lines : Nat) : Line α → Option (BLine α β)
  | .jump m l =>
    if m.c1 == 'm' && lines == 0 then some (.loop .loopz l)
    else if lines == 1 && m.c1 == 'z' then some (.loop .loopz l)
    else if lines == 1 && m.c1 == 'n' && m.c2 == 'z' then some (.loop .loopnz l)
    else none
  | x => some (.gen x)

/-- CheckCXZLines, hll.c 1146-1200: "jmp" becomes "loope" in the first line, "jz"/"jnz" become "loopz"/"loopnz" in the
second; every other jump, and more than two lines, are too complex. -/
def cxzLines (lines : Nat) : List (Line α) → Option (List (BLine α β))
  | [] => if lines > 2 then none else some []
  | x :: r =>
    match cxzLine lines x, cxzLines (lines + 1) r with
    | some y, some ys => some (y :: ys)
    | _, _ => none

/-- The lines of a condition. -/
def gens (c : List (Line α)) : List (BLine α β) := c.map .gen

/-- `for (; hll && hll->cmd == HLL_IF; hll = hll->next);` hll.c 3075: update of the innermost loop. `none`: no loop. -/
def onLoop {γ : Type} (f : Item α β → Nat → Option (Item α β × Nat × γ)) (cnt : Nat) :
    List (Item α β) → Option (List (Item α β) × Nat × γ)
  | [] => none
  | x :: r =>
    if x.cmd = .ifc then
      match onLoop f cnt r with
      | some (r', q) => some (x :: r', q)
      | none => none
    else
      match f x cnt with
      | some (x', q) => some (x' :: r, q)
      | none => none

/-- .BREAK and .CONTINUE, hll.c 3079-3103: the label to jump to, made now if it is the first use. -/
def exitLabel (isBreak : Bool) (x : Item α β) (cnt : Nat) : Option (Item α β × Nat × Nat) :=
  if isBreak then
    if x.lexit = 0 then some ({ x with lexit := cnt + 1 }, cnt + 1, cnt + 1) else some (x, cnt, x.lexit)
  else if x.cmd = .forc then
    if x.lcont = 0 then some ({ x with lcont := cnt + 1 }, cnt + 1, cnt + 1) else some (x, cnt, x.lcont)
  else if x.cmd = .repeatc ∧ x.ltest = 0 then some ({ x with ltest := cnt + 1 }, cnt + 1, cnt + 1)
  else some (x, cnt, if x.ltest ≠ 0 then x.ltest else x.lstart)

/-- .BREAK and .CONTINUE, hll.c 3073-3124. -/
def exitDir (masm isBreak : Bool) (st : HSt α β) (c : Option (List (Tok α))) : Option (HSt α β × List (BLine α β)) :=
  match onLoop (exitLabel isBreak) st.cnt st.stack with
  | none => none
  | some (stack, cnt, l) =>
    match c with
    | none => some (⟨stack, cnt⟩, [jmpTo l])
    | some toks =>
      match evalCond l false masm toks true cnt with
      | none => none
      | some (code, cnt) => some (⟨stack, cnt⟩, gens code)

/-- .ELSE and .ELSEIF up to the condition, hll.c 3040-3063: the item (with its exit label), the counter, the lines. -/
def elseDir (x : Item α β) (cnt : Nat) : Option (Item α β × Nat × List (BLine α β)) :=
  if x.cmd ≠ .ifc ∨ x.elseOcc = true then none
  else
    let (x, cnt) := if x.lexit = 0 then ({ x with lexit := cnt + 1 }, cnt + 1) else (x, cnt)
    some ({ x with ltest := 0 }, cnt, jmpTo x.lexit :: lab x.ltest)

/-- One line of the source: HllStartDir (hll.c 1465), HllEndDir (hll.c 1827), HllExitDir (hll.c 2856). -/
def stepDir (masm : Bool) (st : HSt α β) : Dir α β → Option (HSt α β × List (BLine α β))
  | .user u => some (st, [.user u])
  -- hll.c 1521-1536
  | .if_ c =>
    match evalCond (st.cnt + 1) false masm c false (st.cnt + 1) with
    | none => none
    | some (code, cnt) =>
      some (⟨{ cmd := .ifc, ltest := if code.isEmpty then 0 else st.cnt + 1 } :: st.stack, cnt⟩, gens code)
  -- hll.c 3064-3070
  | .elseif c =>
    match st.stack with
    | [] => none
    | x :: r =>
      match elseDir x st.cnt with
      | none => none
      | some (x, cnt, ls) =>
        match evalCond (cnt + 1) false masm c false (cnt + 1) with
        | none => none
        | some (code, cnt') => some (⟨{ x with ltest := cnt + 1 } :: r, cnt'⟩, ls ++ gens code)
  -- hll.c 3071-3072
  | .else_ =>
    match st.stack with
    | [] => none
    | x :: r =>
      match elseDir x st.cnt with
      | none => none
      | some (x, cnt, ls) => some (⟨{ x with elseOcc := true } :: r, cnt⟩, ls)
  -- hll.c 1866-1876, 2832
  | .endif =>
    match st.stack with
    | [] => none
    | x :: r => if x.cmd = .ifc then some (⟨r, st.cnt⟩, lab x.ltest ++ lab x.lexit) else none
  -- hll.c 1760-1796
  | .while_ c =>
    match whileCond (st.cnt + 1) masm c (st.cnt + 1) with
    | none => none
    | some (code, cnt) =>
      if startsJmp code then
        some (⟨{ cmd := .whilec, lstart := st.cnt + 1, condlines := code } :: st.stack, cnt⟩, lab (st.cnt + 1))
      else
        some (⟨{ cmd := .whilec, lstart := st.cnt + 1, ltest := cnt + 1, condlines := code } :: st.stack, cnt + 1⟩,
          jmpTo (cnt + 1) :: lab (st.cnt + 1))
  -- hll.c 2766-2778
  | .endw =>
    match st.stack with
    | [] => none
    | x :: r =>
      if x.cmd = .whilec then some (⟨r, st.cnt⟩, lab x.ltest ++ gens x.condlines ++ lab x.lexit) else none
  -- hll.c 1793-1796
  | .repeat_ => some (⟨{ cmd := .repeatc, lstart := st.cnt + 1 } :: st.stack, st.cnt + 1⟩, lab (st.cnt + 1))
  -- hll.c 2803-2821; without a condition there are no lines
  | .until_ c =>
    match st.stack with
    | [] => none
    | x :: r =>
      if x.cmd ≠ .repeatc then none
      else if c.isEmpty then some (⟨r, st.cnt⟩, lab x.ltest ++ lab x.lexit)
      else
        match evalCond x.lstart true masm c false st.cnt with
        | none => none
        | some (code, cnt) => some (⟨r, cnt⟩, lab x.ltest ++ gens code ++ lab x.lexit)
  -- hll.c 2779-2802
  | .untilcxz c =>
    match st.stack with
    | [] => none
    | x :: r =>
      if x.cmd ≠ .repeatc then none
      else if c.isEmpty then some (⟨r, st.cnt⟩, lab x.ltest ++ [.loop .loop x.lstart] ++ lab x.lexit)
      else
        match evalCond x.lstart true masm c false st.cnt with
        | none => none
        | some (code, cnt) =>
          match cxzLines 0 code with
          | none => none
          | some ls => some (⟨r, cnt⟩, lab x.ltest ++ ls ++ lab x.lexit)
  -- hll.c 1636-1757: `c` = [] is an empty text between the colons
  | .for_ init c count =>
    let ls := st.cnt + 1
    if c.isEmpty then
      some (⟨{ cmd := .forc, lstart := ls, counter := count, lcont := if count.isEmpty then ls else 0 } :: st.stack, ls⟩,
        init.map .user ++ lab ls)
    else
      match evalCond ls false masm c true (ls + 1) with
      | none => none
      | some (code, cnt) =>
        some (⟨{ cmd := .forc, lstart := ls, ltest := ls + 1, condlines := code, counter := count } :: st.stack, cnt⟩,
          init.map .user ++ [jmpTo (ls + 1)] ++ lab ls)
  -- hll.c 2740-2765
  | .endfor =>
    match st.stack with
    | [] => none
    | x :: r =>
      if x.cmd = .forc then
        some (⟨r, st.cnt⟩,
          (if x.lcont ≠ 0 ∧ (x.counter.isEmpty = false ∨ x.condlines.isEmpty = false) then lab x.lcont else []) ++
          x.counter.map .user ++
          (if x.condlines.isEmpty then [jmpTo x.lstart] else lab x.ltest ++ gens x.condlines) ++ lab x.lexit)
      else none
  | .break_ c => exitDir masm true st c
  | .continue_ c => exitDir masm false st c

/-- A piece of source. -/
def runDirs (masm : Bool) : HSt α β → List (Dir α β) → Option (HSt α β × List (BLine α β))
  | st, [] => some (st, [])
  | st, d :: ds =>
    match stepDir masm st d with
    | none => none
    | some (st, ls) =>
      match runDirs masm st ds with
      | none => none
      | some (st, ls') => some (st, ls ++ ls')

/-- The whole source: HllInit (hll.c 3171) sets the label counter to 0, and HllCheckOpen (hll.c 3143) reports blocks that
are still open at the end. -/
def assemble (masm : Bool) (ds : List (Dir α β)) : Option (List (BLine α β)) :=
  match runDirs masm {} ds with
  | some (st, code) => if st.stack.isEmpty then some code else none
  | none => none

end
end Verif.Hll
