import Verif.Frame.Machine
import Verif.Proc.Model
/-! # Model: prologues, epilogues and Win64 unwind data (`proc.c`)

Modelled: write_win64_default_prologue_RBP / epilogue_RBP, write_win64_default_prologue_RSP / epilogue_RSP (outside vectorcall),
write_sysv_default_prologue_RBP / epilogue_RBP, write_generic_prologue / epilogue, win64_SaveRegParams_RBP / _RSP, win64_StoreRegHome,
pop_register, ExcFrameDirective, WriteSEHData.
A generated source line is an instruction of `Machine` or a directive. Simplifications: sizes are natural numbers (no wrap-around at
2^32); the `db 48h` in front of `push rbp` is part of that instruction (the length of an instruction is a parameter);
`movdqa`/`movdqu`/`vmovdqu` are the same store; debug and listing effects are left out; STACKPROBE is 0 (proc.c:50). -/
namespace Verif.Frame
open Verif.Proc (roundUp)

/-- A register of the USES clause (`OP_XMM`, `OP_YMM`, `OP_ZMM` or a general register) with its number. -/
inductive UReg
  | gpr (r : Nat)
  | xmm (r : Nat)
  | ymm (r : Nat)
  | zmm (r : Nat)
  deriving DecidableEq, Repr

def UReg.g? : UReg → Option Nat
  | .gpr r => some r
  | _ => none

/-- (register, bytes) of a vector register. -/
def UReg.v? : UReg → Option (Nat × Nat)
  | .gpr _ => none
  | .xmm r => some (r, 16)
  | .ymm r => some (r, 32)
  | .zmm r => some (r, 64)

/-- The general registers of a USES list, in order. -/
def gprs (regs : List UReg) : List Nat := regs.filterMap UReg.g?

/-- The vector registers of a USES list with their sizes, in order. -/
def vecs (regs : List UReg) : List (Nat × Nat) := regs.filterMap UReg.v?

/-- Unwind directives (proc.c:2333-2600); operand values are 64-bit constants given as integers. YMM256 and ZMM512 are handled as
XMM128 (proc.c:2520-2573). -/
inductive Dir
  | alloc (v : Int)
  | endprolog
  | pushframe (code : Bool)
  | pushreg (r : Nat)
  | savereg (r : Nat) (v : Int)
  | savexmm (r : Nat) (v : Int)
  | setframe (r : Nat) (v : Int)
  deriving DecidableEq, Repr

inductive Line
  | ins (i : Ins)
  | dir (d : Dir)
  deriving DecidableEq, Repr

def Line.ins? : Line → Option Ins
  | .ins i => some i
  | .dir _ => none

/-- The instructions among the generated lines. -/
def code (l : List Line) : List Ins := l.filterMap Line.ins?

/-! ## Parameters saved in the home area -/

inductive PKind | real4 | real8 | int (size : Nat) | vararg
  deriving DecidableEq, Repr

/-- A parameter: its kind and `sym.used`. -/
structure Param where
  kind : PKind
  used : Bool
  deriving DecidableEq, Repr

/-- `ms64_regs`: rcx, rdx, r8, r9 (proc.c). -/
def msReg (i : Nat) : Nat := match i with | 0 => 1 | 1 => 2 | 2 => 8 | _ => 9

/-- win64_SaveRegParams_RBP (proc.c:2929-2967): `fuel` = 4 - i; a VARARG parameter is not passed in the list. GetWin64SubReg gives the
register with the size of the parameter. -/
def saveParamsRBP : Nat → Nat → List Param → List Ins
  | 0, _, _ => []
  | _ + 1, _, [] => []
  | f + 1, i, p :: r =>
    match p.kind with
    | .vararg => .put (msReg i) (8 + i * 8) 8 :: saveParamsRBP f (i + 1) (p :: r)
    | .real4 => (if p.used then [Ins.vput i (8 + i * 8) 4] else []) ++ saveParamsRBP f (i + 1) r
    | .real8 => (if p.used then [Ins.vput i (8 + i * 8) 8] else []) ++ saveParamsRBP f (i + 1) r
    | .int n => (if p.used then [Ins.put (msReg i) (8 + i * 8) (if n = 1 ∨ n = 2 ∨ n = 4 then n else 8)] else [])
        ++ saveParamsRBP f (i + 1) r

/-- win64_SaveRegParams_RSP outside vectorcall with W64F_SMART (proc.c:2758-2790). -/
def saveParamsRSP : Nat → Nat → List Param → List Ins
  | 0, _, _ => []
  | _ + 1, _, [] => []
  | f + 1, i, p :: r =>
    match p.kind with
    | .vararg => .put (msReg i) (8 + i * 8) 8 :: saveParamsRSP f (i + 1) (p :: r)
    | .real4 => (if p.used then [Ins.vput i (8 + i * 8) 4] else []) ++ saveParamsRSP f (i + 1) r
    | .real8 => (if p.used then [Ins.vput i (8 + i * 8) 8] else []) ++ saveParamsRSP f (i + 1) r
    | .int _ => (if p.used then [Ins.put (msReg i) (8 + i * 8) 8] else []) ++ saveParamsRSP f (i + 1) r

/-- `home_used[0..3]` after win64_SaveRegParams_RSP (proc.c:2716, 2758-2790). -/
def homeUsed0 : Nat → List Param → List Bool
  | 0, _ => []
  | f + 1, [] => false :: homeUsed0 f []
  | f + 1, p :: r => if p.kind = .vararg then true :: homeUsed0 f (p :: r) else p.used :: homeUsed0 f r

/-! ## Win64, frame pointer RBP: FRAME procedures with OPTION FRAME:AUTO -/

/-- State used by the RBP pair. -/
structure W where
  regs : List UReg
  params : List Param
  /-- `info->basereg` -/
  base : Nat
  localsize : Nat
  frameofs : Nat
  /-- `sym_ReservedStack->value` -/
  resv : Nat
  saveParams : Bool
  autosp : Bool
  align16 : Bool
  stackparam : Bool
  vararg : Bool
  fpo : Bool
  deriving DecidableEq, Repr

def W.resstack (w : W) : Nat := if w.autosp then w.resv else 0

/-- proc.c:3051-3075, 3636-3659; also 4724-4745, 5201-5224. -/
def stackadj (fpo : Bool) (pushed localsize : Nat) : Nat :=
  if fpo then
    if pushed % 2 = 0 ∧ localsize % 16 = 0 then 8 else if pushed % 2 = 0 then 0 else if localsize % 16 = 0 then 0 else 8
  else
    if pushed % 2 = 0 ∧ localsize % 16 = 0 then 0 else if pushed % 2 = 0 then 8 else if localsize % 16 = 0 then 8 else 0

/-- `(1 << GetRegNo(r)) & win64_nvgpr`, `win64_nvgpr` = 0F0E8h (proc.c:130, 3034): rbx, rbp, rsi, rdi, r12-r15. -/
def nonvol (r : Nat) : Bool := (0xF0E8 >>> r) % 2 = 1

/-- Push of the USES registers (proc.c:3017-3040, 3262-3291). -/
def pushLines : List Nat → List Line
  | [] => []
  | r :: l => .ins (.push r) :: (if nonvol r then [.dir (.pushreg r)] else []) ++ pushLines l

/-- Vector registers stored from [rsp+i] upwards with their directives (proc.c:3136-3190, 3359-3405). -/
def vputLines : Int → List (Nat × Nat) → List Line
  | _, [] => []
  | i, (r, n) :: l => .ins (.vput r i n) :: .dir (.savexmm r i) :: vputLines (i + n) l

/-- Vector registers loaded from [base+i] upwards (proc.c:3692-3722, 3798-3830, 4514-4532). -/
def vgetLines (base : Option Nat) : Int → List (Nat × Nat) → List Ins
  | _, [] => []
  | i, (r, n) :: l => .vget r base i n :: vgetLines base (i + n) l

/-- Bytes of all vector registers: `16 * cntxmm` with 1, 2, 4 units (proc.c:3021-3030). -/
def vecBytes (regs : List UReg) : Nat := ((vecs regs).map (·.2)).sum

/-- `i = (info->localsize - cntxmm * 16) & ~(16 - 1)` (proc.c:3140, 3684). -/
def vecBase (localsize bytes : Nat) : Nat := (localsize - bytes) / 16 * 16

/-- write_win64_default_prologue_RBP (proc.c:2976-3213) for `isframe && frame_auto`. -/
def prologueRBP (w : W) : List Line :=
  let adj := stackadj w.fpo (gprs w.regs).length w.localsize
  (if w.saveParams then (saveParamsRBP 4 0 w.params).map Line.ins else [])
  ++ (if w.fpo then [] else [.ins (.push w.base), .dir (.pushreg w.base)])
  ++ pushLines (gprs w.regs)
  ++ (if !w.fpo || w.stackparam || w.vararg || w.align16 || w.autosp then
        (if w.localsize + adj + w.resstack > 0 then
          let n := w.localsize + adj + (if w.resstack ≠ 0 then w.resv else 0)
          [.ins (.sub n), .dir (.alloc n)]
        else [])
      else if adj + w.localsize > 0 then [.ins (.sub (adj + w.localsize : Nat)), .dir (.alloc (adj + w.localsize : Nat))]
      else [])
  ++ (if vecs w.regs ≠ [] then
        vputLines (vecBase w.localsize (vecBytes w.regs) + (if w.resstack ≠ 0 then w.resv else 0) : Nat) (vecs w.regs)
      else [])
  ++ (if w.fpo then [] else [.ins (.lea w.base w.frameofs), .dir (.setframe w.base w.frameofs)])
  ++ [.dir .endprolog]

/-- pop_register (proc.c:5085-5113) without W64F_SMART, or when all general registers were pushed. -/
def popLines (regs : List Nat) : List Ins := regs.reverse.map Ins.pop

/-- The part of the epilogue that frees the stack (proc.c:3729-3764). -/
def W.spBack (w : W) : List Ins :=
  let adj := stackadj w.fpo (gprs w.regs).length w.localsize
  if !w.fpo || w.stackparam || w.vararg || w.align16 || w.autosp then
    (if !w.fpo then
      (if w.localsize + adj + w.resstack > 0 then
        [Ins.spFrom w.base ((adj + w.localsize : Nat) - w.frameofs + (if w.resstack ≠ 0 then w.resv else 0 : Nat))]
      else [Ins.spFrom w.base 0])
    else if w.localsize + adj + w.resstack > 0 then [Ins.sub (-((adj + w.localsize + w.resv : Nat) : Int))] else [])
  else if adj + w.localsize > 0 then
    (if !w.fpo then [Ins.spFrom w.base ((adj + w.localsize : Nat) - w.frameofs)]
     else [Ins.sub (-((adj + w.localsize : Nat) : Int))])
  else []

/-- write_win64_default_epilogue_RBP (proc.c:3629-3773) for `isframe && frame_auto`. -/
def epilogueRBP (w : W) : List Ins :=
  (if vecs w.regs ≠ [] then
      vgetLines (if w.fpo then none else some w.base)
        ((vecBase w.localsize (vecBytes w.regs) : Nat) - w.frameofs + (if w.autosp then (w.resv : Int) else 0)) (vecs w.regs)
    else [])
  ++ w.spBack
  ++ popLines (gprs w.regs)
  ++ (if w.fpo then [] else [Ins.pop w.base])

/-! ## Win64, RSP as stack base (proc.c:3217-3563, 3778-3912), outside vectorcall -/

/-- win64_SaveRegParams_RSP outside vectorcall without W64F_SMART (proc.c:2791-2806): every parameter, used or not. -/
def saveParamsRSP0 : Nat → Nat → List Param → List Ins
  | 0, _, _ => []
  | _ + 1, _, [] => []
  | f + 1, i, p :: r =>
    match p.kind with
    | .vararg => .put (msReg i) (8 + i * 8) 8 :: saveParamsRSP0 f (i + 1) (p :: r)
    | .real4 => .vput i (8 + i * 8) 8 :: saveParamsRSP0 f (i + 1) r
    | .real8 => .vput i (8 + i * 8) 8 :: saveParamsRSP0 f (i + 1) r
    | .int _ => .put (msReg i) (8 + i * 8) 8 :: saveParamsRSP0 f (i + 1) r

/-- State used by the RSP pair; `smart`: W64F_SMART together with W64F_SAVEREGPARAMS (OPTION WIN64:11 or 15, the values
`STACKBASE:RSP` gives); W64F_SMART alone is not modelled. -/
structure R where
  regs : List UReg
  params : List Param
  /-- `info->locallist != NULL` -/
  hasLocals : Bool
  /-- `info->localsize` at the start of the prologue -/
  localsize0 : Nat
  resv : Nat
  smart : Bool
  /-- W64F_SAVEREGPARAMS (with `smart` it is set anyway) -/
  saveParams : Bool
  autosp : Bool
  deriving DecidableEq, Repr

def R.resstack (w : R) : Nat := if w.autosp then w.resv else 0

def hu (h : List Bool) (i : Nat) : Bool := h.getD i true

/-- Mark the `n`-th and later free entries as taken. -/
def takeFrom : Nat → List Bool → List Bool
  | _, [] => []
  | n, true :: l => true :: takeFrom n l
  | 0, false :: l => true :: takeFrom 0 l
  | n + 1, false :: l => false :: takeFrom n l

/-- Mark the first free entry as taken. -/
def takeFirst : List Bool → List Bool
  | [] => []
  | true :: l => true :: takeFirst l
  | false :: l => true :: l

/-- win64_StoreRegHome, the adjustment of `home_used` (proc.c:2812-2868); `home_taken` is the number of entries set. -/
def homeUsed (grcount : Nat) (h : List Bool) : List Bool :=
  let free := (h.filter (· = false)).length
  if free = 0 then h
  else if grcount = 1 then h.map (fun _ => true)
  else if grcount = 2 ∧ free ≥ 2 then takeFrom 1 h
  else if grcount = 3 then (if free = 1 then h.map (fun _ => true) else if free ≥ 3 then takeFrom 2 h else h)
  else if grcount = 4 ∧ free = 4 then h.set 3 true
  else if grcount > 4 then (if (grcount - free) % 2 = 0 then takeFirst h else h)
  else h

/-- win64_StoreRegHome, the loop over the registers (proc.c:2869-2892), and the loop of the epilogue that restores them
(proc.c:3866-3897): (register, offset) pairs. `i` is the index of `h`'s head; `sizestd` is 8 * (i + 1) after its update. -/
def homeSlots : Nat → List Bool → List Nat → List (Nat × Nat)
  | _, [], _ => []
  | _, _ :: _, [] => []
  | i, false :: h, r :: l => (r, 8 * (i + 1)) :: homeSlots (i + 1) h l
  | i, true :: h, r :: l => homeSlots (i + 1) h (r :: l)

def R.slots (w : R) : List (Nat × Nat) :=
  if w.smart then homeSlots 0 (homeUsed (gprs w.regs).length (homeUsed0 4 w.params)) (gprs w.regs) else []

/-- The registers that are pushed: the first `stored_reg` are skipped (proc.c:3282-3291). -/
def R.pushed (w : R) : List Nat := (gprs w.regs).drop w.slots.length

/-- W64F_HABRAN is tested with `&`, i.e. any of its bits (proc.c:3301, 3314). -/
def R.habran (w : R) : Bool := w.smart || w.saveParams || w.autosp

/-- XYZMMsize (proc.c:3295-3298). -/
def xyz (regs : List UReg) : Nat :=
  if (vecs regs).any (·.2 = 64) then 64 else if (vecs regs).any (·.2 = 32) then 32 else 16

/-- `xmmsize` (proc.c:3299-3310). -/
def R.xmmsize (w : R) : Nat :=
  let ls := if w.habran ∧ ¬ w.hasLocals ∧ w.resstack = 0 then 0 else w.localsize0
  if w.habran ∧ ls = 0 then (vecs w.regs).length * xyz w.regs else 0

/-- `info->localsize` after the adjustments (proc.c:3299-3323). -/
def R.localsize (w : R) : Nat :=
  let cntxmm := (vecs w.regs).length
  let odd := w.pushed.length % 2
  let ls := if w.habran ∧ ¬ w.hasLocals ∧ w.resstack = 0 then 0 else w.localsize0
  let ls1 := if w.habran ∧ ls = 0 ∧ cntxmm ≠ 0 ∧ odd = 0 then 8 else ls
  if w.habran ∧ (w.hasLocals ∨ w.resstack ≠ 0 ∨ w.xmmsize ≠ 0)
    ∧ ((odd = 1 ∧ ls1 % 16 ≠ 0) ∨ (odd = 0 ∧ ls1 % 16 = 0 ∧ cntxmm = 0)) then ls1 + 8 else ls1

/-- `stackSize` rounded up to 8 (proc.c:3339-3340, 3840-3841); `vsize` is 0 outside vectorcall. -/
def R.stackSize (w : R) : Nat :=
  let s := w.localsize + w.xmmsize
  if s % 8 ≠ 0 then (s + 7) / 8 * 8 else s

/-- write_win64_default_prologue_RSP (proc.c:3217-3563). -/
def prologueRSP (w : R) : List Line :=
  (if w.smart then (saveParamsRSP 4 0 w.params).map Line.ins
   else if w.saveParams then (saveParamsRSP0 4 0 w.params).map Line.ins else [])
  ++ w.slots.flatMap (fun p => [.ins (.put p.1 p.2 8), .dir (.savereg p.1 p.2)])
  ++ pushLines w.pushed
  ++ (if w.hasLocals ∨ w.resstack ≠ 0 ∨ w.xmmsize ≠ 0 then
        [.ins (.sub (w.stackSize + w.resstack : Nat)), .dir (.alloc (w.stackSize + w.resstack : Nat))]
        ++ vputLines w.resstack (vecs w.regs)
      else if w.localsize > 0 then [.ins (.sub w.localsize)] else [])
  ++ [.dir .endprolog]

/-- The vector loads of write_win64_default_epilogue_RSP (proc.c:3798-3830): there is no case for ZMM registers. -/
def vgetRSP : Int → List (Nat × Nat) → List Ins
  | _, [] => []
  | i, (r, n) :: l => if n = 64 then vgetRSP i l else .vget r none i n :: vgetRSP (i + n) l

/-- pop_register with W64F_SMART (proc.c:5092-5103): the last `pushed_reg` general registers. -/
def R.pops (w : R) : List Ins :=
  if w.smart then ((gprs w.regs).reverse.take w.pushed.length).map Ins.pop else popLines (gprs w.regs)

/-- write_win64_default_epilogue_RSP (proc.c:3778-3912); the base register is RSP, so nothing is popped for it. -/
def epilogueRSP (w : R) : List Ins :=
  vgetRSP w.resstack (vecs w.regs)
  ++ (if w.autosp then
        (if w.localsize + w.resv + w.xmmsize ≠ 0 then [Ins.sub (-((w.stackSize + w.resv : Nat) : Int))] else [])
      else if w.localsize > 0 then [Ins.sub (-(w.localsize : Int))] else [])
  ++ w.pops
  ++ w.slots.map (fun p => Ins.get p.1 p.2)

/-! ## System V (proc.c:4340-4562) -/

structure S where
  regs : List UReg
  base : Nat
  localsize : Nat
  /-- `resstack`: `sym_ReservedStack->value` with W64F_AUTOSTACKSP, else 0 -/
  resstack : Nat
  redzone : Bool
  fpo : Bool
  /-- `parasize != 0 || locallist != NULL` (and the base register is not RSP) -/
  needFrame : Bool
  deriving DecidableEq, Repr

def S.frame (s : S) : Bool := !s.fpo && s.needFrame

/-- proc.c:4396-4408, 4479-4491. -/
def S.adj (s : S) : Nat :=
  if s.fpo then (if (gprs s.regs).length % 2 = 0 then 8 else 0) else (if (gprs s.regs).length % 2 = 0 then 0 else 8)

def S.inRedzone (s : S) : Bool := s.redzone && decide (s.localsize + s.resstack < 128) && decide (s.resstack = 0)

/-- write_sysv_default_prologue_RBP (proc.c:4340-4466). -/
def prologueSysv (s : S) : List Ins :=
  (if s.frame then [.push s.base, .lea s.base 0] else [])
  ++ (gprs s.regs).map Ins.push
  ++ (if s.localsize + s.resstack + s.adj > 0 then
        (if s.inRedzone then [] else [Ins.sub (s.localsize + s.adj + s.resstack : Nat)])
      else [])
  ++ (code (vputLines (vecBase (s.localsize + s.resstack) (vecBytes s.regs) : Nat) (vecs s.regs)))

/-- write_sysv_default_epilogue_RBP (proc.c:4472-4558). -/
def epilogueSysv (s : S) : List Ins :=
  vgetLines none (vecBase s.localsize (vecBytes s.regs) : Nat) (vecs s.regs)
  ++ (if s.inRedzone then [] else if s.localsize + s.adj > 0 then [Ins.sub (-((s.localsize + s.adj : Nat) : Int))] else [])
  ++ popLines (gprs s.regs)
  ++ (if s.frame then [.pop s.base] else [])

/-! ## Generic: 16-bit, 32-bit, and 64-bit without FRAME (proc.c:4714-4838, 5174-5283) -/

structure G where
  /-- USES registers (general or segment registers, by number) -/
  regs : List Nat
  base : Nat
  /-- the number standing for DS -/
  ds : Nat
  ax : Nat
  localsize : Nat
  /-- `locallist || stackparam || has_vararg || forceframe` -/
  needFrame : Bool
  fpo : Bool
  loadds : Bool
  /-- `pe_type`: LEAVE may be used -/
  leave : Bool
  /-- `Ofssize == USE64 && fctype == FCT_WIN64 && W64F_AUTOSTACKSP` -/
  auto64 : Bool
  resv : Nat
  deriving DecidableEq, Repr

/-- write_generic_prologue (proc.c:4714-4838); `resstack` is 0 there. Without the `sub rsp, 8` of FASTCALL procedures without frame
pointer (proc.c:4754-4764) and the saves of register parameters; `mov ax, DGROUP` / `mov ds, ax` is left out. -/
def prologueGen (g : G) : List Ins :=
  (if g.needFrame && !g.fpo then [.push g.base, .lea g.base 0] else [])
  ++ (if g.localsize ≠ 0 then [Ins.sub g.localsize] else [])
  ++ (if g.loadds then [Ins.push g.ds] else [])
  ++ g.regs.map Ins.push

/-- write_generic_epilogue (proc.c:5174-5283) without OPTION FRAMEFLAGS (`Options.frameflags`); `leave` is `mov sp, bp` / `pop bp`. -/
def epilogueGen (g : G) : List Ins :=
  (if g.auto64 && decide (g.resv ≠ 0) then [Ins.sub (-((g.localsize + g.resv : Nat) : Int))] else [])
  ++ popLines g.regs
  ++ (if g.loadds then [Ins.pop g.ds] else [])
  ++ (if !g.needFrame then []
      else if g.fpo then
        (if g.auto64 then [] else if g.localsize ≠ 0 then [Ins.sub (-(g.localsize : Int))] else [])
      else (if g.leave || decide (g.localsize ≠ 0) then [Ins.spFrom g.base 0] else []) ++ [Ins.pop g.base])

/-! ## Unwind codes -/

inductive Err | endprolog | constant | nonzero | alignment | prologTooBig | range | tooMany
  deriving DecidableEq, Repr

/-- `opndx.uvalue` (the low 32 bits) and `opndx.hvalue` (the high 32 bits). -/
def lo32 (v : Int) : Nat := (v % 4294967296).toNat
def hi32 (v : Int) : Nat := (v / 4294967296 % 4294967296).toNat

/-- `opndx.value`: the low 32 bits as a signed number. -/
def sval (v : Int) : Int := if lo32 v ≥ 2147483648 then (lo32 v : Int) - 4294967296 else lo32 v

/-- `(uint_16)(opndx.value >> k)`. -/
def shr16 (v : Int) (k : Nat) : Nat := (sval v / 2 ^ k % 65536).toNat

/-- A slot: `CodeOffset`, `UnwindOp:4`, `OpInfo:4` (H/win64seh.h). -/
def slot (ofs op info : Nat) : Nat := ofs % 256 + 256 * (op % 16) + 4096 * (info % 16)

/-- `unw_info`, `unw_code[0..CountOfCodes)` and `endprolog_found`. -/
structure U where
  codes : List Nat := []
  sizeOfProlog : Nat := 0
  frameReg : Nat := 0
  frameOfs : Nat := 0
  done : Bool := false
  deriving DecidableEq, Repr

/-- Append slots; `oldcodes > unw_info.CountOfCodes` after the 8-bit addition is the overflow check (proc.c:2593). -/
def U.add (u : U) (s : List Nat) : Except Err U :=
  if u.codes.length > (u.codes.length + s.length) % 256 then .error .tooMany else .ok { u with codes := u.codes ++ s }

/-- ExcFrameDirective (proc.c:2333-2600); `pos` is `GetCurrOffset() - CurrProc->sym.offset`, operands are constants. -/
def excFrame (u : U) (pos : Nat) (d : Dir) : Except Err U :=
  if u.done then .error .endprolog
  else match d with
  | .alloc v =>
    if hi32 v ≠ 0 then .error .constant
    else if lo32 v = 0 then .error .nonzero
    else if lo32 v % 8 ≠ 0 then .error .alignment
    else if lo32 v > 16 * 8 then
      if lo32 v ≥ 65536 * 8 then u.add [lo32 v / 65536, lo32 v % 65536, slot pos 1 1]
      else u.add [lo32 v / 8, slot pos 1 0]
    else u.add [slot pos 2 ((lo32 v - 8) / 8)]
  | .endprolog =>
    if pos > 255 then .error .prologTooBig else .ok { u with sizeOfProlog := pos, done := true }
  | .pushframe c => u.add [slot pos 10 (if c then 1 else 0)]
  | .pushreg r => u.add [slot pos 0 r]
  | .savereg r v =>
    if lo32 v % 8 ≠ 0 then .error .alignment
    else if lo32 v > 65536 * 8 then u.add [shr16 v 19, shr16 v 3, slot pos 5 r]
    else u.add [shr16 v 3, slot pos 4 r]
  | .savexmm r v =>
    if lo32 v % 16 ≠ 0 then .error .alignment
    else if lo32 v > 65536 * 16 then u.add [shr16 v 20, shr16 v 4, slot pos 9 r]
    else u.add [shr16 v 4, slot pos 8 r]
  | .setframe r v =>
    if lo32 v % 16 ≠ 0 then .error .alignment
    else if lo32 v > 240 then .error .range
    else ({ u with frameReg := r % 16, frameOfs := lo32 v / 16 }).add [slot pos 3 r]

/-- Assembling the lines of a prologue: `len` gives the length of each instruction. -/
def assembleLines (len : Ins → Nat) (u : U) : Nat → List Line → Except Err U
  | _, [] => .ok u
  | pos, .ins i :: l => assembleLines len u (pos + len i) l
  | pos, .dir d :: l =>
    match excFrame u pos d with
    | .error e => .error e
    | .ok u' => assembleLines len u' pos l

def le16 (n : Nat) : List Nat := [n % 256, n / 256 % 256]
def le32 (n : Nat) : List Nat := [n % 256, n / 256 % 256, n / 65536 % 256, n / 16777216 % 256]

/-- The handler RVA and a zero dword (proc.c:2286-2293). -/
def handlerBytes : Option Nat → List Nat
  | none => []
  | some h => le32 h ++ [0, 0, 0, 0]

/-- WriteSEHData, the UNWIND_INFO (proc.c:2262-2293): `db` header, `dw` codes from right to left, `ALIGN 4`, handler and a zero dword.
`Flags` is UNW_FLAG_FHANDLER with a handler (proc.c:2049). The RVA of the handler is filled in by the linker. -/
def xdata (u : U) (handler : Option Nat) : List Nat :=
  [1 + 8 * (if handler.isSome then 3 else 0), u.sizeOfProlog, u.codes.length, u.frameReg + 16 * u.frameOfs]
  ++ u.codes.reverse.flatMap le16
  ++ (if u.codes.length % 2 = 1 then [0, 0] else [])
  ++ handlerBytes handler

/-- WriteSEHData, the .pdata entry (proc.c:2311-2315), after relocation: begin, end, RVA of the UNWIND_INFO. -/
def pdata (procRva totalSize xdataRva : Nat) : List Nat :=
  le32 procRva ++ le32 (procRva + totalSize) ++ le32 xdataRva

end Verif.Frame
