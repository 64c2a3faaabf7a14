/-! # Model: stack frames of procedures (`proc.c`)

Modelled: the offsets given to parameters (end of ParseParams) and locals (SetLocalOffsets, SetLocalOffsets_RBP,
SetLocalOffsets_RBP_SYSV, SetLocalOffsets_RSP), and the stack effect of the prologues that go with them
(write_generic_prologue, write_win64_default_prologue_RBP, write_sysv_default_prologue_RBP,
write_win64_default_prologue_RSP).
Simplifications: `unsigned`/`int` sizes are natural numbers and integers (no wrap-around at 2^32); debug, listing and SEH
directives are left out; a stack probe (`__chkstk`) has the effect of the subtraction it replaces; epilogues, user-defined prologues,
vectorcall spill area and win64_SaveRegParams are not modelled. -/
namespace Verif.Proc

/-- `ROUND_UP( i, r )` = `((i)+((r)-1)) & ~((r)-1)` (proc.c:276) for unsigned `i`, `r`; `x & ~m` is `x - (x & m)`; with `r` = 0 the mask
is all ones and the result 0. -/
def roundUp (i r : Nat) : Nat := if r = 0 then 0 else (i + (r - 1)) - ((i + (r - 1)) &&& (r - 1))

/-- A LOCAL: `total_size` = type size * `total_length`, `isarray` (proc.c:587-745). -/
structure Local where
  size : Nat
  length : Nat
  isArray : Bool
  deriving DecidableEq, Repr

/-- LocalDir: `ti.size * local->sym.total_length` (proc.c:653, 700-703, 724). -/
def mkLocal (tsize : Nat) (idx : Option Nat) : Local := ⟨tsize * idx.getD 1, idx.getD 1, idx.isSome⟩

/-- `itemsize` (proc.c:4162, 4619, 4945). -/
def itemSize (l : Local) : Nat := if l.size = 0 then 0 else l.size / l.length

/-- Registers of the USES clause by the way they are saved. -/
inductive Reg | gpr | xmm | ymm | zmm
  deriving DecidableEq, Repr

/-- Number of registers that are pushed. -/
def cntStd (regs : List Reg) : Nat := (regs.filter (· = .gpr)).length

/-- 16-byte units for vector registers: `cntxmm++`, `+= 2`, `+= 4` (proc.c:3961-3970, 3022-3030). -/
def cntVec (regs : List Reg) : Nat := (regs.map (fun r => match r with | .gpr => 0 | .xmm => 1 | .ymm => 2 | .zmm => 4)).sum

/-! ## Stack operations of a prologue -/

/-- `push reg`; `sub sp, n` (also `add sp, -n`, `lea`); `lea bp, [sp + n]` (`mov bp, sp`); a vector register stored at [sp + n]. -/
inductive Op
  | push
  | sub (n : Nat)
  | setbp (n : Int)
  | save (ofs : Int) (size : Nat)
  deriving DecidableEq, Repr

/-! ## Parameters -/

/-- Offsets of the stack parameters of a PROC, in order of ascending addresses (proc.c:1195-1247): (size, offset) pairs.
`far`: `sym.mem_type == MT_FAR`. Register parameters (SYM_TMACRO) are skipped in the loop and are not in the list. -/
def paramOffs (ws : Nat) : Int → List Nat → List (Nat × Int)
  | _, [] => []
  | ofs, size :: r => (size, ofs) :: paramOffs ws (ofs + roundUp size ws) r

def paramStart (ws : Nat) (far : Bool) : Int := (2 + if far then 1 else 0) * ws

/-- The order in which the parameter loop assigns offsets, given the parameters in the order of declaration (proc.c:1116-1166,
1233-1246): `paralist` is in push order for C/STDCALL/SYSCALL (the last declared first) and is traversed backwards; for
BASIC, FORTRAN, PASCAL it is in declaration order and is traversed backwards; in 64-bit it is in declaration order and is
traversed forwards. -/
def paramOrder {α : Type} (pascal is64 : Bool) (declared : List α) : List α :=
  let paralist := if is64 ∨ pascal then declared else declared.reverse
  if is64 then paralist else paralist.reverse

/-! ## SetLocalOffsets: 16-, 32-bit, and 64-bit procedures without FRAME (proc.c:4898-4999) -/

/-- The loop over the locals (proc.c:4944-4955): (local, offset) pairs and `localsize`. -/
def localLoop (ws align : Nat) : Nat → List Local → List (Local × Int) × Nat
  | ls, [] => ([], ls)
  | ls, l :: r =>
    let item := itemSize l
    let ls1 := ls + l.size
    let ls2 := if item > align then roundUp ls1 align
      else if item ≠ 0 then roundUp ls1 (if ws = 4 ∧ item = 3 then ws else item)
      else ls1
    let q := localLoop ws align ls2 r
    ((l, -(ls2 : Int)) :: q.1, q.2)

structure Cfg where
  ws : Nat
  /-- no frame pointer: variables are addressed with SP -/
  fpo : Bool
  /-- `info->isframe || (fctype == FCT_WIN64 && W64F_AUTOSTACKSP)` -/
  rspalign : Bool
  /-- W64F_STACKALIGN16 -/
  align16 : Bool
  regs : List Reg
  /-- `info->parasize == 0` -/
  noParas : Bool
  /-- `loadds` -/
  loadds : Bool

/-- Result: offsets of locals and (adjusted) parameters, `localsize` as used by the prologue. -/
structure Frame where
  locals : List (Local × Int)
  params : List (Nat × Int)
  localsize : Nat

/-- SetLocalOffsets (proc.c:4898-4999); `info->localsize` is 0 at the start, parameters are adjusted once. -/
def setLocalOffsets (c : Cfg) (locals : List Local) (params : List (Nat × Int)) : Frame :=
  let align := if c.rspalign ∧ c.align16 then 16 else c.ws
  let counted := c.fpo || c.rspalign
  let cntstd := if counted then (c.regs.filter (· ≠ .xmm)).length else 0
  let cntxmm := if counted then (c.regs.filter (· = .xmm)).length else 0
  let start := if counted ∧ (c.fpo ∨ (c.noParas ∧ locals = [])) then c.ws else 0
  let ls0 := if c.rspalign then
      let a := start + cntstd * c.ws
      if cntxmm ≠ 0 then roundUp (a + 16 * cntxmm) 16 else a
    else 0
  let q := localLoop c.ws align ls0 locals
  let ls1 := roundUp q.2 c.ws
  let ls2 := if c.rspalign then roundUp ls1 16 else ls1
  let localadj : Int := if c.rspalign then ls2 else ls2 + cntstd * c.ws
  let paramadj : Int := if c.rspalign then ls2 - c.ws - start else ls2 + cntstd * c.ws - c.ws
  ⟨if c.fpo then q.1.map (fun p => (p.1, p.2 + localadj)) else q.1,
   if c.fpo then params.map (fun p => (p.1, p.2 + paramadj)) else params,
   if c.rspalign then ls2 - (cntstd * 8 + start) else ls2⟩

/-- write_generic_prologue (proc.c:4714-4838) with `resstack` = 0 (it is a constant there): `needFrame` is
`locallist || stackparam || has_vararg || forceframe`. The `sub rsp, 8` for leafless FASTCALL procedures without frame pointer
(proc.c:4754-4764) is left out. -/
def genericPrologue (c : Cfg) (needFrame : Bool) (localsize : Nat) : List Op :=
  (if needFrame ∧ ¬ c.fpo then [Op.push, Op.setbp 0] else [])
    ++ (if localsize ≠ 0 then [Op.sub localsize] else [])
    ++ (if c.loadds then [Op.push] else [])
    ++ c.regs.map (fun _ => Op.push)

/-! ## Win64 procedures with FRAME and a frame pointer (proc.c:3938-4098, 2976-3213) -/

/-- Size of a local in the frame (proc.c:3979-3993). -/
def rbpSize (n : Nat) : Nat :=
  if n ≥ 16 then roundUp n 16 else if n ≥ 8 then roundUp n 8 else if n ≥ 4 then roundUp n 4 else n

/-- One of the four passes over the locals (proc.c:4044-4081): the locals of one size class. -/
def rbpPass (p : Nat → Bool) : Int → List Local → List (Local × Int) × Int
  | cur, [] => ([], cur)
  | cur, l :: r =>
    if p l.size then
      let q := rbpPass p (cur - rbpSize l.size) r
      ((l, cur - rbpSize l.size) :: q.1, q.2)
    else rbpPass p cur r

structure RbpFrame where
  locals : List (Local × Int)
  params : List Int
  localsize : Nat
  frameofs : Nat

/-- SetLocalOffsets_RBP (proc.c:3938-4098); `pushedReg` is the value left by the previous pass's prologue, `nParams` the number of
parameters. (`fpo` is FALSE when there are locals or parameters.) -/
def setLocalOffsetsRBP (regs : List Reg) (resstack pushedReg : Nat) (locals : List Local) (nParams : Nat) : RbpFrame :=
  let localsize := roundUp (16 * cntVec regs + (locals.map (fun l => rbpSize l.size)).sum) 16
  let fo1 := roundUp (localsize / 2 + resstack) 16
  let frameofs := if fo1 > 128 then 128 else fo1
  let stackAdj := if pushedReg % 2 = 0 ∧ localsize % 16 = 0 then 0 else if pushedReg % 2 = 0 then 8
    else if localsize % 16 = 0 then 8 else 0
  let cur : Int := localsize + resstack - 16 * cntVec regs - frameofs
  let p1 := rbpPass (fun n => n ≥ 16) cur locals
  let p2 := rbpPass (fun n => n ≥ 8 && n < 16) p1.2 locals
  let p3 := rbpPass (fun n => n ≥ 4 && n < 8) p2.2 locals
  let p4 := rbpPass (fun n => n < 4) p3.2 locals
  let base : Int := 8 * cntStd regs + 16 + localsize + stackAdj + resstack - frameofs
  ⟨p1.1 ++ p2.1 ++ p3.1 ++ p4.1, (List.range nParams).map (fun (k : Nat) => base + (k * 8 : Nat)), localsize, frameofs⟩

/-- Saves of vector registers from [sp + base] upwards (proc.c:3135-3180, 4447-4464). -/
def vecSaves : Nat → List Reg → List Op
  | _, [] => []
  | i, r :: l => match r with
    | .gpr => vecSaves i l
    | .xmm => Op.save i 16 :: vecSaves (i + 16) l
    | .ymm => Op.save i 32 :: vecSaves (i + 32) l
    | .zmm => Op.save i 64 :: vecSaves (i + 64) l

/-- write_win64_default_prologue_RBP (proc.c:2976-3213) for FRAME procedures with OPTION FRAME:AUTO and a frame pointer. -/
def rbpPrologue (regs : List Reg) (resstack localsize frameofs : Nat) : List Op :=
  let pushed := cntStd regs
  let stackadj := if pushed % 2 = 0 ∧ localsize % 16 = 0 then 0 else if pushed % 2 = 0 then 8
    else if localsize % 16 = 0 then 8 else 0
  [Op.push] ++ (regs.filter (· = .gpr)).map (fun _ => Op.push)
    ++ (if localsize + stackadj + resstack > 0 then [Op.sub (localsize + stackadj + resstack)] else [])
    ++ (if cntVec regs ≠ 0 then vecSaves (resstack + (localsize - cntVec regs * 16) / 16 * 16) regs else [])
    ++ [Op.setbp frameofs]

/-! ## System V procedures (proc.c:4564-4698, 4340-4466) -/

/-- The loop over the locals (proc.c:4619-4634); `align` is 16. -/
def sysvLoop : Nat → List Local → List (Local × Int) × Nat
  | ls, [] => ([], ls)
  | ls, l :: r =>
    let item := itemSize l
    let ls1 := ls + l.size
    let ls2 := if item > 16 then roundUp ls1 (if item = 32 then 32 else 16)
      else if item ≠ 0 then roundUp ls1 item else ls1
    let q := sysvLoop ls2 r
    ((l, -(ls2 : Int)) :: q.1, q.2)

/-- SetLocalOffsets_RBP_SYSV (proc.c:4564-4698) with a frame pointer: offsets and `localsize`. -/
def setLocalOffsetsSysv (regs : List Reg) (locals : List Local) : List (Local × Int) × Nat :=
  let q := sysvLoop (cntStd regs * 8 + 16 * cntVec regs) locals
  (q.1, roundUp (roundUp q.2 8 - cntStd regs * 8) 16)

/-- write_sysv_default_prologue_RBP (proc.c:4340-4466) with a frame pointer; `redzone`: OPTION REDZONE. -/
def sysvPrologue (regs : List Reg) (resstack : Nat) (redzone : Bool) (localsize : Nat) : List Op :=
  let stackadj := if cntStd regs % 2 = 0 then 0 else 8
  [Op.push, Op.setbp 0] ++ (regs.filter (· = .gpr)).map (fun _ => Op.push)
    ++ (if localsize + resstack + stackadj > 0 then
          (if redzone ∧ localsize + resstack < 128 ∧ resstack = 0 then [] else [Op.sub (localsize + stackadj + resstack)])
        else if stackadj > 0 then [Op.sub (stackadj + resstack)] else [])
    ++ (if cntVec regs ≠ 0 then vecSaves ((localsize + resstack - cntVec regs * 16) / 16 * 16) regs else [])

/-! ## Win64 procedures with RSP as stack base (proc.c:4101-4214, 3217-3563) -/

/-- The loop over the locals (proc.c:4160-4181); `align` is 8. -/
def rspLoop (stackAlign16 : Bool) : Nat → List Local → List (Local × Int) × Nat
  | ls, [] => ([], ls)
  | ls, l :: r =>
    let item := itemSize l
    let n := if l.isArray then l.size % 8 else 0
    let ls1 := if item < 16 then roundUp ls item else ls
    let ls2 := if stackAlign16 ∧ l.size > 8 then roundUp ls1 16 else ls1
    let ls3 := ls2 + (l.size + n)
    let ls4 := if item > 8 then roundUp ls3 8 else if item ≠ 0 then roundUp ls3 item else ls3
    let q := rspLoop stackAlign16 ls4 r
    ((l, (ls2 : Int)) :: q.1, q.2)

/-- SetLocalOffsets_RSP (proc.c:4101-4214), run in pass 1 only, when `info->pushed_reg` and `info->localsize` are 0. -/
def setLocalOffsetsRSP (stackAlign16 : Bool) (regs : List Reg) (locals : List Local) : List (Local × Int) × Nat :=
  let xyz := if .ymm ∈ regs then 32 else 16
  let cntxmm := (regs.filter (· ≠ .gpr)).length
  let ls0 := if cntxmm ≠ 0 then 8 + xyz * cntxmm else 0
  let q := rspLoop stackAlign16 ls0 locals
  (q.1, roundUp (if q.2 % 16 = 0 then q.2 + 8 else q.2) 8)

/-- write_win64_default_prologue_RSP (proc.c:3217-3395) with locals, without OPTION WIN64:8 (W64F_HABRAN) and outside vectorcall: pushes, `sub rsp`, vector
registers from [rsp + ReservedStack]. -/
def rspPrologue (regs : List Reg) (resstack localsize : Nat) : List Op :=
  (regs.filter (· = .gpr)).map (fun _ => Op.push)
    ++ [Op.sub (roundUp localsize 8 + resstack)]
    ++ (if (regs.filter (· ≠ .gpr)).length ≠ 0 then vecSaves resstack regs else [])

/-- ProcFini (proc.c:2132-2156): the reserved stack is added to the offsets at the end of pass 1. -/
def rspFinal (resstack : Nat) (l : List (Local × Int)) : List (Local × Int) :=
  l.map (fun p => (p.1, p.2 + resstack))

end Verif.Proc
