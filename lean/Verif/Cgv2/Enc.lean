import Verif.Cgv2.Types
import Verif.Cgv2.MemTab
import Verif.Cgv2.RegTab
import Verif.Cgv2.Lookup

/-!
# codegenv2.c: building and emitting one instruction

`CodeGenV2` runs in 32- and 64-bit segments only (parser.c:4056).  Every `EmitError` of the
functions below is `none` here: the program reports an error for the line, what it emits then
does not matter.
-/

namespace Verif.Cgv2

/-- The parts of `struct expr` (one element of `opExpr[4]`, H/expreval.h:80-130) and of
`CodeInfo->opnd[i]` that the functions below read. -/
structure Opnd where
  /-- `base_reg->tokval`, `none` if `base_reg == NULL` -/
  base : Option Nat
  /-- `idx_reg->tokval` -/
  idx : Option Nat
  scale : Nat
  /-- `value`: the signed low half of `value64` -/
  lo : Int
  /-- the upper half of `value64` -/
  hi : Nat
  /-- `indirect` -/
  indirect : Bool
  /-- `kind == EXPR_ADDR` -/
  isAddr : Bool
  /-- `none`: no symbol; otherwise whether `sym->state == SYM_STACK` -/
  sym : Option Bool
  /-- `SizeFromMemtype(mem_type, ...) == 8` -/
  memQword : Bool
  /-- `CodeInfo->opnd[i].data64` -/
  data : Nat
  deriving DecidableEq, Repr, Inhabited

/-- `CodeInfo->prefix.ins`. -/
inductive InsPfx | bnd | lock | rep | repe | repz | repne | repnz
  deriving DecidableEq, Repr

/-- `CodeInfo->prefix.RegOverride`. -/
inductive SegReg | es | cs | ss | ds | fs | gs
  deriving DecidableEq, Repr

/-- The globals and the parts of `CodeInfo` read. -/
structure Ctx where
  /-- `ModuleInfo.Ofssize == USE64` (and `CodeInfo->Ofssize`, the same value) -/
  m64 : Bool
  /-- `CodeInfo->evex_flag` -/
  evexFlag : Bool
  /-- `broadflags` -/
  broad : Nat
  /-- `decoflags` -/
  deco : Nat
  /-- `CodeInfo->evex_sae` -/
  sae : Nat
  pfx : Option InsPfx
  seg : Option SegReg
  deriving DecidableEq, Repr

/-- `GetRegisterNo`: codegenv2.c:454-574. -/
def getRegisterNo : Option Nat → Nat
  | none => 17
  | some t =>
    if T_RAX ≤ t ∧ t ≤ T_RIP then t - T_RAX
    else if T_EAX ≤ t ∧ t ≤ T_EDI then t - T_EAX
    else if T_R8D ≤ t ∧ t ≤ T_R15D then t - T_R8D + 8
    else if T_R8W ≤ t ∧ t ≤ T_R15W then t - T_R8W + 8
    else if T_AL ≤ t ∧ t ≤ T_BH then t - T_AL
    else if T_R8B ≤ t ∧ t ≤ T_R15B then t - T_R8B + 8
    else if T_AX ≤ t ∧ t ≤ T_DI then t - T_AX
    else if T_MM0 ≤ t ∧ t ≤ T_MM7 then t - T_MM0
    else if T_XMM0 ≤ t ∧ t ≤ T_XMM7 then t - T_XMM0
    else if T_XMM8 ≤ t ∧ t ≤ T_XMM15 then t - T_XMM8 + 8
    else if T_XMM16 ≤ t ∧ t ≤ T_XMM23 then t - T_XMM16 + 16
    else if T_XMM24 ≤ t ∧ t ≤ T_XMM31 then t - T_XMM24 + 24
    else if T_YMM0 ≤ t ∧ t ≤ T_YMM7 then t - T_YMM0
    else if T_YMM8 ≤ t ∧ t ≤ T_YMM15 then t - T_YMM8 + 8
    else if T_YMM16 ≤ t ∧ t ≤ T_YMM23 then t - T_YMM16 + 16
    else if T_YMM24 ≤ t ∧ t ≤ T_YMM31 then t - T_YMM24 + 24
    else if T_ZMM0 ≤ t ∧ t ≤ T_ZMM7 then t - T_ZMM0
    else if T_ZMM8 ≤ t ∧ t ≤ T_ZMM31 then t - T_ZMM8 + 8
    else if T_K0 ≤ t ∧ t ≤ T_K7 then t - T_K0
    else if t = T_SPL then 4
    else if t = T_BPL then 5
    else if t = T_SIL then 6
    else if t = T_DIL then 7
    else if t = T_CR0 then 0
    else if t = T_CR2 then 2
    else if t = T_CR3 then 3
    else if t = T_CR4 then 4
    else if t = T_CR8 then 8
    else if t = T_DR0 then 0
    else if t = T_DR1 then 1
    else if t = T_DR2 then 2
    else if t = T_DR3 then 3
    else if t = T_DR6 then 6
    else if t = T_DR7 then 7
    else if t = T_CS then 1
    else if t = T_DS then 3
    else if t = T_ES then 0
    else if t = T_FS then 4
    else if t = T_GS then 5
    else if t = T_SS then 2
    else if t = T_ST then 0
    else 17

/-- `SizeFromRegister`: parser.c:235-262.  Simplified to the size column of H/special.h; the
registers without one (segment, control, debug) never occur in an address. -/
def sizeFromRegister : Option Nat → Nat
  | none => 0
  | some t => ((regTable.find? (fun r => r.tok == t)).map (·.size)).getD 0

/-- `IsSimdRegister`: codegenv2.c:1172-1202. -/
def isSimdRegister : Option Nat → Bool
  | none => false
  | some t =>
    (T_XMM0 ≤ t && t ≤ T_XMM7) || (T_XMM8 ≤ t && t ≤ T_XMM15) || (T_XMM16 ≤ t && t ≤ T_XMM23) ||
    (T_XMM24 ≤ t && t ≤ T_XMM31) || (T_YMM0 ≤ t && t ≤ T_YMM7) || (T_YMM8 ≤ t && t ≤ T_YMM15) ||
    (T_YMM16 ≤ t && t ≤ T_YMM23) || (T_YMM24 ≤ t && t ≤ T_YMM31) || (T_ZMM0 ≤ t && t ≤ T_ZMM7) ||
    (T_ZMM8 ≤ t && t ≤ T_ZMM31)

/-- The source operand `BuildModRM` uses: codegenv2.c:585-591. -/
def sourceIdx (r : Instr) (isVEX : Bool) : Nat :=
  if isVEX && !has r.vexflags VEX_DUP_NDSF && !has r.vexflags VEX_2OPNDF &&
     !has r.vexflags VEX_3RD_OPF then 2 else 1

/-- `BuildModRM`: codegenv2.c:580-632 (the byte; `needModRM` is `has r.flags F_MODRM`). -/
def buildModRM (r : Instr) (o : Nat → Opnd) (isVEX : Bool) : Nat :=
  let si := sourceIdx r isVEX
  if has r.flags F_MODRMF then
    r.modRM |||
    (if has r.flags OPCODE_EXTF then r.opcode.getD r.opcodeBytes 0 <<< 3 else 0) |||
    (if has r.flags F_MODRM_REGF && r.opDir == REG_DST then
       (getRegisterNo (o 0).base &&& 7) <<< 3
     else if has r.flags F_MODRM_REGF && r.opDir == RM_DST then
       (getRegisterNo (o si).base &&& 7) <<< 3
     else 0) |||
    (if has r.flags F_MODRM_RMF && r.opDir == REG_DST then getRegisterNo (o si).base &&& 7
     else if has r.flags F_MODRM_RMF && r.opDir == RM_DST then getRegisterNo (o 0).base &&& 7
     else 0)
  else r.modRM

/-- `opnd[i].base_reg && GetRegisterNo(opnd[i].base_reg) > n`. -/
def regAbove (o : Opnd) (n : Nat) : Bool := o.base.isSome && decide (getRegisterNo o.base > n)

/-- `BuildREX`: codegenv2.c:635-692.  The error for `REXP_MEM` outside 64-bit code is
unreachable: the function is called in 64-bit code only (codegenv2.c:1697). -/
def buildREX (rex : Nat) (r : Instr) (o : Nat → Opnd) : Nat :=
  let rex := if has r.flags REXF then
      rex ||| 0x40 ||| (if has r.flags REXBF then 1 else 0) ||| (if has r.flags REXXF then 2 else 0) |||
      (if has r.flags REXRF then 4 else 0) ||| (if has r.flags REXWF then 8 else 0)
    else rex
  let rex := if has r.flags EREXF then
      if r.opDir == REG_DST then
        rex ||| (if regAbove (o 0) 7 then 0x44 else 0) |||
          (if regAbove (o r.srcidx) 7 then 0x41 else 0)
      else
        rex ||| (if regAbove (o 0) 7 then 0x41 else 0) |||
          (if regAbove (o r.srcidx) 7 then 0x44 else 0)
    else rex
  if has r.flags REXP_MEMF && (o r.memOpnd).memQword then rex ||| 0x48 else rex

/-- `VEX.pp`/`EVEX.pp`: codegenv2.c:755-760, 1013-1019. -/
def vexPP (r : Instr) : Nat :=
  if has r.vexflags VEX_66F then 1
  else if has r.vexflags VEX_F3F then 2
  else if has r.vexflags VEX_F2F then 3
  else 0

/-- `VEX.mmmmm`/`EVEX.mm`: codegenv2.c:782-787, 1021-1027. -/
def vexMap (r : Instr) : Nat :=
  if has r.vexflags VEX_0FF then 1
  else if has r.vexflags VEX_0F38F then 2
  else if has r.vexflags VEX_0F3AF then 3
  else 0

/-- `VEX.vvvv`, not inverted: codegenv2.c:739-752.  (A warning is shown for the implied
source of `VEX_DUP_NDS`.) -/
def vexV (r : Instr) (o : Nat → Opnd) : Nat :=
  if has r.vexflags VEX_DUP_NDSF then getRegisterNo (o 0).base
  else if has r.vexflags VEX_3RD_OPF then getRegisterNo (o 2).base
  else if has r.vexflags VEX_NDSF then getRegisterNo (o 1).base
  else if has r.vexflags VEX_DDSF then getRegisterNo (o 2).base
  else 0

/-- `BuildVEX`: codegenv2.c:697-841, the bytes emitted. -/
def buildVEX (r : Instr) (o : Nat → Opnd) (needB needX : Bool) : List Nat :=
  let vvvv := vexV r o
  let pp := vexPP r
  let l := if r.opSize == 16 then 0 else if r.opSize == 32 then 1 else 0
  let w := if has r.vexflags VEX_W0F then 0 else if has r.vexflags VEX_W1F then 1 else 0
  -- `*vexSize == 3` before the operands are looked at
  let three := (!has r.vexflags VEX_W0F && has r.vexflags VEX_W1F) ||
    has r.vexflags VEX_0F38F || has r.vexflags VEX_0F3AF
  let mm := vexMap r
  let vr := if has r.vexflags VEX_RF then 0 else 1
  let vx := if has r.vexflags VEX_XF || needX then 0 else 1
  let vb := if has r.vexflags VEX_BF || needB then 0 else 1
  let (vr, vb) :=
    if r.opDir == REG_DST then
      (if regAbove (o 0) 7 then 0 else vr,
       if regAbove (o r.srcidx) 7 && !(o r.srcidx).indirect then 0 else vb)
    else if r.opDir == RM_DST then
      (if regAbove (o r.srcidx) 7 then 0 else vr,
       if regAbove (o 0) 7 && !(o 0).indirect then 0 else vb)
    else (vr, vb)
  let size :=
    if vx == 0 || vb == 0 then 3
    else if (has r.vexflags VEX_WIGF && mm == 1) || !three then 2
    else 3
  let nv := 15 - vvvv % 16   -- `~VEXvvvv & 0xf`
  if size == 2 then [0xc5, pp ||| (l <<< 2) ||| (nv <<< 3) ||| (vr <<< 7)]
  else [0xc4, (vr <<< 7) ||| (vx <<< 6) ||| (vb <<< 5) ||| mm,
        (w <<< 7) ||| (nv <<< 3) ||| (l <<< 2) ||| pp]

/-- The tests of the decorators in `BuildEVEX`: codegenv2.c:875-908, 960-974.
`true` means an error is reported. -/
def evexErr (r : Instr) (c : Ctx) : Bool :=
  let aaa := c.deco &&& 7
  let z := (c.deco &&& 0x80) >>> 7
  (has r.evexflags EVEX_KF && aaa == 0) ||
  (r.opElements == 16 && c.broad != 0x40 && c.broad != 0) ||
  (r.opElements == 8 && c.broad != 0x30 && c.broad != 0) ||
  (r.opElements == 4 && c.broad != 0x20 && c.broad != 0) ||
  (r.opElements == 2 && c.broad != 0x10 && c.broad != 0) ||
  (r.opElements == 1 && c.broad != 0) ||
  (c.broad != 0 && !has r.evexflags EVEX_BRDF) ||
  (!has r.evexflags EVEX_MASKF && aaa != 0) ||
  (!has r.evexflags EVEX_ZF && z == 1) ||
  (c.sae != 0 &&
    (if has r.evexflags EVEX_SAEF then decide (c.sae > 0x10)
     -- `opnd[OPND1..3].type & OP_M_ANY`: one of the first three operands is in memory
     else if has r.evexflags EVEX_RNDF then c.sae == 0x10 || decide (r.memOpnd < 3)
     else false))

/-- `EVEX.L'L` and the rounding control, and `EVEX.b`: codegenv2.c:900-901, 945-1005.
`EVEXnl = ~EVEXnl` makes 0 from 1 and 1 from 0 in the bit that is kept. -/
def evexLLb (r : Instr) (c : Ctx) : Nat × Nat × Nat :=
  let l := if r.opSize == 16 then 0 else if r.opSize == 32 then 1 else 0
  let nl := if r.opSize == 64 then 1 else 0
  let br := if c.broad != 0 then 1 else 0
  if c.sae == 0x10 || c.sae == 0x20 then (0, 0, 1)
  else if c.sae == 0x40 then (0, 1, 1)
  else if c.sae == 0x60 then (1, 0, 1)
  else if c.sae == 0x80 then (1, 1, 1)
  else (nl, l, br)

/-- `EVEX.R`, `EVEX.R'` of a register operand: codegenv2.c:1033-1052, 1082-1100. -/
def evexRR (n : Nat) : Nat × Nat :=
  if n > 15 then (if n > 23 then 0 else 1, 0) else (if n > 7 then 0 else 1, 1)

/-- `EVEX.B`, `EVEX.X` of a register operand: codegenv2.c:1060-1078, 1102-1121. -/
def evexBX (n : Nat) : Nat × Nat :=
  if n > 15 then (if n > 23 then 0 else 1, 0) else (if n > 7 then 0 else 1, 1)

/-- `BuildEVEX`: codegenv2.c:844-1146, the four bytes. -/
def buildEVEX (r : Instr) (o : Nat → Opnd) (needB needX needRR : Bool) (c : Ctx) :
    Option (List Nat) :=
  if evexErr r c then none else
  let z := (c.deco &&& 0x80) >>> 7
  let aaa := c.deco &&& 7
  let (vvvv, nv) :=
    if has r.vexflags VEX_NDSF then
      (getRegisterNo (o 1).base, if getRegisterNo (o 1).base > 15 then 0 else 1)
    else if has r.vexflags VEX_DDSF then
      (getRegisterNo (o 2).base, if getRegisterNo (o 2).base > 15 then 0 else 1)
    else (0, 1)
  let m := o r.memOpnd
  let ixAbove (n : Nat) : Bool :=
    (m.idx.isSome && decide (getRegisterNo m.idx > n)) || regAbove m n
  let (nv, ex) :=
    if has r.evexflags EVEX_VSIBF then
      (if ixAbove 15 then 0 else 1, if ixAbove 23 then 0 else 1)
    else (nv, 1)
  let (nl, l, br) := evexLLb r c
  let w := if has r.evexflags EVEX_W0F then 0 else if has r.evexflags EVEX_W1F then 1 else 0
  let (er, enr, eb, ex) :=
    if r.opDir == REG_DST then
      let rr : Nat × Nat := if !(o 0).indirect then evexRR (getRegisterNo (o 0).base)
        else (1, if needRR then 1 else 0)
      let bx : Nat × Nat := if !(o r.srcidx).indirect then
          (if (o r.srcidx).base.isSome then evexBX (getRegisterNo (o r.srcidx).base) else (1, 1))
        else (1, ex)
      (rr.1, rr.2, bx.1, bx.2)
    else if r.opDir == RM_DST then
      let rr : Nat × Nat := if !(o r.srcidx).indirect then evexRR (getRegisterNo (o r.srcidx).base)
        else (1, 0)
      let bx : Nat × Nat := if !(o 0).indirect then evexBX (getRegisterNo (o 0).base) else (1, ex)
      (rr.1, rr.2, bx.1, bx.2)
    else (1, 0, 1, ex)
  let enr := if has r.flags OPCODE_EXTF then 1 else enr
  let er := if has r.vexflags VEX_RF then 0 else er
  let eb := if has r.vexflags VEX_BF || needB then 0 else eb
  let ex := if has r.vexflags VEX_XF || needX then 0 else ex
  some [0x62,
    (er <<< 7) ||| (ex <<< 6) ||| (eb <<< 5) ||| (enr <<< 4) ||| (vexMap r &&& 3),
    (w <<< 7) ||| ((15 - vvvv % 16) <<< 3) ||| 4 ||| (vexPP r &&& 3),
    (z <<< 7) ||| (nl <<< 6) ||| (l <<< 5) ||| (br <<< 4) ||| (nv <<< 3) ||| aaa]

/-- `elemSize` of `CompDisp`: codegenv2.c:1153-1154. -/
def elemSize (r : Instr) (c : Ctx) : Nat :=
  let elements := if c.broad == 0 && has r.evexflags EVEX_BRDF then 1 else r.opElements
  r.opSize / elements

/-- `CompDisp`: codegenv2.c:1151-1170: the result and the new value of the displacement
(C's truncating `/` and `%`). -/
def compDisp (v : Int) (r : Instr) (c : Ctx) : Bool × Int :=
  let e : Int := elemSize r c
  if c.evexFlag then
    if -(128 * e) ≤ v ∧ v ≤ 127 * e then
      if v.tmod e = 0 then (true, v.tdiv e) else (false, v)
    else (false, v)
  else (true, v)

/-- What `BuildMemoryEncoding` delivers. -/
structure MemEnc where
  aso : Bool
  modRM : Nat
  sib : Nat
  rex : Nat
  needModRM : Bool
  needSIB : Bool
  dispSize : Nat
  /-- the displacement: signed low half and upper half -/
  lo : Int
  hi : Nat
  needB : Bool
  needX : Bool
  needRR : Bool
  deriving DecidableEq, Repr, Inhabited

/-- The table in use: codegenv2.c:1549-1552. -/
def memTable (m64 : Bool) : List MemDef := if m64 then memTable64 else memTable32

/-- The 16-bit ModRM in 32-bit code: codegenv2.c:1296-1326. -/
def rm16 (m : Opnd) : Nat :=
  let is (x : Option Nat) (t : Nat) : Bool := x == some t
  if is m.base T_BX && is m.idx T_SI then 0
  else if is m.base T_BX && is m.idx T_DI then 1
  else if is m.base T_BP && is m.idx T_SI then 2
  else if is m.base T_BP && is m.idx T_DI then 3
  else if is m.base T_SI then 4
  else if is m.base T_DI then 5
  else if m.base.isNone && m.idx.isNone then 6
  else if is m.base T_BX then 7
  else 0

/-- Base and index number of the address: codegenv2.c:1222-1243. -/
def addrRegs (r : Instr) (m : Opnd) : Nat × Nat × Bool :=
  let b := getRegisterNo m.base
  let i := getRegisterNo m.idx
  let (b, i) := if has r.vexflags VEX_VSIBF && isSimdRegister m.base then (i, b) else (b, i)
  if has r.evexflags EVEX_VSIBF && decide (i > 15) then (b, i &&& 7, true) else (b, i, false)

/-- `BuildMemoryEncoding` for `memOpnd < NO_MEM`: codegenv2.c:1207-1455.  The test
`base_reg->token == T_RIP` (1376) compares a token class with a register token and is never
true (the RIP rows of the table demand a displacement anyway). -/
def buildMem (r : Instr) (m : Opnd) (c : Ctx) : Option MemEnc :=
  let (b0, i, rr) := addrRegs r m
  let bsz := sizeFromRegister m.base
  let isz := sizeFromRegister m.idx
  if bsz ≠ isz ∧ isz < 16 ∧ isz > 0 ∧ bsz > 0 then none
  else if c.m64 ∧ bsz = 2 then none
  else if (i > 7 ∨ b0 > 7) ∧ !c.m64 ∧ i < 16 ∧ b0 < 16 then none
  else
    let symAddr := m.sym.isSome && m.isAddr
    let b := if symAddr && c.m64 && m.sym != some true && b0 == 17 then 16 else b0
    let aso := !symAddr && ((c.m64 && bsz == 4) || (!c.m64 && bsz == 2))
    let is16 := !c.m64 && bsz == 2
    let e : MemDef := if is16 then (memTable c.m64).getD 0 default
      else (memTable c.m64).getD (b * 18 + i % 18) default
    if !is16 && has e.flags NO_ENCODEF then none
    else
      let modRM0 := if is16 then rm16 m else if has e.flags MEMF_MODRMF then e.modRM else 0
      let need := is16 || has e.flags MEMF_MODRMF
      let sib0 := if !is16 && has e.flags MEMF_SIBF then e.sib else 0
      let dispNeeded := m.lo != 0 || has e.flags MEMF_DSPF || has e.flags MEMF_DSP32F ||
        m.sym == some false
      let cd := compDisp m.lo r c
      let d8 := cd.1 && (m.sym.isNone || m.sym == some true) && !has e.flags MEMF_DSP32F &&
        decide (-128 ≤ cd.2 ∧ cd.2 ≤ 127)
      let (dispSize, modBits, lo) : Nat × Nat × Int :=
        if dispNeeded then
          if d8 then (1, 0x40, cd.2)
          else (4, if has e.flags MEMF_DSP32F then 0 else 0x80, cd.2)
        else (0, 0, m.lo)
      let needB := decide (b > 7 ∧ b < 16)
      let needX := decide (i > 7 ∧ i < 16)
      let rex := if r.vexflags == 0 then (if needB then 0x41 else 0) ||| (if needX then 0x42 else 0)
        else 0
      let doScale := !is16 && (decide (m.scale > 1) || m.idx.isSome || has e.flags MEMF_SIBF)
      let ss := if m.scale = 2 then 1 else if m.scale = 4 then 2 else if m.scale = 8 then 3 else 0
      some ⟨aso, modRM0 ||| modBits, if doScale then sib0 ||| (ss <<< 6) else sib0, rex, need,
        (!is16 && has e.flags MEMF_SIBF) || doScale, dispSize, lo, m.hi, needB, needX, rr⟩

/-- The same for the absolute (moffs) forms, `memOpnd` = MEM_ABS_0 or MEM_ABS_1:
codegenv2.c:1361-1381, 1404.  The program also reads `opExpr[8]` or `opExpr[9]`, beyond the
array of four (1277, 1376); the model takes these reads to deliver no symbol. -/
def buildAbs (m : Opnd) (c : Ctx) : MemEnc :=
  ⟨false, 0, 0, 0, false, false, if c.m64 then 8 else 4, m.lo, m.hi, false, false, false⟩

/-- `n` bytes of a value, low byte first. -/
def leBytes : Nat → Nat → List Nat
  | 0, _ => []
  | n + 1, v => v % 256 :: leBytes n (v / 256)

/-- The first `n` bytes of `value64` (union `displacement`: codegenv2.c:1512-1516). -/
def dispBytes (n : Nat) (lo : Int) (hi : Nat) : List Nat :=
  leBytes n ((lo % 2 ^ 32).toNat + hi * 2 ^ 32)

/-- `PromoteBroadcast`: codegenv2.c:1461-1478, the new `broadflags`. -/
def promoteBroadcast (r : Instr) (broad : Nat) : Nat :=
  if strcaseeq r.mnemonic ['V', 'C', 'V', 'T', 'D', 'Q', '2', 'P', 'D'] then
    if broad == 0x40 && r.op 0 == .R_ZMM then 0x30
    else if broad == 0x30 && r.op 0 == .R_YMM then 0x20
    else if broad == 0x20 && r.op 0 == .R_XMM then 0x10
    else broad
  else broad

/-- Instruction prefixes LOCK, REPx, BND: codegenv2.c:1708-1736. -/
def insPrefix (r : Instr) (p : Option InsPfx) : Option (List Nat) :=
  let allow (f b : Nat) : Option (List Nat) := if has r.flags f then some [b] else none
  match p with
  | none => some []
  | some .bnd => allow ALLOW_BNDF 0xf2
  | some .lock => allow ALLOW_LOCKF 0xf0
  | some .rep | some .repe | some .repz => allow ALLOW_REPF 0xf3
  | some .repne | some .repnz => allow ALLOW_REPF 0xf2

/-- `PREFIX_ES` ... `PREFIX_GS`: H/codegenv2.h:24-29. -/
def segByte : SegReg → Nat
  | .es => 0x26 | .cs => 0x2e | .ss => 0x36 | .ds => 0x3e | .fs => 0x64 | .gs => 0x65

/-- Segment override: codegenv2.c:1743-1797. -/
def segPrefix (r : Instr) (c : Ctx) : Option (List Nat) :=
  match c.seg with
  | none => some []
  | some s =>
    if has r.flags ALLOW_SEGF then
      if c.m64 && (s == .fs || s == .gs || s == .ss) then some [segByte s]
      else if c.m64 && !has r.flags ALLOW_SEGXF then none
      else some [segByte s]
    else none

/-- Mandatory prefix before REX: codegenv2.c:1820-1835. -/
def mandatory1 (p : Nat) : List Nat :=
  if p == PFX_0x66F3A || p == PFX_0x66F38 || p == PFX_0x66F then [0x66]
  else if p == PFX_0xF3F38 || p == PFX_0xF30F then [0xf3]
  else if p == PFX_0xF2F38 || p == PFX_0xF20F then [0xf2]
  else []

/-- Mandatory prefix after REX: codegenv2.c:1847-1873. -/
def mandatory2 (p : Nat) : List Nat :=
  if p == PFX_0xF || p == PFX_0x66F then [0x0f]
  else if p == PFX_0x66F38 then [0x0f, 0x38]
  else if p == PFX_0x66F3A then [0x0f, 0x3a]
  else if p == PFX_0xF30F || p == PFX_0xF20F then [0x0f]
  else if p == PFX_0x0F38 || p == PFX_0xF3F38 || p == PFX_0xF2F38 then [0x0f, 0x38]
  else []

/-- `Require_OPND_Size_Override`: codegenv2.c:414-424, in 32- and 64-bit code. -/
def needOSO (r : Instr) : Bool := r.useOSO && r.opSize == 2

/-- Opcode bytes: codegenv2.c:1878-1890. -/
def opcodeBytes (r : Instr) (o : Nat → Opnd) : List Nat :=
  if has r.flags F_OPCODE_REGF then
    [(r.opcode.getD 0 0 + (getRegisterNo (o 0).base &&& 7)) % 256]
  else r.opcode.take r.opcodeBytes

/-- Immediate bytes: codegenv2.c:1932-1966 (fixups do not change the number of bytes). -/
def immBytes (r : Instr) (o : Nat → Opnd) : List Nat :=
  if r.immOpnd == NO_IMM then []
  else
    let v := (o r.immOpnd).data
    let v := if has r.vexflags VEX_4OPNDF then (v <<< 4) % 2 ^ 64 else v
    let n := if has r.flags IMM8_ONLYF then 1 else r.opSize
    leBytes n v

/-- Memory part of `CodeGenV2`: codegenv2.c:1677-1679. -/
def memPart (r : Instr) (o : Nat → Opnd) (c : Ctx) : Option MemEnc :=
  if r.memOpnd == NO_MEM then
    some ⟨false, 0, 0, 0, false, false, 0, 0, 0, false, false, false⟩
  else if r.memOpnd < NO_MEM then buildMem r (o r.memOpnd) c
  else some (buildAbs (o (r.memOpnd &&& 7)) c)

/-- VEX or EVEX bytes: codegenv2.c:1686-1695. -/
def vexPart (r : Instr) (o : Nat → Opnd) (c : Ctx) (me : MemEnc) : Option (List Nat) :=
  if has r.vexflags VEXF && !has r.evexflags EVEX_ONLYF && !c.evexFlag then
    some (buildVEX r o me.needB me.needX)
  else if has r.evexflags EVEX_ONLYF || (c.evexFlag && has r.vexflags EVEXF) then
    buildEVEX r o me.needB me.needX me.needRR c
  else some []

/-- `CodeGenV2` after the row has been found, up to the SIB byte: codegenv2.c:1630-1902.
`IsValidInCPUMode` (1644) is not modelled, nor are line numbers. -/
def front (r : Instr) (o : Nat → Opnd) (c0 : Ctx) : Option (List Nat × MemEnc) :=
  let c := { c0 with broad := promoteBroadcast r c0.broad }
  match memPart r o c with
  | none => none
  | some me =>
  match vexPart r o c me with
  | none => none
  | some vex =>
  if c.evexFlag && r.evexflags == 0 then none
  else
  match insPrefix r c.pfx, segPrefix r c with
  | some ip, some sp =>
    let isV := has r.vexflags VEXF || has r.vexflags EVEXF
    let modRM := me.modRM ||| buildModRM r o isV
    let rex := if c.m64 then buildREX me.rex r o else me.rex
    some ((if me.aso then [0x67] else []) ++ ip ++ (if needOSO r then [0x66] else []) ++ sp ++
      vex ++ mandatory1 r.mandatoryPrefix ++ (if rex ≠ 0 then [rex] else []) ++
      mandatory2 r.mandatoryPrefix ++ opcodeBytes r o ++
      (if me.needModRM || has r.flags F_MODRMF then [modRM] else []) ++
      (if me.needSIB then [me.sib] else []), me)
  | _, _ => none

/-- `CodeGenV2` after the row has been found: codegenv2.c:1630-1978, the bytes output.  The
listing is not modelled; for the fixup records see `ripFixup`. -/
def emit (r : Instr) (o : Nat → Opnd) (c : Ctx) : Option (List Nat) :=
  match front r o c with
  | none => none
  | some (fr, me) => some (fr ++ dispBytes me.dispSize me.lo me.hi ++ immBytes r o)

/-- The fixup of the memory operand of an instruction at offset `ofs`, when it is RIP-relative
(type FIX_RELOFF32): `(locofs, addbytes)`.  `locofs` is set before the displacement is output
(codegenv2.c:1916), `addbytes` at the end, through the first and the second operand
(1968-1978).  `alias`: the second operand shares the fixup record of the third, as it does when
the parser has moved a VEX source register out of the way and back (parser.c:3871-3877 copies the
second operand to the third and overwrites its type only).  0 is what the field starts with. -/
def ripFixup (r : Instr) (o : Nat → Opnd) (c : Ctx) (alias : Bool) (ofs : Nat) : Option (Nat × Nat) :=
  match front r o c with
  | none => none
  | some (fr, me) =>
    let locofs := ofs + fr.length
    let last := locofs + (dispBytes me.dispSize me.lo me.hi).length + (immBytes r o).length
    some (locofs, if r.memOpnd == 0 || r.memOpnd == 1 || (r.memOpnd == 2 && alias) then last - locofs
      else 0)

end Verif.Cgv2
