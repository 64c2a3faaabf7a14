/-!
# Model of the CPU directives (`/repo/cpumodel.c` 361-514) and of the checks that use their setting

`curr` is `ModuleInfo.curr_cpu`. Not modelled: `.WIN64`, the `:` argument of `.X64`, and the list of the reserved words that a
change of the mode switches (C12).
-/
namespace Verif.Cpu

abbrev Info := BitVec 16

/-- `enum cpu_info`, H/globals.h 361-438 -/
def P_NO87 : Info := 0x0001#16
def P_87 : Info := 0x0002#16
def P_287 : Info := 0x0003#16
def P_387 : Info := 0x0004#16
def P_PM : Info := 0x0008#16
def P_86 : Info := 0x0000#16
def P_186 : Info := 0x0010#16
def P_286 : Info := 0x0020#16
def P_386 : Info := 0x0030#16
def P_486 : Info := 0x0040#16
def P_586 : Info := 0x0050#16
def P_686 : Info := 0x0060#16
def P_64 : Info := 0x0070#16
def P_MMX : Info := 0x0100#16
def P_K3D : Info := 0x0200#16
def P_SSE1 : Info := 0x0400#16
def P_SSE2 : Info := 0x0800#16
def P_SSE3 : Info := 0x1000#16
def P_SSSE3 : Info := 0x2000#16
def P_SSE4 : Info := 0x4000#16
def P_AVX : Info := 0x8000#16
def P_SSEALL : Info := P_SSE1 ||| P_SSE2 ||| P_SSE3 ||| P_SSSE3 ||| P_SSE4 ||| P_AVX
def P_FPU_MASK : Info := 0x0007#16
def P_CPU_MASK : Info := 0x00F0#16
def P_EXT_MASK : Info := P_MMX ||| P_K3D ||| P_SSEALL
def P_EXT_ALL : Info := P_MMX ||| P_K3D ||| P_SSEALL

/-- The directives. -/
inductive Dir
  | d8086 | d186 | d286 | d286c | d286p | d386 | d386c | d386p | d486 | d486p | d586 | d586p | d686 | d686p
  | k3d | mmx | xmm | x64 | x64p | amd64 | d8087 | d287 | d387 | no87
  deriving DecidableEq, Repr

/-- `sflags` of the directives, H/directve.h 24-51; `.AMD64`: cpumodel.c 467-468 -/
def Dir.info : Dir → Info
  | .d8086 => P_86
  | .d186 => P_186
  | .d286 => P_286
  | .d286c => P_286
  | .d286p => P_286 ||| P_PM
  | .d386 => P_386
  | .d386c => P_386
  | .d386p => P_386 ||| P_PM
  | .d486 => P_486
  | .d486p => P_486 ||| P_PM
  | .d586 => P_586
  | .d586p => P_586 ||| P_PM
  | .d686 => P_686
  | .d686p => P_686 ||| P_PM
  | .k3d => P_K3D ||| P_MMX
  | .mmx => P_MMX
  | .xmm => P_MMX ||| P_SSEALL
  | .x64 => P_64
  | .x64p => P_64 ||| P_PM
  | .amd64 => P_64
  | .d8087 => P_87
  | .d287 => P_287
  | .d387 => P_387
  | .no87 => P_NO87

/-- SetCPU, cpumodel.c 367-385: the CPU bits and the default of the FPU bits -/
def setCpuBits (curr new : Info) : Info :=
  if new = P_86 ∨ new &&& P_CPU_MASK ≠ 0#16 then
    let c1 := (curr &&& ~~~(P_CPU_MASK ||| P_PM)) ||| (new &&& (P_CPU_MASK ||| P_PM))
    if c1 &&& P_FPU_MASK ≠ P_NO87 ∧ new &&& P_FPU_MASK = 0#16 then
      let c2 := c1 &&& ~~~P_FPU_MASK
      if c2 &&& P_CPU_MASK < P_286 then c2 ||| P_87
      else if c2 &&& P_CPU_MASK < P_386 then c2 ||| P_287
      else c2 ||| P_387
    else c1
  else curr

/-- SetCPU, cpumodel.c 367-399 -/
def setCPU (curr new : Info) : Info :=
  let c1 := setCpuBits curr new
  let c2 := if new &&& P_FPU_MASK ≠ 0#16 then (c1 &&& ~~~P_FPU_MASK) ||| (new &&& P_FPU_MASK) else c1
  let c3 := if new &&& P_CPU_MASK = P_64 then c2 ||| P_EXT_ALL else c2
  if new &&& P_EXT_MASK ≠ 0#16 then (c3 &&& ~~~P_EXT_MASK) ||| (new &&& P_EXT_MASK) else c3

/-- the value of `@Cpu`, cpumodel.c 403-424; `M_` constants: H/globals.h 440-453 -/
def cpuSym (curr : Info) : Info :=
  let t := curr &&& P_CPU_MASK
  let m : Info :=
    if t = P_186 then 0x1 ||| 0x2
    else if t = P_286 then 0x1 ||| 0x2 ||| 0x4
    else if t = P_386 then 0x1 ||| 0x2 ||| 0x4 ||| 0x8
    else if t = P_486 then 0x1 ||| 0x2 ||| 0x4 ||| 0x8 ||| 0x10
    else if t = P_586 then 0x1 ||| 0x2 ||| 0x4 ||| 0x8 ||| 0x10 ||| 0x20
    else if t = P_64 ∨ t = P_686 then 0x1 ||| 0x2 ||| 0x4 ||| 0x8 ||| 0x10 ||| 0x40
    else 0x1
  let m1 := if curr &&& P_PM ≠ 0#16 then m ||| 0x80 else m
  let f := curr &&& P_FPU_MASK
  if f = P_87 then m1 ||| 0x100
  else if f = P_287 then m1 ||| 0x100 ||| 0x400
  else if f = P_387 then m1 ||| 0x100 ||| 0x400 ||| 0x800
  else m1

/-- USE16, USE32, USE64 -/
inductive Ofs | use16 | use32 | use64
  deriving DecidableEq, Repr

/-- `min_cpu`, segment.c 100 -/
def minCpu : Ofs → Info
  | .use16 => P_86
  | .use32 => P_386
  | .use64 => P_64

/-- What a CPU directive works on: `curr_cpu`, whether `.MODEL` has been given, `defOfssize`, and the offset size of the open
segment. -/
structure St where
  curr : Info
  hasModel : Bool
  defOfs : Ofs
  seg : Option Ofs
  deriving DecidableEq, Repr

/-- SetOfssize, segment.c 429-444: the current offset size, and whether there is the error
INCOMPATIBLE_CPU_MODE_FOR_XXBIT_SEGMENT; `(uint_8)curr_cpu` are the lower 8 bits. -/
def setOfssize (s : St) : Ofs × Bool :=
  match s.seg with
  | none => (s.defOfs, false)
  | some o => (o, decide (s.curr &&& 0xFF#16 < minCpu o))

/-- the default of the offset size, cpumodel.c 428-434 -/
def defaultOfs (curr : Info) : Ofs :=
  if P_64 ≤ curr &&& P_CPU_MASK then .use64 else if P_386 ≤ curr &&& P_CPU_MASK then .use32 else .use16

/-- CpuDirective, cpumodel.c 451-514, SetCPU, and SetDefaultOfssize, 110-118; the Bool: the error of SetOfssize -/
def directive (s : St) (d : Dir) : St × Bool :=
  let s1 := { s with curr := setCPU s.curr d.info }
  if s1.hasModel then (s1, false)
  else
    let s2 := if s1.seg = none then { s1 with defOfs := defaultOfs s1.curr } else s1
    (s2, (setOfssize s2).2)

/-- The checks of an instruction with `cpu` in its table row: codegen.c 3317 and 203-205 -/
def accepts (curr ins : Info) : Bool :=
  !(decide (curr &&& P_PM < ins &&& P_PM)) &&
  !(decide (curr &&& P_CPU_MASK < ins &&& P_CPU_MASK) || decide (curr &&& P_FPU_MASK < ins &&& P_FPU_MASK) ||
    decide (curr &&& P_EXT_MASK < ins &&& P_EXT_MASK))

/-- The check of a register, expreval.c 976-978 -/
def acceptsReg (curr reg : Info) : Bool :=
  !((decide (reg &&& P_EXT_MASK ≠ 0#16) && decide (reg &&& curr &&& P_EXT_MASK = 0#16)) ||
    decide (curr &&& P_CPU_MASK < reg &&& P_CPU_MASK))

/-- The checks of an instruction of the second table (H/InstrTableV2.h): IsValidInCPUMode, codegenv2.c 431-448. `x64only`:
`validModes == X64`, `x64`: `validModes & X64`. -/
def acceptsV2 (curr : Info) (o : Ofs) (x64only x64 : Bool) (ins : Info) : Bool :=
  !(decide (o ≠ .use64) && x64only) && !(decide (o = .use64) && !x64) && !(decide (curr &&& P_PM < ins &&& P_PM))

end Verif.Cpu
