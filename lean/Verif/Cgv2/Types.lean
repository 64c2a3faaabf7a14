/-!
# codegenv2.h: the data types of the V2 code generator

Constants and the `Instr_Def` structure, transcribed from H/codegenv2.h.
-/

namespace Verif.Cgv2

/-- `enum op_type` (H/codegenv2.h:43-141), in the same order; the numeric value of a
constructor is its position. -/
inductive OpType where
  | OP_N | R8 | R16 | R32 | R64 | R8_AL | R16_AX | R32_EAX
  | R64_RAX | R8_CL | R16_CX | R32_ECX | R64_RCX | R16_DX | R8E | R16E
  | R32E | R64E | R_CR8 | R_CR | R_DR | R8H | R8U | F32
  | F64 | F80 | R_SEG | R_SEGE | MMX64 | R_XMM | R_XMME | R_XMM_ANY
  | R_YMM | R_YMME | R_YMM_ANY | R_ZMM | R_RIP | R_K | M8 | M16
  | M32 | M64 | M48 | M80 | M8UINT | M16UINT | M32UINT | M64UINT
  | M8SINT | M16SINT | M32SINT | M64SINT | M32FLOAT | M64FLOAT | M128 | M256
  | M512 | M_ANY | IMM | IMM8 | IMM16 | IMM32 | IMM48 | IMM64
  | R_STI | R_ST0 | R_ST
  deriving DecidableEq, Repr, Inhabited

/-- The numeric value of an `enum op_type` constant. -/
def OpType.toByte : OpType → Nat := OpType.ctorIdx

/-! Flag bits: H/codegenv2.h:143-172 (`flags`), 175-197 (`vexflags`), 200-212
(`evexflags`) and 274-278 (memory table flags). -/

/-- `#define ALLOW_REP (1<<0)` -/
abbrev ALLOW_REPF : Nat := 1
/-- `#define ALLOW_LOCK (1<<1)` -/
abbrev ALLOW_LOCKF : Nat := 2
/-- `#define IS_BRNCH (1<<2)` -/
abbrev IS_BRNCHF : Nat := 4
/-- `#define ALLOW_BND (1<<3)` -/
abbrev ALLOW_BNDF : Nat := 8
/-- `#define REX (1<<4)` -/
abbrev REXF : Nat := 16
/-- `#define REXW (1<<5)` -/
abbrev REXWF : Nat := 32
/-- `#define REXR (1<<6)` -/
abbrev REXRF : Nat := 64
/-- `#define REXB (1<<7)` -/
abbrev REXBF : Nat := 128
/-- `#define REXX (1<<8)` -/
abbrev REXXF : Nat := 256
/-- `#define F_MODRM (1<<9)` -/
abbrev F_MODRMF : Nat := 512
/-- `#define F_MODRM_REG (1<<10)` -/
abbrev F_MODRM_REGF : Nat := 1024
/-- `#define F_MODRM_RM (1<<11)` -/
abbrev F_MODRM_RMF : Nat := 2048
/-- `#define F_SIB (1<<12)` -/
abbrev F_SIBF : Nat := 4096
/-- `#define F_ADDST (1<<13)` -/
abbrev F_ADDSTF : Nat := 8192
/-- `#define F_OPCODE_REG (1<<14)` -/
abbrev F_OPCODE_REGF : Nat := 16384
/-- `#define F_OPCODE2_REG (1<<15)` -/
abbrev F_OPCODE2_REGF : Nat := 32768
/-- `#define F_OPCODE_REG2 (1<<16)` -/
abbrev F_OPCODE_REG2F : Nat := 65536
/-- `#define ALLOW_SEG (1<<17)` -/
abbrev ALLOW_SEGF : Nat := 131072
/-- `#define DSPW (1<<18)` -/
abbrev DSPWF : Nat := 262144
/-- `#define ALLOW_SEGX (1<<19)` -/
abbrev ALLOW_SEGXF : Nat := 524288
/-- `#define REXP_MEM (1<<20)` -/
abbrev REXP_MEMF : Nat := 1048576
/-- `#define ALLOW_FWAIT (1<<21)` -/
abbrev ALLOW_FWAITF : Nat := 2097152
/-- `#define NO_FWAIT (1<<22)` -/
abbrev NO_FWAITF : Nat := 4194304
/-- `#define NO_MEM_REG (1<<23)` -/
abbrev NO_MEM_REGF : Nat := 8388608
/-- `#define NO_PREFIX (1<<24)` -/
abbrev NO_PREFIXF : Nat := 16777216
/-- `#define IMM8_ONLY (1<<25)` -/
abbrev IMM8_ONLYF : Nat := 33554432
/-- `#define EREX (1<<26)` -/
abbrev EREXF : Nat := 67108864
/-- `#define SRCHDSTL (1<<27)` -/
abbrev SRCHDSTLF : Nat := 134217728
/-- `#define OPCODE_EXT (1<<28)` -/
abbrev OPCODE_EXTF : Nat := 268435456
/-- `#define F_OPCODE2_STI (1<<29)` -/
abbrev F_OPCODE2_STIF : Nat := 536870912
/-- `#define VEX (1<<0)` -/
abbrev VEXF : Nat := 1
/-- `#define VEX_WIG (1<<1)` -/
abbrev VEX_WIGF : Nat := 2
/-- `#define VEX_W0 (1<<2)` -/
abbrev VEX_W0F : Nat := 4
/-- `#define VEX_W1 (1<<3)` -/
abbrev VEX_W1F : Nat := 8
/-- `#define VEX_66 (1<<4)` -/
abbrev VEX_66F : Nat := 16
/-- `#define VEX_F2 (1<<5)` -/
abbrev VEX_F2F : Nat := 32
/-- `#define VEX_F3 (1<<6)` -/
abbrev VEX_F3F : Nat := 64
/-- `#define VEX_0F (1<<7)` -/
abbrev VEX_0FF : Nat := 128
/-- `#define VEX_0F3A (1<<8)` -/
abbrev VEX_0F3AF : Nat := 256
/-- `#define VEX_0F38 (1<<9)` -/
abbrev VEX_0F38F : Nat := 512
/-- `#define VEX_LIG (1<<10)` -/
abbrev VEX_LIGF : Nat := 1024
/-- `#define VEX_NDS (1<<11)` -/
abbrev VEX_NDSF : Nat := 2048
/-- `#define VEX_NDD (1<<12)` -/
abbrev VEX_NDDF : Nat := 4096
/-- `#define VEX_DDS (1<<13)` -/
abbrev VEX_DDSF : Nat := 8192
/-- `#define VEX_R (1<<14)` -/
abbrev VEX_RF : Nat := 16384
/-- `#define VEX_B (1<<15)` -/
abbrev VEX_BF : Nat := 32768
/-- `#define VEX_X (1<<16)` -/
abbrev VEX_XF : Nat := 65536
/-- `#define VEX_DUP_NDS (1<<17)` -/
abbrev VEX_DUP_NDSF : Nat := 131072
/-- `#define VEX_2OPND (1<<18)` -/
abbrev VEX_2OPNDF : Nat := 262144
/-- `#define VEX_VSIB (1<<19)` -/
abbrev VEX_VSIBF : Nat := 524288
/-- `#define VEX_4OPND (1<<20)` -/
abbrev VEX_4OPNDF : Nat := 1048576
/-- `#define VEX_3RD_OP (1<<21)` -/
abbrev VEX_3RD_OPF : Nat := 2097152
/-- `#define EVEX (1<<22)` -/
abbrev EVEXF : Nat := 4194304
/-- `#define EVEX_ONLY (1<<0)` -/
abbrev EVEX_ONLYF : Nat := 1
/-- `#define EVEX_NR (1<<1)` -/
abbrev EVEX_NRF : Nat := 2
/-- `#define EVEX_W0 (1<<2)` -/
abbrev EVEX_W0F : Nat := 4
/-- `#define EVEX_W1 (1<<3)` -/
abbrev EVEX_W1F : Nat := 8
/-- `#define EVEX_BRD (1<<4)` -/
abbrev EVEX_BRDF : Nat := 16
/-- `#define EVEX_MASK (1<<5)` -/
abbrev EVEX_MASKF : Nat := 32
/-- `#define EVEX_Z (1<<6)` -/
abbrev EVEX_ZF : Nat := 64
/-- `#define EVEX_SAE (1<<7)` -/
abbrev EVEX_SAEF : Nat := 128
/-- `#define EVEX_RND (1<<8)` -/
abbrev EVEX_RNDF : Nat := 256
/-- `#define EVEX_COMP8 (1<<9)` -/
abbrev EVEX_COMP8F : Nat := 512
/-- `#define EVEX_K (1<<10)` -/
abbrev EVEX_KF : Nat := 1024
/-- `#define EVEX_VSIB (1<<11)` -/
abbrev EVEX_VSIBF : Nat := 2048
/-- `#define MEMF_MODRM (1<<0)` -/
abbrev MEMF_MODRMF : Nat := 1
/-- `#define MEMF_SIB (1<<1)` -/
abbrev MEMF_SIBF : Nat := 2
/-- `#define MEMF_DSP (1<<2)` -/
abbrev MEMF_DSPF : Nat := 4
/-- `#define MEMF_DSP32 (1<<3)` -/
abbrev MEMF_DSP32F : Nat := 8
/-- `#define NO_ENCODE (1<<4)` -/
abbrev NO_ENCODEF : Nat := 16

/-- `NO_FLAGS`, `NO_VEX`, `NO_EVEX`: H/codegenv2.h:143, 175, 200. -/
abbrev NO_FLAGSF : Nat := 0

/-- `(x & y) != 0` for a single-bit (or any) mask. -/
def has (x y : Nat) : Bool := (x &&& y) != 0

/-- The CPU modes `X16`, `X32`, `X64`: H/codegenv2.h:219-221. -/
abbrev X16 : Nat := 1
abbrev X32 : Nat := 2
abbrev X64 : Nat := 4

/-- `op_dir`: H/codegenv2.h:236-240. -/
abbrev REG_DST : Nat := 0
abbrev RM_DST : Nat := 1
abbrev NO_DST : Nat := 4

/-- `immOpnd` / `memOpnd` when there is none: H/codegenv2.h:243, 250. -/
abbrev NO_IMM : Nat := 4
abbrev NO_MEM : Nat := 5

/-- mandatory prefixes: H/codegenv2.h:224-233. -/
abbrev PFX_0xF : Nat := 1
abbrev PFX_0xF3 : Nat := 2
abbrev PFX_0x66F : Nat := 3
abbrev PFX_0x66F38 : Nat := 4
abbrev PFX_0x66F3A : Nat := 5
abbrev PFX_0xF30F : Nat := 6
abbrev PFX_0xF20F : Nat := 7
abbrev PFX_0x0F38 : Nat := 8
abbrev PFX_0xF3F38 : Nat := 9
abbrev PFX_0xF2F38 : Nat := 10

/-- `enum instr_group`: H/codegenv2.h:7-21. -/
abbrev GP0 : Nat := 0
abbrev GP1 : Nat := 1
abbrev GP2 : Nat := 2
abbrev GP3 : Nat := 3
abbrev GP4 : Nat := 4
abbrev SSE0 : Nat := 5
abbrev AVX0 : Nat := 6
abbrev AVX1 : Nat := 7
abbrev EVX0 : Nat := 8
abbrev MVX0 : Nat := 9
abbrev FP0 : Nat := 10
abbrev FP1 : Nat := 11
abbrev MMX0 : Nat := 12

/-- `struct Instr_Def`: H/codegenv2.h:344-370.  Not represented: `hash` and `next` (the
hash chains are lists here), `SIB` (0 in every row and never read), `cpu` (only read by
`IsValidInCPUMode`). -/
structure Instr where
  /-- the characters of the mnemonic -/
  mnemonic : List Char
  /-- `operand_types[5]`, missing entries are `OP_N` -/
  ops : List OpType
  group : Nat
  flags : Nat
  vexflags : Nat
  evexflags : Nat
  opElements : Nat
  opcodeBytes : Nat
  /-- `opcode[4]` -/
  opcode : List Nat
  opSize : Nat
  srcidx : Nat
  modRM : Nat
  /-- `useOSO == OP_SIZE_OVERRIDE` -/
  useOSO : Bool
  validModes : Nat
  opDir : Nat
  mandatoryPrefix : Nat
  immOpnd : Nat
  memOpnd : Nat
  deriving DecidableEq, Repr, Inhabited

/-- `operand_types[i]`. -/
def Instr.op (r : Instr) (i : Nat) : OpType := r.ops.getD i .OP_N

end Verif.Cgv2
