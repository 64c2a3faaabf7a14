/-!
# H/special.h: the register tokens

Generated from the `RWT_REG` lines of H/special.h (all configuration options on).  The
number of a token is its position in `enum special_token` (H/parser.h:39-48; `T_NULL` is 0).
-/

namespace Verif.Cgv2

/-- One register line `res(token, string, RWT_REG, value, bytval, flags, cpu, sflags)`. -/
structure RegRow where
  /-- the value of `T_<token>` -/
  tok : Nat
  /-- `string` -/
  name : String
  /-- `value`: the operand class `OP_...` (H/operands.h:46-92) -/
  opcls : Nat
  /-- `bytval`: the register number (plus 0x10 for DRx, 0x20 for TRx) -/
  num : Nat
  /-- size in bytes: `sflags` without `SFR_IREG` and `SFR_SSBASED` -/
  size : Nat
  deriving DecidableEq, Repr

/-- The register lines of H/special.h:34-273. -/
def regTable : List RegRow := [
  ⟨1, "al", 0x201, 0x0, 1⟩, ⟨2, "cl", 0x401, 0x1, 1⟩, ⟨3, "dl", 0x1, 0x2, 1⟩,
  ⟨4, "bl", 0x1, 0x3, 1⟩, ⟨5, "ah", 0x1, 0x4, 1⟩, ⟨6, "ch", 0x1, 0x5, 1⟩,
  ⟨7, "dh", 0x1, 0x6, 1⟩, ⟨8, "bh", 0x1, 0x7, 1⟩, ⟨9, "ax", 0x202, 0x0, 2⟩,
  ⟨10, "cx", 0x2, 0x1, 2⟩, ⟨11, "dx", 0x802, 0x2, 2⟩, ⟨12, "bx", 0x2, 0x3, 2⟩,
  ⟨13, "sp", 0x2, 0x4, 2⟩, ⟨14, "bp", 0x2, 0x5, 2⟩, ⟨15, "si", 0x2, 0x6, 2⟩,
  ⟨16, "di", 0x2, 0x7, 2⟩, ⟨17, "eax", 0x204, 0x0, 4⟩, ⟨18, "ecx", 0x4, 0x1, 4⟩,
  ⟨19, "edx", 0x4, 0x2, 4⟩, ⟨20, "ebx", 0x4, 0x3, 4⟩, ⟨21, "esp", 0x4, 0x4, 4⟩,
  ⟨22, "ebp", 0x4, 0x5, 4⟩, ⟨23, "esi", 0x4, 0x6, 4⟩, ⟨24, "edi", 0x4, 0x7, 4⟩,
  ⟨25, "es", 0x2000, 0x0, 0⟩, ⟨26, "cs", 0x2000, 0x1, 0⟩, ⟨27, "ss", 0x2000, 0x2, 0⟩,
  ⟨28, "ds", 0x2000, 0x3, 0⟩, ⟨29, "fs", 0x4000, 0x4, 0⟩, ⟨30, "gs", 0x4000, 0x5, 0⟩,
  ⟨31, "st", 0x8000, 0x0, 10⟩, ⟨32, "mm0", 0x10, 0x0, 8⟩, ⟨33, "mm1", 0x10, 0x1, 8⟩,
  ⟨34, "mm2", 0x10, 0x2, 8⟩, ⟨35, "mm3", 0x10, 0x3, 8⟩, ⟨36, "mm4", 0x10, 0x4, 8⟩,
  ⟨37, "mm5", 0x10, 0x5, 8⟩, ⟨38, "mm6", 0x10, 0x6, 8⟩, ⟨39, "mm7", 0x10, 0x7, 8⟩,
  ⟨40, "xmm0", 0x20, 0x0, 16⟩, ⟨41, "xmm1", 0x20, 0x1, 16⟩, ⟨42, "xmm2", 0x20, 0x2, 16⟩,
  ⟨43, "xmm3", 0x20, 0x3, 16⟩, ⟨44, "xmm4", 0x20, 0x4, 16⟩, ⟨45, "xmm5", 0x20, 0x5, 16⟩,
  ⟨46, "xmm6", 0x20, 0x6, 16⟩, ⟨47, "xmm7", 0x20, 0x7, 16⟩, ⟨48, "k0", 0x40, 0x0, 8⟩,
  ⟨49, "k1", 0x40, 0x1, 8⟩, ⟨50, "k2", 0x40, 0x2, 8⟩, ⟨51, "k3", 0x40, 0x3, 8⟩,
  ⟨52, "k4", 0x40, 0x4, 8⟩, ⟨53, "k5", 0x40, 0x5, 8⟩, ⟨54, "k6", 0x40, 0x6, 8⟩,
  ⟨55, "k7", 0x40, 0x7, 8⟩, ⟨56, "bnd0", 0x9, 0x0, 8⟩, ⟨57, "bnd1", 0x9, 0x1, 8⟩,
  ⟨58, "bnd2", 0x9, 0x2, 8⟩, ⟨59, "bnd3", 0x9, 0x3, 8⟩, ⟨60, "ymm0", 0x80, 0x0, 32⟩,
  ⟨61, "ymm1", 0x80, 0x1, 32⟩, ⟨62, "ymm2", 0x80, 0x2, 32⟩, ⟨63, "ymm3", 0x80, 0x3, 32⟩,
  ⟨64, "ymm4", 0x80, 0x4, 32⟩, ⟨65, "ymm5", 0x80, 0x5, 32⟩, ⟨66, "ymm6", 0x80, 0x6, 32⟩,
  ⟨67, "ymm7", 0x80, 0x7, 32⟩, ⟨68, "zmm0", 0x100, 0x0, 64⟩, ⟨69, "zmm1", 0x100, 0x1, 64⟩,
  ⟨70, "zmm2", 0x100, 0x2, 64⟩, ⟨71, "zmm3", 0x100, 0x3, 64⟩, ⟨72, "zmm4", 0x100, 0x4, 64⟩,
  ⟨73, "zmm5", 0x100, 0x5, 64⟩, ⟨74, "zmm6", 0x100, 0x6, 64⟩, ⟨75, "zmm7", 0x100, 0x7, 64⟩,
  ⟨76, "cr0", 0x1010, 0x0, 0⟩, ⟨77, "cr2", 0x1010, 0x2, 0⟩, ⟨78, "cr3", 0x1000, 0x3, 0⟩,
  ⟨79, "cr4", 0x1000, 0x4, 0⟩, ⟨80, "dr0", 0x1000, 0x10, 0⟩, ⟨81, "dr1", 0x1000, 0x11, 0⟩,
  ⟨82, "dr2", 0x1000, 0x12, 0⟩, ⟨83, "dr3", 0x1000, 0x13, 0⟩, ⟨84, "dr6", 0x1000, 0x16, 0⟩,
  ⟨85, "dr7", 0x1000, 0x17, 0⟩, ⟨86, "tr3", 0x1000, 0x23, 0⟩, ⟨87, "tr4", 0x1000, 0x24, 0⟩,
  ⟨88, "tr5", 0x1000, 0x25, 0⟩, ⟨89, "tr6", 0x1000, 0x26, 0⟩, ⟨90, "tr7", 0x1000, 0x27, 0⟩,
  ⟨91, "spl", 0x1, 0x4, 1⟩, ⟨92, "bpl", 0x1, 0x5, 1⟩, ⟨93, "sil", 0x1, 0x6, 1⟩,
  ⟨94, "dil", 0x1, 0x7, 1⟩, ⟨95, "r8b", 0x1, 0x8, 1⟩, ⟨96, "r9b", 0x1, 0x9, 1⟩,
  ⟨97, "r10b", 0x1, 0xa, 1⟩, ⟨98, "r11b", 0x1, 0xb, 1⟩, ⟨99, "r12b", 0x1, 0xc, 1⟩,
  ⟨100, "r13b", 0x1, 0xd, 1⟩, ⟨101, "r14b", 0x1, 0xe, 1⟩, ⟨102, "r15b", 0x1, 0xf, 1⟩,
  ⟨103, "r8w", 0x2, 0x8, 2⟩, ⟨104, "r9w", 0x2, 0x9, 2⟩, ⟨105, "r10w", 0x2, 0xa, 2⟩,
  ⟨106, "r11w", 0x2, 0xb, 2⟩, ⟨107, "r12w", 0x2, 0xc, 2⟩, ⟨108, "r13w", 0x2, 0xd, 2⟩,
  ⟨109, "r14w", 0x2, 0xe, 2⟩, ⟨110, "r15w", 0x2, 0xf, 2⟩, ⟨111, "r8d", 0x4, 0x8, 4⟩,
  ⟨112, "r9d", 0x4, 0x9, 4⟩, ⟨113, "r10d", 0x4, 0xa, 4⟩, ⟨114, "r11d", 0x4, 0xb, 4⟩,
  ⟨115, "r12d", 0x4, 0xc, 4⟩, ⟨116, "r13d", 0x4, 0xd, 4⟩, ⟨117, "r14d", 0x4, 0xe, 4⟩,
  ⟨118, "r15d", 0x4, 0xf, 4⟩, ⟨119, "rax", 0x208, 0x0, 8⟩, ⟨120, "rcx", 0x8, 0x1, 8⟩,
  ⟨121, "rdx", 0x8, 0x2, 8⟩, ⟨122, "rbx", 0x8, 0x3, 8⟩, ⟨123, "rsp", 0x8, 0x4, 8⟩,
  ⟨124, "rbp", 0x8, 0x5, 8⟩, ⟨125, "rsi", 0x8, 0x6, 8⟩, ⟨126, "rdi", 0x8, 0x7, 8⟩,
  ⟨127, "r8", 0x8, 0x8, 8⟩, ⟨128, "r9", 0x8, 0x9, 8⟩, ⟨129, "r10", 0x8, 0xa, 8⟩,
  ⟨130, "r11", 0x8, 0xb, 8⟩, ⟨131, "r12", 0x8, 0xc, 8⟩, ⟨132, "r13", 0x8, 0xd, 8⟩,
  ⟨133, "r14", 0x8, 0xe, 8⟩, ⟨134, "r15", 0x8, 0xf, 8⟩, ⟨135, "rip", 0x1010, 0x10, 8⟩,
  ⟨136, "xmm8", 0x20, 0x8, 16⟩, ⟨137, "xmm9", 0x20, 0x9, 16⟩, ⟨138, "xmm10", 0x20, 0xa, 16⟩,
  ⟨139, "xmm11", 0x20, 0xb, 16⟩, ⟨140, "xmm12", 0x20, 0xc, 16⟩, ⟨141, "xmm13", 0x20, 0xd, 16⟩,
  ⟨142, "xmm14", 0x20, 0xe, 16⟩, ⟨143, "xmm15", 0x20, 0xf, 16⟩, ⟨144, "xmm16", 0x20, 0x10, 16⟩,
  ⟨145, "xmm17", 0x20, 0x11, 16⟩, ⟨146, "xmm18", 0x20, 0x12, 16⟩, ⟨147, "xmm19", 0x20, 0x13, 16⟩,
  ⟨148, "xmm20", 0x20, 0x14, 16⟩, ⟨149, "xmm21", 0x20, 0x15, 16⟩, ⟨150, "xmm22", 0x20, 0x16, 16⟩,
  ⟨151, "xmm23", 0x20, 0x17, 16⟩, ⟨152, "xmm24", 0x20, 0x18, 16⟩, ⟨153, "xmm25", 0x20, 0x19, 16⟩,
  ⟨154, "xmm26", 0x20, 0x1a, 16⟩, ⟨155, "xmm27", 0x20, 0x1b, 16⟩, ⟨156, "xmm28", 0x20, 0x1c, 16⟩,
  ⟨157, "xmm29", 0x20, 0x1d, 16⟩, ⟨158, "xmm30", 0x20, 0x1e, 16⟩, ⟨159, "xmm31", 0x20, 0x1f, 16⟩,
  ⟨160, "ymm8", 0x80, 0x8, 32⟩, ⟨161, "ymm9", 0x80, 0x9, 32⟩, ⟨162, "ymm10", 0x80, 0xa, 32⟩,
  ⟨163, "ymm11", 0x80, 0xb, 32⟩, ⟨164, "ymm12", 0x80, 0xc, 32⟩, ⟨165, "ymm13", 0x80, 0xd, 32⟩,
  ⟨166, "ymm14", 0x80, 0xe, 32⟩, ⟨167, "ymm15", 0x80, 0xf, 32⟩, ⟨168, "ymm16", 0x80, 0x10, 32⟩,
  ⟨169, "ymm17", 0x80, 0x11, 32⟩, ⟨170, "ymm18", 0x80, 0x12, 32⟩, ⟨171, "ymm19", 0x80, 0x13, 32⟩,
  ⟨172, "ymm20", 0x80, 0x14, 32⟩, ⟨173, "ymm21", 0x80, 0x15, 32⟩, ⟨174, "ymm22", 0x80, 0x16, 32⟩,
  ⟨175, "ymm23", 0x80, 0x17, 32⟩, ⟨176, "ymm24", 0x80, 0x18, 32⟩, ⟨177, "ymm25", 0x80, 0x19, 32⟩,
  ⟨178, "ymm26", 0x80, 0x1a, 32⟩, ⟨179, "ymm27", 0x80, 0x1b, 32⟩, ⟨180, "ymm28", 0x80, 0x1c, 32⟩,
  ⟨181, "ymm29", 0x80, 0x1d, 32⟩, ⟨182, "ymm30", 0x80, 0x1e, 32⟩, ⟨183, "ymm31", 0x80, 0x1f, 32⟩,
  ⟨184, "zmm8", 0x100, 0x8, 64⟩, ⟨185, "zmm9", 0x100, 0x9, 64⟩, ⟨186, "zmm10", 0x100, 0xa, 64⟩,
  ⟨187, "zmm11", 0x100, 0xb, 64⟩, ⟨188, "zmm12", 0x100, 0xc, 64⟩, ⟨189, "zmm13", 0x100, 0xd, 64⟩,
  ⟨190, "zmm14", 0x100, 0xe, 64⟩, ⟨191, "zmm15", 0x100, 0xf, 64⟩, ⟨192, "zmm16", 0x100, 0x10, 64⟩,
  ⟨193, "zmm17", 0x100, 0x11, 64⟩, ⟨194, "zmm18", 0x100, 0x12, 64⟩, ⟨195, "zmm19", 0x100, 0x13, 64⟩,
  ⟨196, "zmm20", 0x100, 0x14, 64⟩, ⟨197, "zmm21", 0x100, 0x15, 64⟩, ⟨198, "zmm22", 0x100, 0x16, 64⟩,
  ⟨199, "zmm23", 0x100, 0x17, 64⟩, ⟨200, "zmm24", 0x100, 0x18, 64⟩, ⟨201, "zmm25", 0x100, 0x19, 64⟩,
  ⟨202, "zmm26", 0x100, 0x1a, 64⟩, ⟨203, "zmm27", 0x100, 0x1b, 64⟩, ⟨204, "zmm28", 0x100, 0x1c, 64⟩,
  ⟨205, "zmm29", 0x100, 0x1d, 64⟩, ⟨206, "zmm30", 0x100, 0x1e, 64⟩, ⟨207, "zmm31", 0x100, 0x1f, 64⟩,
  ⟨208, "cr8", 0x1000, 0x8, 0⟩]

abbrev T_AL : Nat := 1
abbrev T_AH : Nat := 5
abbrev T_BH : Nat := 8
abbrev T_AX : Nat := 9
abbrev T_BX : Nat := 12
abbrev T_BP : Nat := 14
abbrev T_SI : Nat := 15
abbrev T_DI : Nat := 16
abbrev T_DL : Nat := 3
abbrev T_EAX : Nat := 17
abbrev T_EDI : Nat := 24
abbrev T_R8D : Nat := 111
abbrev T_R15D : Nat := 118
abbrev T_R8W : Nat := 103
abbrev T_R15W : Nat := 110
abbrev T_R8B : Nat := 95
abbrev T_R15B : Nat := 102
abbrev T_RAX : Nat := 119
abbrev T_RIP : Nat := 135
abbrev T_MM0 : Nat := 32
abbrev T_MM7 : Nat := 39
abbrev T_XMM0 : Nat := 40
abbrev T_XMM7 : Nat := 47
abbrev T_XMM8 : Nat := 136
abbrev T_XMM15 : Nat := 143
abbrev T_XMM16 : Nat := 144
abbrev T_XMM23 : Nat := 151
abbrev T_XMM24 : Nat := 152
abbrev T_XMM31 : Nat := 159
abbrev T_YMM0 : Nat := 60
abbrev T_YMM7 : Nat := 67
abbrev T_YMM8 : Nat := 160
abbrev T_YMM15 : Nat := 167
abbrev T_YMM16 : Nat := 168
abbrev T_YMM23 : Nat := 175
abbrev T_YMM24 : Nat := 176
abbrev T_YMM31 : Nat := 183
abbrev T_ZMM0 : Nat := 68
abbrev T_ZMM7 : Nat := 75
abbrev T_ZMM8 : Nat := 184
abbrev T_ZMM31 : Nat := 207
abbrev T_K0 : Nat := 48
abbrev T_K7 : Nat := 55
abbrev T_SPL : Nat := 91
abbrev T_BPL : Nat := 92
abbrev T_SIL : Nat := 93
abbrev T_DIL : Nat := 94
abbrev T_CR0 : Nat := 76
abbrev T_CR2 : Nat := 77
abbrev T_CR3 : Nat := 78
abbrev T_CR4 : Nat := 79
abbrev T_CR8 : Nat := 208
abbrev T_DR0 : Nat := 80
abbrev T_DR1 : Nat := 81
abbrev T_DR2 : Nat := 82
abbrev T_DR3 : Nat := 83
abbrev T_DR6 : Nat := 84
abbrev T_DR7 : Nat := 85
abbrev T_CS : Nat := 26
abbrev T_DS : Nat := 28
abbrev T_ES : Nat := 25
abbrev T_FS : Nat := 29
abbrev T_GS : Nat := 30
abbrev T_SS : Nat := 27
abbrev T_ST : Nat := 31
abbrev T_R8 : Nat := 127
abbrev T_R15 : Nat := 134
abbrev T_SP : Nat := 13
abbrev T_CX : Nat := 10
abbrev T_DX : Nat := 11
abbrev T_CL : Nat := 2

end Verif.Cgv2
