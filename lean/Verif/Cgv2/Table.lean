import Verif.Cgv2.Types

/-!
# H/InstrTableV2.h: the instruction table

Generated from H/InstrTableV2.h, row by row and in the order of the header (367 rows).
The flag words are written with the symbolic names of H/codegenv2.h.
-/

namespace Verif.Cgv2

/-- `InstrTableV2[0..]`: H/InstrTableV2.h. -/
def instrRows0 : List Instr := [
  ⟨['c', 'l', 'c'], [.OP_N, .OP_N, .OP_N, .OP_N, .OP_N], GP1, NO_FLAGSF, NO_FLAGSF, NO_FLAGSF,
    1, 1, [0xf8, 0x00, 0x00, 0x00], 1, 0, 0x00, false, X16 ||| X32 ||| X64, NO_DST, NO_PREFIXF, 4, 5⟩,
  ⟨['c', 'l', 'd'], [.OP_N, .OP_N, .OP_N, .OP_N, .OP_N], GP1, NO_FLAGSF, NO_FLAGSF, NO_FLAGSF,
    1, 1, [0xfc, 0x00, 0x00, 0x00], 1, 0, 0x00, false, X16 ||| X32 ||| X64, NO_DST, NO_PREFIXF, 4, 5⟩,
  ⟨['c', 'l', 'i'], [.OP_N, .OP_N, .OP_N, .OP_N, .OP_N], GP1, NO_FLAGSF, NO_FLAGSF, NO_FLAGSF,
    1, 1, [0xfa, 0x00, 0x00, 0x00], 1, 0, 0x00, false, X16 ||| X32 ||| X64, NO_DST, NO_PREFIXF, 4, 5⟩,
  ⟨['c', 'l', 't', 's'], [.OP_N, .OP_N, .OP_N, .OP_N, .OP_N], GP1, NO_FLAGSF, NO_FLAGSF, NO_FLAGSF,
    1, 2, [0x0f, 0x06, 0x00, 0x00], 1, 0, 0x00, false, X16 ||| X32 ||| X64, NO_DST, NO_PREFIXF, 4, 5⟩,
  ⟨['c', 'm', 'c'], [.OP_N, .OP_N, .OP_N, .OP_N, .OP_N], GP1, NO_FLAGSF, NO_FLAGSF, NO_FLAGSF,
    1, 1, [0xf5, 0x00, 0x00, 0x00], 1, 0, 0x00, false, X16 ||| X32 ||| X64, NO_DST, NO_PREFIXF, 4, 5⟩,
  ⟨['c', 'p', 'u', 'i', 'd'], [.OP_N, .OP_N, .OP_N, .OP_N, .OP_N], GP1, NO_FLAGSF, NO_FLAGSF, NO_FLAGSF,
    1, 2, [0x0f, 0xa2, 0x00, 0x00], 1, 0, 0x00, false, X16 ||| X32 ||| X64, NO_DST, NO_PREFIXF, 4, 5⟩,
  ⟨['d', 'a', 'a'], [.OP_N, .OP_N, .OP_N, .OP_N, .OP_N], GP1, NO_FLAGSF, NO_FLAGSF, NO_FLAGSF,
    1, 1, [0x27, 0x00, 0x00, 0x00], 1, 0, 0x00, false, X16 ||| X32, NO_DST, NO_PREFIXF, 4, 5⟩,
  ⟨['d', 'a', 's'], [.OP_N, .OP_N, .OP_N, .OP_N, .OP_N], GP1, NO_FLAGSF, NO_FLAGSF, NO_FLAGSF,
    1, 1, [0x2f, 0x00, 0x00, 0x00], 1, 0, 0x00, false, X16 ||| X32, NO_DST, NO_PREFIXF, 4, 5⟩,
  ⟨['h', 'l', 't'], [.OP_N, .OP_N, .OP_N, .OP_N, .OP_N], GP1, NO_FLAGSF, NO_FLAGSF, NO_FLAGSF,
    1, 1, [0xf4, 0x00, 0x00, 0x00], 1, 0, 0x00, false, X16 ||| X32 ||| X64, NO_DST, NO_PREFIXF, 4, 5⟩,
  ⟨['i', 'n', 'v', 'd'], [.OP_N, .OP_N, .OP_N, .OP_N, .OP_N], GP1, NO_FLAGSF, NO_FLAGSF, NO_FLAGSF,
    1, 2, [0x0f, 0x08, 0x00, 0x00], 1, 0, 0x00, false, X16 ||| X32 ||| X64, NO_DST, NO_PREFIXF, 4, 5⟩,
  ⟨['l', 'a', 'h', 'f'], [.OP_N, .OP_N, .OP_N, .OP_N, .OP_N], GP1, NO_FLAGSF, NO_FLAGSF, NO_FLAGSF,
    1, 1, [0x9f, 0x00, 0x00, 0x00], 1, 0, 0x00, false, X16 ||| X32, NO_DST, NO_PREFIXF, 4, 5⟩,
  ⟨['l', 'e', 'a', 'v', 'e'], [.OP_N, .OP_N, .OP_N, .OP_N, .OP_N], GP1, NO_FLAGSF, NO_FLAGSF, NO_FLAGSF,
    1, 1, [0xc9, 0x00, 0x00, 0x00], 1, 0, 0x00, false, X16 ||| X32 ||| X64, NO_DST, NO_PREFIXF, 4, 5⟩,
  ⟨['s', 't', 'c'], [.OP_N, .OP_N, .OP_N, .OP_N, .OP_N], GP1, NO_FLAGSF, NO_FLAGSF, NO_FLAGSF,
    1, 1, [0xf9, 0x00, 0x00, 0x00], 1, 0, 0x00, false, X16 ||| X32 ||| X64, NO_DST, NO_PREFIXF, 4, 5⟩,
  ⟨['s', 't', 'd'], [.OP_N, .OP_N, .OP_N, .OP_N, .OP_N], GP1, NO_FLAGSF, NO_FLAGSF, NO_FLAGSF,
    1, 1, [0xfd, 0x00, 0x00, 0x00], 1, 0, 0x00, false, X16 ||| X32 ||| X64, NO_DST, NO_PREFIXF, 4, 5⟩,
  ⟨['s', 't', 'i'], [.OP_N, .OP_N, .OP_N, .OP_N, .OP_N], GP1, NO_FLAGSF, NO_FLAGSF, NO_FLAGSF,
    1, 1, [0xfb, 0x00, 0x00, 0x00], 1, 0, 0x00, false, X16 ||| X32 ||| X64, NO_DST, NO_PREFIXF, 4, 5⟩,
  ⟨['f', '2', 'x', 'm', '1'], [.OP_N, .OP_N, .OP_N, .OP_N, .OP_N], FP0, NO_FLAGSF, NO_FLAGSF, NO_FLAGSF,
    1, 2, [0xd9, 0xf0, 0x00, 0x00], 1, 0, 0x00, false, X16 ||| X32 ||| X64, NO_DST, NO_PREFIXF, 4, 5⟩,
  ⟨['f', 'a', 'b', 's'], [.OP_N, .OP_N, .OP_N, .OP_N, .OP_N], FP0, NO_FLAGSF, NO_FLAGSF, NO_FLAGSF,
    1, 2, [0xd9, 0xe1, 0x00, 0x00], 1, 0, 0x00, false, X16 ||| X32 ||| X64, NO_DST, NO_PREFIXF, 4, 5⟩,
  ⟨['f', 'c', 'h', 's'], [.OP_N, .OP_N, .OP_N, .OP_N, .OP_N], FP0, NO_FLAGSF, NO_FLAGSF, NO_FLAGSF,
    1, 2, [0xd9, 0xe0, 0x00, 0x00], 1, 0, 0x00, false, X16 ||| X32 ||| X64, NO_DST, NO_PREFIXF, 4, 5⟩,
  ⟨['f', 'c', 'l', 'e', 'x'], [.OP_N, .OP_N, .OP_N, .OP_N, .OP_N], FP0, NO_FLAGSF, NO_FLAGSF, NO_FLAGSF,
    1, 3, [0x9b, 0xdb, 0xe2, 0x00], 1, 0, 0x00, false, X16 ||| X32 ||| X64, NO_DST, NO_PREFIXF, 4, 5⟩,
  ⟨['f', 'n', 'c', 'l', 'e', 'x'], [.OP_N, .OP_N, .OP_N, .OP_N, .OP_N], FP0, NO_FLAGSF, NO_FLAGSF, NO_FLAGSF,
    1, 2, [0xdb, 0xe2, 0x00, 0x00], 1, 0, 0x00, false, X16 ||| X32 ||| X64, NO_DST, NO_PREFIXF, 4, 5⟩,
  ⟨['f', 'c', 'o', 's'], [.OP_N, .OP_N, .OP_N, .OP_N, .OP_N], FP0, NO_FLAGSF, NO_FLAGSF, NO_FLAGSF,
    1, 2, [0xd9, 0xff, 0x00, 0x00], 1, 0, 0x00, false, X16 ||| X32 ||| X64, NO_DST, NO_PREFIXF, 4, 5⟩,
  ⟨['f', 'd', 'e', 'c', 's', 't', 'p'], [.OP_N, .OP_N, .OP_N, .OP_N, .OP_N], FP0, NO_FLAGSF, NO_FLAGSF, NO_FLAGSF,
    1, 2, [0xd9, 0xf6, 0x00, 0x00], 1, 0, 0x00, false, X16 ||| X32 ||| X64, NO_DST, NO_PREFIXF, 4, 5⟩,
  ⟨['f', 'i', 'n', 'c', 's', 't', 'p'], [.OP_N, .OP_N, .OP_N, .OP_N, .OP_N], FP0, NO_FLAGSF, NO_FLAGSF, NO_FLAGSF,
    1, 2, [0xd9, 0xf7, 0x00, 0x00], 1, 0, 0x00, false, X16 ||| X32 ||| X64, NO_DST, NO_PREFIXF, 4, 5⟩,
  ⟨['f', 'i', 'n', 'i', 't'], [.OP_N, .OP_N, .OP_N, .OP_N, .OP_N], FP0, NO_FLAGSF, NO_FLAGSF, NO_FLAGSF,
    1, 3, [0x9b, 0xdb, 0xe3, 0x00], 1, 0, 0x00, false, X16 ||| X32 ||| X64, NO_DST, NO_PREFIXF, 4, 5⟩,
  ⟨['f', 'n', 'i', 'n', 'i', 't'], [.OP_N, .OP_N, .OP_N, .OP_N, .OP_N], FP0, NO_FLAGSF, NO_FLAGSF, NO_FLAGSF,
    1, 2, [0xdb, 0xe3, 0x00, 0x00], 1, 0, 0x00, false, X16 ||| X32 ||| X64, NO_DST, NO_PREFIXF, 4, 5⟩,
  ⟨['f', 'l', 'd', '1'], [.OP_N, .OP_N, .OP_N, .OP_N, .OP_N], FP0, NO_FLAGSF, NO_FLAGSF, NO_FLAGSF,
    1, 2, [0xd9, 0xe8, 0x00, 0x00], 1, 0, 0x00, false, X16 ||| X32 ||| X64, NO_DST, NO_PREFIXF, 4, 5⟩,
  ⟨['f', 'l', 'd', 'l', '2', 't'], [.OP_N, .OP_N, .OP_N, .OP_N, .OP_N], FP0, NO_FLAGSF, NO_FLAGSF, NO_FLAGSF,
    1, 2, [0xd9, 0xe9, 0x00, 0x00], 1, 0, 0x00, false, X16 ||| X32 ||| X64, NO_DST, NO_PREFIXF, 4, 5⟩,
  ⟨['f', 'l', 'd', 'l', '2', 'e'], [.OP_N, .OP_N, .OP_N, .OP_N, .OP_N], FP0, NO_FLAGSF, NO_FLAGSF, NO_FLAGSF,
    1, 2, [0xd9, 0xea, 0x00, 0x00], 1, 0, 0x00, false, X16 ||| X32 ||| X64, NO_DST, NO_PREFIXF, 4, 5⟩,
  ⟨['f', 'l', 'd', 'p', 'i'], [.OP_N, .OP_N, .OP_N, .OP_N, .OP_N], FP0, NO_FLAGSF, NO_FLAGSF, NO_FLAGSF,
    1, 2, [0xd9, 0xeb, 0x00, 0x00], 1, 0, 0x00, false, X16 ||| X32 ||| X64, NO_DST, NO_PREFIXF, 4, 5⟩,
  ⟨['f', 'l', 'd', 'l', 'g', '2'], [.OP_N, .OP_N, .OP_N, .OP_N, .OP_N], FP0, NO_FLAGSF, NO_FLAGSF, NO_FLAGSF,
    1, 2, [0xd9, 0xec, 0x00, 0x00], 1, 0, 0x00, false, X16 ||| X32 ||| X64, NO_DST, NO_PREFIXF, 4, 5⟩,
  ⟨['f', 'l', 'd', 'l', 'n', '2'], [.OP_N, .OP_N, .OP_N, .OP_N, .OP_N], FP0, NO_FLAGSF, NO_FLAGSF, NO_FLAGSF,
    1, 2, [0xd9, 0xed, 0x00, 0x00], 1, 0, 0x00, false, X16 ||| X32 ||| X64, NO_DST, NO_PREFIXF, 4, 5⟩,
  ⟨['f', 'l', 'd', 'z'], [.OP_N, .OP_N, .OP_N, .OP_N, .OP_N], FP0, NO_FLAGSF, NO_FLAGSF, NO_FLAGSF,
    1, 2, [0xd9, 0xee, 0x00, 0x00], 1, 0, 0x00, false, X16 ||| X32 ||| X64, NO_DST, NO_PREFIXF, 4, 5⟩,
  ⟨['f', 'n', 'o', 'p'], [.OP_N, .OP_N, .OP_N, .OP_N, .OP_N], FP0, NO_FLAGSF, NO_FLAGSF, NO_FLAGSF,
    1, 2, [0xd9, 0xd0, 0x00, 0x00], 1, 0, 0x00, false, X16 ||| X32 ||| X64, NO_DST, NO_PREFIXF, 4, 5⟩,
  ⟨['f', 'p', 'a', 't', 'a', 'n'], [.OP_N, .OP_N, .OP_N, .OP_N, .OP_N], FP0, NO_FLAGSF, NO_FLAGSF, NO_FLAGSF,
    1, 2, [0xd9, 0xf3, 0x00, 0x00], 1, 0, 0x00, false, X16 ||| X32 ||| X64, NO_DST, NO_PREFIXF, 4, 5⟩,
  ⟨['f', 'p', 'r', 'e', 'm'], [.OP_N, .OP_N, .OP_N, .OP_N, .OP_N], FP0, NO_FLAGSF, NO_FLAGSF, NO_FLAGSF,
    1, 2, [0xd9, 0xf8, 0x00, 0x00], 1, 0, 0x00, false, X16 ||| X32 ||| X64, NO_DST, NO_PREFIXF, 4, 5⟩,
  ⟨['f', 'p', 'r', 'e', 'm', '1'], [.OP_N, .OP_N, .OP_N, .OP_N, .OP_N], FP0, NO_FLAGSF, NO_FLAGSF, NO_FLAGSF,
    1, 2, [0xd9, 0xf5, 0x00, 0x00], 1, 0, 0x00, false, X16 ||| X32 ||| X64, NO_DST, NO_PREFIXF, 4, 5⟩,
  ⟨['f', 'p', 't', 'a', 'n'], [.OP_N, .OP_N, .OP_N, .OP_N, .OP_N], FP0, NO_FLAGSF, NO_FLAGSF, NO_FLAGSF,
    1, 2, [0xd9, 0xf2, 0x00, 0x00], 1, 0, 0x00, false, X16 ||| X32 ||| X64, NO_DST, NO_PREFIXF, 4, 5⟩,
  ⟨['f', 'r', 'n', 'd', 'i', 'n', 't'], [.OP_N, .OP_N, .OP_N, .OP_N, .OP_N], FP0, NO_FLAGSF, NO_FLAGSF, NO_FLAGSF,
    1, 2, [0xd9, 0xfc, 0x00, 0x00], 1, 0, 0x00, false, X16 ||| X32 ||| X64, NO_DST, NO_PREFIXF, 4, 5⟩,
  ⟨['f', 's', 'c', 'a', 'l', 'e'], [.OP_N, .OP_N, .OP_N, .OP_N, .OP_N], FP0, NO_FLAGSF, NO_FLAGSF, NO_FLAGSF,
    1, 2, [0xd9, 0xfd, 0x00, 0x00], 1, 0, 0x00, false, X16 ||| X32 ||| X64, NO_DST, NO_PREFIXF, 4, 5⟩,
  ⟨['f', 's', 'i', 'n'], [.OP_N, .OP_N, .OP_N, .OP_N, .OP_N], FP0, NO_FLAGSF, NO_FLAGSF, NO_FLAGSF,
    1, 2, [0xd9, 0xfe, 0x00, 0x00], 1, 0, 0x00, false, X16 ||| X32 ||| X64, NO_DST, NO_PREFIXF, 4, 5⟩]

/-- `InstrTableV2[40..]`: H/InstrTableV2.h. -/
def instrRows1 : List Instr := [
  ⟨['f', 's', 'i', 'n', 'c', 'o', 's'], [.OP_N, .OP_N, .OP_N, .OP_N, .OP_N], FP0, NO_FLAGSF, NO_FLAGSF, NO_FLAGSF,
    1, 2, [0xd9, 0xfb, 0x00, 0x00], 1, 0, 0x00, false, X16 ||| X32 ||| X64, NO_DST, NO_PREFIXF, 4, 5⟩,
  ⟨['f', 's', 'q', 'r', 't'], [.OP_N, .OP_N, .OP_N, .OP_N, .OP_N], FP0, NO_FLAGSF, NO_FLAGSF, NO_FLAGSF,
    1, 2, [0xd9, 0xfa, 0x00, 0x00], 1, 0, 0x00, false, X16 ||| X32 ||| X64, NO_DST, NO_PREFIXF, 4, 5⟩,
  ⟨['f', 't', 's', 't'], [.OP_N, .OP_N, .OP_N, .OP_N, .OP_N], FP0, NO_FLAGSF, NO_FLAGSF, NO_FLAGSF,
    1, 2, [0xd9, 0xe4, 0x00, 0x00], 1, 0, 0x00, false, X16 ||| X32 ||| X64, NO_DST, NO_PREFIXF, 4, 5⟩,
  ⟨['f', 'x', 'a', 'm'], [.OP_N, .OP_N, .OP_N, .OP_N, .OP_N], FP0, NO_FLAGSF, NO_FLAGSF, NO_FLAGSF,
    1, 2, [0xd9, 0xe5, 0x00, 0x00], 1, 0, 0x00, false, X16 ||| X32 ||| X64, NO_DST, NO_PREFIXF, 4, 5⟩,
  ⟨['f', 'x', 'c', 'h'], [.OP_N, .OP_N, .OP_N, .OP_N, .OP_N], FP0, NO_FLAGSF, NO_FLAGSF, NO_FLAGSF,
    1, 2, [0xd9, 0xc9, 0x00, 0x00], 1, 0, 0x00, false, X16 ||| X32 ||| X64, NO_DST, NO_PREFIXF, 4, 5⟩,
  ⟨['f', 'x', 't', 'r', 'a', 'c', 't'], [.OP_N, .OP_N, .OP_N, .OP_N, .OP_N], FP0, NO_FLAGSF, NO_FLAGSF, NO_FLAGSF,
    1, 2, [0xd9, 0xf4, 0x00, 0x00], 1, 0, 0x00, false, X16 ||| X32 ||| X64, NO_DST, NO_PREFIXF, 4, 5⟩,
  ⟨['f', 'y', 'l', '2', 'x'], [.OP_N, .OP_N, .OP_N, .OP_N, .OP_N], FP0, NO_FLAGSF, NO_FLAGSF, NO_FLAGSF,
    1, 2, [0xd9, 0xf1, 0x00, 0x00], 1, 0, 0x00, false, X16 ||| X32 ||| X64, NO_DST, NO_PREFIXF, 4, 5⟩,
  ⟨['f', 'y', 'l', '2', 'x', 'p', '1'], [.OP_N, .OP_N, .OP_N, .OP_N, .OP_N], FP0, NO_FLAGSF, NO_FLAGSF, NO_FLAGSF,
    1, 2, [0xd9, 0xf9, 0x00, 0x00], 1, 0, 0x00, false, X16 ||| X32 ||| X64, NO_DST, NO_PREFIXF, 4, 5⟩,
  ⟨['m', 'o', 'v'], [.R8, .R8, .OP_N, .OP_N, .OP_N], GP0, F_MODRMF ||| F_MODRM_REGF ||| F_MODRM_RMF, NO_FLAGSF, NO_FLAGSF,
    1, 1, [0x8a, 0x00, 0x00, 0x00], 1, 0, 0xc0, false, X16 ||| X32 ||| X64, REG_DST, NO_PREFIXF, 4, 5⟩,
  ⟨['m', 'o', 'v'], [.R8, .R8H, .OP_N, .OP_N, .OP_N], GP0, F_MODRMF ||| F_MODRM_REGF ||| F_MODRM_RMF, NO_FLAGSF, NO_FLAGSF,
    1, 1, [0x8a, 0x00, 0x00, 0x00], 1, 0, 0xc0, false, X16 ||| X32 ||| X64, REG_DST, NO_PREFIXF, 4, 5⟩,
  ⟨['m', 'o', 'v'], [.R8H, .R8, .OP_N, .OP_N, .OP_N], GP0, F_MODRMF ||| F_MODRM_REGF ||| F_MODRM_RMF, NO_FLAGSF, NO_FLAGSF,
    1, 1, [0x8a, 0x00, 0x00, 0x00], 1, 0, 0xc0, false, X16 ||| X32 ||| X64, REG_DST, NO_PREFIXF, 4, 5⟩,
  ⟨['m', 'o', 'v'], [.R8H, .R8H, .OP_N, .OP_N, .OP_N], GP0, F_MODRMF ||| F_MODRM_REGF ||| F_MODRM_RMF, NO_FLAGSF, NO_FLAGSF,
    1, 1, [0x8a, 0x00, 0x00, 0x00], 1, 0, 0xc0, false, X16 ||| X32 ||| X64, REG_DST, NO_PREFIXF, 4, 5⟩,
  ⟨['m', 'o', 'v'], [.R8E, .R8E, .OP_N, .OP_N, .OP_N], GP3, REXF ||| REXRF ||| REXBF ||| F_MODRMF ||| F_MODRM_REGF ||| F_MODRM_RMF, NO_FLAGSF, NO_FLAGSF,
    1, 1, [0x8a, 0x00, 0x00, 0x00], 1, 0, 0xc0, false, X64, REG_DST, NO_PREFIXF, 4, 5⟩,
  ⟨['m', 'o', 'v'], [.R8, .R8E, .OP_N, .OP_N, .OP_N], GP3, REXF ||| REXBF ||| F_MODRMF ||| F_MODRM_REGF ||| F_MODRM_RMF, NO_FLAGSF, NO_FLAGSF,
    1, 1, [0x8a, 0x00, 0x00, 0x00], 1, 0, 0xc0, false, X64, REG_DST, NO_PREFIXF, 4, 5⟩,
  ⟨['m', 'o', 'v'], [.R8E, .R8, .OP_N, .OP_N, .OP_N], GP3, REXF ||| REXRF ||| F_MODRMF ||| F_MODRM_REGF ||| F_MODRM_RMF, NO_FLAGSF, NO_FLAGSF,
    1, 1, [0x8a, 0x00, 0x00, 0x00], 1, 0, 0xc0, false, X64, REG_DST, NO_PREFIXF, 4, 5⟩,
  ⟨['m', 'o', 'v'], [.R8U, .R8, .OP_N, .OP_N, .OP_N], GP3, REXF ||| F_MODRMF ||| F_MODRM_REGF ||| F_MODRM_RMF, NO_FLAGSF, NO_FLAGSF,
    1, 1, [0x8a, 0x00, 0x00, 0x00], 1, 0, 0xc0, false, X64, REG_DST, NO_PREFIXF, 4, 5⟩,
  ⟨['m', 'o', 'v'], [.R16, .R16, .OP_N, .OP_N, .OP_N], GP0, F_MODRMF ||| F_MODRM_REGF ||| F_MODRM_RMF, NO_FLAGSF, NO_FLAGSF,
    1, 1, [0x8b, 0x00, 0x00, 0x00], 2, 0, 0xc0, true, X16 ||| X32 ||| X64, REG_DST, NO_PREFIXF, 4, 5⟩,
  ⟨['m', 'o', 'v'], [.R16E, .R16E, .OP_N, .OP_N, .OP_N], GP3, REXF ||| REXRF ||| REXBF ||| F_MODRMF ||| F_MODRM_REGF ||| F_MODRM_RMF, NO_FLAGSF, NO_FLAGSF,
    1, 1, [0x8b, 0x00, 0x00, 0x00], 2, 0, 0xc0, true, X64, REG_DST, NO_PREFIXF, 4, 5⟩,
  ⟨['m', 'o', 'v'], [.R16E, .R16, .OP_N, .OP_N, .OP_N], GP3, REXF ||| REXRF ||| F_MODRMF ||| F_MODRM_REGF ||| F_MODRM_RMF, NO_FLAGSF, NO_FLAGSF,
    1, 1, [0x8b, 0x00, 0x00, 0x00], 2, 0, 0xc0, true, X64, REG_DST, NO_PREFIXF, 4, 5⟩,
  ⟨['m', 'o', 'v'], [.R16, .R16E, .OP_N, .OP_N, .OP_N], GP3, REXF ||| REXBF ||| F_MODRMF ||| F_MODRM_REGF ||| F_MODRM_RMF, NO_FLAGSF, NO_FLAGSF,
    1, 1, [0x8b, 0x00, 0x00, 0x00], 2, 0, 0xc0, true, X64, REG_DST, NO_PREFIXF, 4, 5⟩,
  ⟨['m', 'o', 'v'], [.R32, .R32, .OP_N, .OP_N, .OP_N], GP0, F_MODRMF ||| F_MODRM_REGF ||| F_MODRM_RMF, NO_FLAGSF, NO_FLAGSF,
    1, 1, [0x8b, 0x00, 0x00, 0x00], 4, 0, 0xc0, true, X16 ||| X32 ||| X64, REG_DST, NO_PREFIXF, 4, 5⟩,
  ⟨['m', 'o', 'v'], [.R32E, .R32E, .OP_N, .OP_N, .OP_N], GP3, REXF ||| REXRF ||| REXBF ||| F_MODRMF ||| F_MODRM_REGF ||| F_MODRM_RMF, NO_FLAGSF, NO_FLAGSF,
    1, 1, [0x8b, 0x00, 0x00, 0x00], 4, 0, 0xc0, true, X64, REG_DST, NO_PREFIXF, 4, 5⟩,
  ⟨['m', 'o', 'v'], [.R32E, .R32, .OP_N, .OP_N, .OP_N], GP3, REXF ||| REXRF ||| F_MODRMF ||| F_MODRM_REGF ||| F_MODRM_RMF, NO_FLAGSF, NO_FLAGSF,
    1, 1, [0x8b, 0x00, 0x00, 0x00], 4, 0, 0xc0, true, X64, REG_DST, NO_PREFIXF, 4, 5⟩,
  ⟨['m', 'o', 'v'], [.R32, .R32E, .OP_N, .OP_N, .OP_N], GP3, REXF ||| REXBF ||| F_MODRMF ||| F_MODRM_REGF ||| F_MODRM_RMF, NO_FLAGSF, NO_FLAGSF,
    1, 1, [0x8b, 0x00, 0x00, 0x00], 4, 0, 0xc0, true, X64, REG_DST, NO_PREFIXF, 4, 5⟩,
  ⟨['m', 'o', 'v'], [.R64, .R64, .OP_N, .OP_N, .OP_N], GP3, REXF ||| REXWF ||| F_MODRMF ||| F_MODRM_REGF ||| F_MODRM_RMF, NO_FLAGSF, NO_FLAGSF,
    1, 1, [0x8b, 0x00, 0x00, 0x00], 8, 0, 0xc0, false, X64, REG_DST, NO_PREFIXF, 4, 5⟩,
  ⟨['m', 'o', 'v'], [.R64E, .R64E, .OP_N, .OP_N, .OP_N], GP3, REXF ||| REXWF ||| REXRF ||| REXBF ||| F_MODRMF ||| F_MODRM_REGF ||| F_MODRM_RMF, NO_FLAGSF, NO_FLAGSF,
    1, 1, [0x8b, 0x00, 0x00, 0x00], 8, 0, 0xc0, false, X64, REG_DST, NO_PREFIXF, 4, 5⟩,
  ⟨['m', 'o', 'v'], [.R64, .R64E, .OP_N, .OP_N, .OP_N], GP3, REXF ||| REXWF ||| REXBF ||| F_MODRMF ||| F_MODRM_REGF ||| F_MODRM_RMF, NO_FLAGSF, NO_FLAGSF,
    1, 1, [0x8b, 0x00, 0x00, 0x00], 8, 0, 0xc0, false, X64, REG_DST, NO_PREFIXF, 4, 5⟩,
  ⟨['m', 'o', 'v'], [.R64E, .R64, .OP_N, .OP_N, .OP_N], GP3, REXF ||| REXWF ||| REXRF ||| F_MODRMF ||| F_MODRM_REGF ||| F_MODRM_RMF, NO_FLAGSF, NO_FLAGSF,
    1, 1, [0x8b, 0x00, 0x00, 0x00], 8, 0, 0xc0, false, X64, REG_DST, NO_PREFIXF, 4, 5⟩,
  ⟨['m', 'o', 'v'], [.R32, .R_CR, .OP_N, .OP_N, .OP_N], GP0, F_MODRMF ||| F_MODRM_REGF ||| F_MODRM_RMF, NO_FLAGSF, NO_FLAGSF,
    1, 2, [0x0f, 0x20, 0x00, 0x00], 4, 0, 0xc0, false, X16 ||| X32, RM_DST, NO_PREFIXF, 4, 5⟩,
  ⟨['m', 'o', 'v'], [.R64, .R_CR, .OP_N, .OP_N, .OP_N], GP0, F_MODRMF ||| F_MODRM_REGF ||| F_MODRM_RMF, NO_FLAGSF, NO_FLAGSF,
    1, 2, [0x0f, 0x20, 0x00, 0x00], 8, 0, 0xc0, false, X64, RM_DST, NO_PREFIXF, 4, 5⟩,
  ⟨['m', 'o', 'v'], [.R64E, .R_CR, .OP_N, .OP_N, .OP_N], GP3, REXF ||| REXBF ||| F_MODRMF ||| F_MODRM_REGF ||| F_MODRM_RMF, NO_FLAGSF, NO_FLAGSF,
    1, 2, [0x0f, 0x20, 0x00, 0x00], 8, 0, 0xc0, false, X64, RM_DST, NO_PREFIXF, 4, 5⟩,
  ⟨['m', 'o', 'v'], [.R64, .R_CR8, .OP_N, .OP_N, .OP_N], GP3, REXF ||| REXRF ||| F_MODRMF ||| F_MODRM_REGF ||| F_MODRM_RMF, NO_FLAGSF, NO_FLAGSF,
    1, 2, [0x0f, 0x20, 0x00, 0x00], 8, 0, 0xc0, false, X64, RM_DST, NO_PREFIXF, 4, 5⟩,
  ⟨['m', 'o', 'v'], [.R64E, .R_CR8, .OP_N, .OP_N, .OP_N], GP3, REXF ||| REXRF ||| REXBF ||| F_MODRMF ||| F_MODRM_REGF ||| F_MODRM_RMF, NO_FLAGSF, NO_FLAGSF,
    1, 2, [0x0f, 0x20, 0x00, 0x00], 8, 0, 0xc0, false, X64, RM_DST, NO_PREFIXF, 4, 5⟩,
  ⟨['m', 'o', 'v'], [.R_CR, .R32, .OP_N, .OP_N, .OP_N], GP0, F_MODRMF ||| F_MODRM_REGF ||| F_MODRM_RMF, NO_FLAGSF, NO_FLAGSF,
    1, 2, [0x0f, 0x22, 0x00, 0x00], 4, 0, 0xc0, false, X16 ||| X32, REG_DST, NO_PREFIXF, 4, 5⟩,
  ⟨['m', 'o', 'v'], [.R_CR, .R64, .OP_N, .OP_N, .OP_N], GP0, F_MODRMF ||| F_MODRM_REGF ||| F_MODRM_RMF, NO_FLAGSF, NO_FLAGSF,
    1, 2, [0x0f, 0x22, 0x00, 0x00], 8, 0, 0xc0, false, X64, REG_DST, NO_PREFIXF, 4, 5⟩,
  ⟨['m', 'o', 'v'], [.R_CR, .R64E, .OP_N, .OP_N, .OP_N], GP3, REXF ||| REXBF ||| F_MODRMF ||| F_MODRM_REGF ||| F_MODRM_RMF, NO_FLAGSF, NO_FLAGSF,
    1, 2, [0x0f, 0x22, 0x00, 0x00], 8, 0, 0xc0, false, X64, REG_DST, NO_PREFIXF, 4, 5⟩,
  ⟨['m', 'o', 'v'], [.R_CR8, .R64, .OP_N, .OP_N, .OP_N], GP3, REXF ||| REXRF ||| F_MODRMF ||| F_MODRM_REGF ||| F_MODRM_RMF, NO_FLAGSF, NO_FLAGSF,
    1, 2, [0x0f, 0x22, 0x00, 0x00], 8, 0, 0xc0, false, X64, REG_DST, NO_PREFIXF, 4, 5⟩,
  ⟨['m', 'o', 'v'], [.R_CR8, .R64E, .OP_N, .OP_N, .OP_N], GP3, REXF ||| REXRF ||| REXBF ||| F_MODRMF ||| F_MODRM_REGF ||| F_MODRM_RMF, NO_FLAGSF, NO_FLAGSF,
    1, 2, [0x0f, 0x22, 0x00, 0x00], 8, 0, 0xc0, false, X64, REG_DST, NO_PREFIXF, 4, 5⟩,
  ⟨['m', 'o', 'v'], [.R32, .R_DR, .OP_N, .OP_N, .OP_N], GP0, F_MODRMF ||| F_MODRM_REGF ||| F_MODRM_RMF, NO_FLAGSF, NO_FLAGSF,
    1, 2, [0x0f, 0x21, 0x00, 0x00], 4, 0, 0xc0, false, X16 ||| X32, RM_DST, NO_PREFIXF, 4, 5⟩,
  ⟨['m', 'o', 'v'], [.R64, .R_DR, .OP_N, .OP_N, .OP_N], GP0, F_MODRMF ||| F_MODRM_REGF ||| F_MODRM_RMF, NO_FLAGSF, NO_FLAGSF,
    1, 2, [0x0f, 0x21, 0x00, 0x00], 8, 0, 0xc0, false, X64, RM_DST, NO_PREFIXF, 4, 5⟩]

/-- `InstrTableV2[80..]`: H/InstrTableV2.h. -/
def instrRows2 : List Instr := [
  ⟨['m', 'o', 'v'], [.R64E, .R_DR, .OP_N, .OP_N, .OP_N], GP3, REXF ||| REXBF ||| F_MODRMF ||| F_MODRM_REGF ||| F_MODRM_RMF, NO_FLAGSF, NO_FLAGSF,
    1, 2, [0x0f, 0x21, 0x00, 0x00], 8, 0, 0xc0, false, X64, RM_DST, NO_PREFIXF, 4, 5⟩,
  ⟨['m', 'o', 'v'], [.R_DR, .R32, .OP_N, .OP_N, .OP_N], GP0, F_MODRMF ||| F_MODRM_REGF ||| F_MODRM_RMF, NO_FLAGSF, NO_FLAGSF,
    1, 2, [0x0f, 0x23, 0x00, 0x00], 4, 0, 0xc0, false, X16 ||| X32, REG_DST, NO_PREFIXF, 4, 5⟩,
  ⟨['m', 'o', 'v'], [.R_DR, .R64, .OP_N, .OP_N, .OP_N], GP0, F_MODRMF ||| F_MODRM_REGF ||| F_MODRM_RMF, NO_FLAGSF, NO_FLAGSF,
    1, 2, [0x0f, 0x23, 0x00, 0x00], 8, 0, 0xc0, false, X64, REG_DST, NO_PREFIXF, 4, 5⟩,
  ⟨['m', 'o', 'v'], [.R_DR, .R64E, .OP_N, .OP_N, .OP_N], GP3, REXF ||| REXBF ||| F_MODRMF ||| F_MODRM_REGF ||| F_MODRM_RMF, NO_FLAGSF, NO_FLAGSF,
    1, 2, [0x0f, 0x23, 0x00, 0x00], 8, 0, 0xc0, false, X64, REG_DST, NO_PREFIXF, 4, 5⟩,
  ⟨['m', 'o', 'v'], [.R16, .R_SEG, .OP_N, .OP_N, .OP_N], GP0, F_MODRMF ||| F_MODRM_REGF ||| F_MODRM_RMF, NO_FLAGSF, NO_FLAGSF,
    1, 1, [0x8c, 0x00, 0x00, 0x00], 2, 0, 0xc0, true, X16 ||| X32 ||| X64, RM_DST, NO_PREFIXF, 4, 5⟩,
  ⟨['m', 'o', 'v'], [.R16, .R_SEGE, .OP_N, .OP_N, .OP_N], GP0, F_MODRMF ||| F_MODRM_REGF ||| F_MODRM_RMF, NO_FLAGSF, NO_FLAGSF,
    1, 1, [0x8c, 0x00, 0x00, 0x00], 2, 0, 0xc0, true, X32 ||| X64, RM_DST, NO_PREFIXF, 4, 5⟩,
  ⟨['m', 'o', 'v'], [.R32, .R_SEG, .OP_N, .OP_N, .OP_N], GP0, F_MODRMF ||| F_MODRM_REGF ||| F_MODRM_RMF, NO_FLAGSF, NO_FLAGSF,
    1, 1, [0x8c, 0x00, 0x00, 0x00], 4, 0, 0xc0, true, X32 ||| X64, RM_DST, NO_PREFIXF, 4, 5⟩,
  ⟨['m', 'o', 'v'], [.R32, .R_SEGE, .OP_N, .OP_N, .OP_N], GP0, F_MODRMF ||| F_MODRM_REGF ||| F_MODRM_RMF, NO_FLAGSF, NO_FLAGSF,
    1, 1, [0x8c, 0x00, 0x00, 0x00], 4, 0, 0xc0, true, X32 ||| X64, RM_DST, NO_PREFIXF, 4, 5⟩,
  ⟨['m', 'o', 'v'], [.R64, .R_SEG, .OP_N, .OP_N, .OP_N], GP3, REXF ||| REXWF ||| F_MODRMF ||| F_MODRM_REGF ||| F_MODRM_RMF, NO_FLAGSF, NO_FLAGSF,
    1, 1, [0x8c, 0x00, 0x00, 0x00], 8, 0, 0xc0, false, X64, RM_DST, NO_PREFIXF, 4, 5⟩,
  ⟨['m', 'o', 'v'], [.R64, .R_SEGE, .OP_N, .OP_N, .OP_N], GP3, REXF ||| REXWF ||| F_MODRMF ||| F_MODRM_REGF ||| F_MODRM_RMF, NO_FLAGSF, NO_FLAGSF,
    1, 1, [0x8c, 0x00, 0x00, 0x00], 8, 0, 0xc0, false, X64, RM_DST, NO_PREFIXF, 4, 5⟩,
  ⟨['m', 'o', 'v'], [.R16E, .R_SEG, .OP_N, .OP_N, .OP_N], GP3, REXF ||| REXBF ||| F_MODRMF ||| F_MODRM_REGF ||| F_MODRM_RMF, NO_FLAGSF, NO_FLAGSF,
    1, 1, [0x8c, 0x00, 0x00, 0x00], 2, 0, 0xc0, true, X64, RM_DST, NO_PREFIXF, 4, 5⟩,
  ⟨['m', 'o', 'v'], [.R16E, .R_SEGE, .OP_N, .OP_N, .OP_N], GP3, REXF ||| REXBF ||| F_MODRMF ||| F_MODRM_REGF ||| F_MODRM_RMF, NO_FLAGSF, NO_FLAGSF,
    1, 1, [0x8c, 0x00, 0x00, 0x00], 2, 0, 0xc0, true, X64, RM_DST, NO_PREFIXF, 4, 5⟩,
  ⟨['m', 'o', 'v'], [.R32E, .R_SEG, .OP_N, .OP_N, .OP_N], GP3, REXF ||| REXBF ||| F_MODRMF ||| F_MODRM_REGF ||| F_MODRM_RMF, NO_FLAGSF, NO_FLAGSF,
    1, 1, [0x8c, 0x00, 0x00, 0x00], 4, 0, 0xc0, true, X64, RM_DST, NO_PREFIXF, 4, 5⟩,
  ⟨['m', 'o', 'v'], [.R32E, .R_SEGE, .OP_N, .OP_N, .OP_N], GP3, REXF ||| REXBF ||| F_MODRMF ||| F_MODRM_REGF ||| F_MODRM_RMF, NO_FLAGSF, NO_FLAGSF,
    1, 1, [0x8c, 0x00, 0x00, 0x00], 4, 0, 0xc0, true, X64, RM_DST, NO_PREFIXF, 4, 5⟩,
  ⟨['m', 'o', 'v'], [.R64E, .R_SEG, .OP_N, .OP_N, .OP_N], GP3, REXF ||| REXWF ||| REXBF ||| F_MODRMF ||| F_MODRM_REGF ||| F_MODRM_RMF, NO_FLAGSF, NO_FLAGSF,
    1, 1, [0x8c, 0x00, 0x00, 0x00], 8, 0, 0xc0, false, X64, RM_DST, NO_PREFIXF, 4, 5⟩,
  ⟨['m', 'o', 'v'], [.R64E, .R_SEGE, .OP_N, .OP_N, .OP_N], GP3, REXF ||| REXWF ||| REXBF ||| F_MODRMF ||| F_MODRM_REGF ||| F_MODRM_RMF, NO_FLAGSF, NO_FLAGSF,
    1, 1, [0x8c, 0x00, 0x00, 0x00], 8, 0, 0xc0, false, X64, RM_DST, NO_PREFIXF, 4, 5⟩,
  ⟨['m', 'o', 'v'], [.R_SEG, .R16, .OP_N, .OP_N, .OP_N], GP0, F_MODRMF ||| F_MODRM_REGF ||| F_MODRM_RMF, NO_FLAGSF, NO_FLAGSF,
    1, 1, [0x8e, 0x00, 0x00, 0x00], 2, 0, 0xc0, true, X16 ||| X32 ||| X64, REG_DST, NO_PREFIXF, 4, 5⟩,
  ⟨['m', 'o', 'v'], [.R_SEGE, .R16, .OP_N, .OP_N, .OP_N], GP0, F_MODRMF ||| F_MODRM_REGF ||| F_MODRM_RMF, NO_FLAGSF, NO_FLAGSF,
    1, 1, [0x8e, 0x00, 0x00, 0x00], 2, 0, 0xc0, true, X32 ||| X64, REG_DST, NO_PREFIXF, 4, 5⟩,
  ⟨['m', 'o', 'v'], [.R_SEG, .R32, .OP_N, .OP_N, .OP_N], GP0, F_MODRMF ||| F_MODRM_REGF ||| F_MODRM_RMF, NO_FLAGSF, NO_FLAGSF,
    1, 1, [0x8e, 0x00, 0x00, 0x00], 4, 0, 0xc0, true, X32 ||| X64, REG_DST, NO_PREFIXF, 4, 5⟩,
  ⟨['m', 'o', 'v'], [.R_SEGE, .R32, .OP_N, .OP_N, .OP_N], GP0, F_MODRMF ||| F_MODRM_REGF ||| F_MODRM_RMF, NO_FLAGSF, NO_FLAGSF,
    1, 1, [0x8e, 0x00, 0x00, 0x00], 4, 0, 0xc0, true, X32 ||| X64, REG_DST, NO_PREFIXF, 4, 5⟩,
  ⟨['m', 'o', 'v'], [.R_SEG, .R64, .OP_N, .OP_N, .OP_N], GP3, REXF ||| REXWF ||| F_MODRMF ||| F_MODRM_REGF ||| F_MODRM_RMF, NO_FLAGSF, NO_FLAGSF,
    1, 1, [0x8e, 0x00, 0x00, 0x00], 8, 0, 0xc0, false, X64, REG_DST, NO_PREFIXF, 4, 5⟩,
  ⟨['m', 'o', 'v'], [.R_SEGE, .R64, .OP_N, .OP_N, .OP_N], GP3, REXF ||| REXWF ||| F_MODRMF ||| F_MODRM_REGF ||| F_MODRM_RMF, NO_FLAGSF, NO_FLAGSF,
    1, 1, [0x8e, 0x00, 0x00, 0x00], 8, 0, 0xc0, false, X64, REG_DST, NO_PREFIXF, 4, 5⟩,
  ⟨['m', 'o', 'v'], [.R_SEG, .R16E, .OP_N, .OP_N, .OP_N], GP3, REXF ||| REXBF ||| F_MODRMF ||| F_MODRM_REGF ||| F_MODRM_RMF, NO_FLAGSF, NO_FLAGSF,
    1, 1, [0x8e, 0x00, 0x00, 0x00], 2, 0, 0xc0, true, X64, REG_DST, NO_PREFIXF, 4, 5⟩,
  ⟨['m', 'o', 'v'], [.R_SEGE, .R16E, .OP_N, .OP_N, .OP_N], GP3, REXF ||| REXBF ||| F_MODRMF ||| F_MODRM_REGF ||| F_MODRM_RMF, NO_FLAGSF, NO_FLAGSF,
    1, 1, [0x8e, 0x00, 0x00, 0x00], 2, 0, 0xc0, true, X64, REG_DST, NO_PREFIXF, 4, 5⟩,
  ⟨['m', 'o', 'v'], [.R_SEG, .R32E, .OP_N, .OP_N, .OP_N], GP3, REXF ||| REXBF ||| F_MODRMF ||| F_MODRM_REGF ||| F_MODRM_RMF, NO_FLAGSF, NO_FLAGSF,
    1, 1, [0x8e, 0x00, 0x00, 0x00], 4, 0, 0xc0, true, X64, REG_DST, NO_PREFIXF, 4, 5⟩,
  ⟨['m', 'o', 'v'], [.R_SEGE, .R32E, .OP_N, .OP_N, .OP_N], GP3, REXF ||| REXBF ||| F_MODRMF ||| F_MODRM_REGF ||| F_MODRM_RMF, NO_FLAGSF, NO_FLAGSF,
    1, 1, [0x8e, 0x00, 0x00, 0x00], 4, 0, 0xc0, true, X64, REG_DST, NO_PREFIXF, 4, 5⟩,
  ⟨['m', 'o', 'v'], [.R_SEG, .R64E, .OP_N, .OP_N, .OP_N], GP3, REXF ||| REXWF ||| REXBF ||| F_MODRMF ||| F_MODRM_REGF ||| F_MODRM_RMF, NO_FLAGSF, NO_FLAGSF,
    1, 1, [0x8e, 0x00, 0x00, 0x00], 8, 0, 0xc0, false, X64, REG_DST, NO_PREFIXF, 4, 5⟩,
  ⟨['m', 'o', 'v'], [.R_SEGE, .R64E, .OP_N, .OP_N, .OP_N], GP3, REXF ||| REXWF ||| REXBF ||| F_MODRMF ||| F_MODRM_REGF ||| F_MODRM_RMF, NO_FLAGSF, NO_FLAGSF,
    1, 1, [0x8e, 0x00, 0x00, 0x00], 8, 0, 0xc0, false, X64, REG_DST, NO_PREFIXF, 4, 5⟩,
  ⟨['m', 'o', 'v'], [.R8, .IMM8, .OP_N, .OP_N, .OP_N], GP0, F_OPCODE_REGF, NO_FLAGSF, NO_FLAGSF,
    1, 1, [0xb0, 0x00, 0x00, 0x00], 1, 0, 0x00, false, X16 ||| X32 ||| X64, NO_DST, NO_PREFIXF, 1, 5⟩,
  ⟨['m', 'o', 'v'], [.R8H, .IMM8, .OP_N, .OP_N, .OP_N], GP0, F_OPCODE_REGF, NO_FLAGSF, NO_FLAGSF,
    1, 1, [0xb0, 0x00, 0x00, 0x00], 1, 0, 0x00, false, X16 ||| X32 ||| X64, NO_DST, NO_PREFIXF, 1, 5⟩,
  ⟨['m', 'o', 'v'], [.R8U, .IMM8, .OP_N, .OP_N, .OP_N], GP3, REXF ||| F_OPCODE_REGF, NO_FLAGSF, NO_FLAGSF,
    1, 1, [0xb0, 0x00, 0x00, 0x00], 1, 0, 0x00, false, X64, NO_DST, NO_PREFIXF, 1, 5⟩,
  ⟨['m', 'o', 'v'], [.R8E, .IMM8, .OP_N, .OP_N, .OP_N], GP3, REXF ||| REXBF ||| F_OPCODE_REGF, NO_FLAGSF, NO_FLAGSF,
    1, 1, [0xb0, 0x00, 0x00, 0x00], 1, 0, 0x00, false, X64, NO_DST, NO_PREFIXF, 1, 5⟩,
  ⟨['m', 'o', 'v'], [.R16, .IMM8, .OP_N, .OP_N, .OP_N], GP0, F_OPCODE_REGF, NO_FLAGSF, NO_FLAGSF,
    1, 1, [0xb8, 0x00, 0x00, 0x00], 2, 0, 0x00, true, X16 ||| X32 ||| X64, NO_DST, NO_PREFIXF, 1, 5⟩,
  ⟨['m', 'o', 'v'], [.R16E, .IMM8, .OP_N, .OP_N, .OP_N], GP3, REXF ||| REXBF ||| F_OPCODE_REGF, NO_FLAGSF, NO_FLAGSF,
    1, 1, [0xb8, 0x00, 0x00, 0x00], 2, 0, 0x00, true, X64, NO_DST, NO_PREFIXF, 1, 5⟩,
  ⟨['m', 'o', 'v'], [.R16, .IMM16, .OP_N, .OP_N, .OP_N], GP0, F_OPCODE_REGF, NO_FLAGSF, NO_FLAGSF,
    1, 1, [0xb8, 0x00, 0x00, 0x00], 2, 0, 0x00, true, X16 ||| X32 ||| X64, NO_DST, NO_PREFIXF, 1, 5⟩,
  ⟨['m', 'o', 'v'], [.R16E, .IMM16, .OP_N, .OP_N, .OP_N], GP3, REXF ||| REXBF ||| F_OPCODE_REGF, NO_FLAGSF, NO_FLAGSF,
    1, 1, [0xb8, 0x00, 0x00, 0x00], 2, 0, 0x00, true, X64, NO_DST, NO_PREFIXF, 1, 5⟩,
  ⟨['m', 'o', 'v'], [.R32, .IMM8, .OP_N, .OP_N, .OP_N], GP0, F_OPCODE_REGF, NO_FLAGSF, NO_FLAGSF,
    1, 1, [0xb8, 0x00, 0x00, 0x00], 4, 0, 0x00, true, X16 ||| X32 ||| X64, NO_DST, NO_PREFIXF, 1, 5⟩,
  ⟨['m', 'o', 'v'], [.R32E, .IMM8, .OP_N, .OP_N, .OP_N], GP3, REXF ||| REXBF ||| F_OPCODE_REGF, NO_FLAGSF, NO_FLAGSF,
    1, 1, [0xb8, 0x00, 0x00, 0x00], 4, 0, 0x00, true, X64, NO_DST, NO_PREFIXF, 1, 5⟩,
  ⟨['m', 'o', 'v'], [.R32, .IMM16, .OP_N, .OP_N, .OP_N], GP0, F_OPCODE_REGF, NO_FLAGSF, NO_FLAGSF,
    1, 1, [0xb8, 0x00, 0x00, 0x00], 4, 0, 0x00, true, X16 ||| X32 ||| X64, NO_DST, NO_PREFIXF, 1, 5⟩,
  ⟨['m', 'o', 'v'], [.R32E, .IMM16, .OP_N, .OP_N, .OP_N], GP3, REXF ||| REXBF ||| F_OPCODE_REGF, NO_FLAGSF, NO_FLAGSF,
    1, 1, [0xb8, 0x00, 0x00, 0x00], 4, 0, 0x00, true, X64, NO_DST, NO_PREFIXF, 1, 5⟩]

/-- `InstrTableV2[120..]`: H/InstrTableV2.h. -/
def instrRows3 : List Instr := [
  ⟨['m', 'o', 'v'], [.R32, .IMM32, .OP_N, .OP_N, .OP_N], GP0, F_OPCODE_REGF, NO_FLAGSF, NO_FLAGSF,
    1, 1, [0xb8, 0x00, 0x00, 0x00], 4, 0, 0x00, true, X16 ||| X32 ||| X64, NO_DST, NO_PREFIXF, 1, 5⟩,
  ⟨['m', 'o', 'v'], [.R32E, .IMM32, .OP_N, .OP_N, .OP_N], GP3, REXF ||| REXBF ||| F_OPCODE_REGF, NO_FLAGSF, NO_FLAGSF,
    1, 1, [0xb8, 0x00, 0x00, 0x00], 4, 0, 0x00, true, X64, NO_DST, NO_PREFIXF, 1, 5⟩,
  ⟨['m', 'o', 'v'], [.R64, .IMM64, .OP_N, .OP_N, .OP_N], GP3, REXF ||| REXWF ||| F_OPCODE_REGF, NO_FLAGSF, NO_FLAGSF,
    1, 1, [0xb8, 0x00, 0x00, 0x00], 8, 0, 0x00, false, X64, NO_DST, NO_PREFIXF, 1, 5⟩,
  ⟨['m', 'o', 'v'], [.R64E, .IMM64, .OP_N, .OP_N, .OP_N], GP3, REXF ||| REXWF ||| REXBF ||| F_OPCODE_REGF, NO_FLAGSF, NO_FLAGSF,
    1, 1, [0xb8, 0x00, 0x00, 0x00], 8, 0, 0x00, false, X64, NO_DST, NO_PREFIXF, 1, 5⟩,
  ⟨['m', 'o', 'v'], [.R64, .IMM8, .OP_N, .OP_N, .OP_N], GP3, REXF ||| REXWF ||| F_MODRMF ||| F_MODRM_RMF, NO_FLAGSF, NO_FLAGSF,
    1, 1, [0xc7, 0x00, 0x00, 0x00], 4, 0, 0xc0, false, X64, RM_DST, NO_PREFIXF, 1, 5⟩,
  ⟨['m', 'o', 'v'], [.R64E, .IMM8, .OP_N, .OP_N, .OP_N], GP3, REXF ||| REXWF ||| REXBF ||| F_MODRMF ||| F_MODRM_RMF, NO_FLAGSF, NO_FLAGSF,
    1, 1, [0xc7, 0x00, 0x00, 0x00], 4, 0, 0xc0, false, X64, RM_DST, NO_PREFIXF, 1, 5⟩,
  ⟨['m', 'o', 'v'], [.R64, .IMM16, .OP_N, .OP_N, .OP_N], GP3, REXF ||| REXWF ||| F_MODRMF ||| F_MODRM_RMF, NO_FLAGSF, NO_FLAGSF,
    1, 1, [0xc7, 0x00, 0x00, 0x00], 4, 0, 0xc0, false, X64, RM_DST, NO_PREFIXF, 1, 5⟩,
  ⟨['m', 'o', 'v'], [.R64E, .IMM16, .OP_N, .OP_N, .OP_N], GP3, REXF ||| REXWF ||| REXBF ||| F_MODRMF ||| F_MODRM_RMF, NO_FLAGSF, NO_FLAGSF,
    1, 1, [0xc7, 0x00, 0x00, 0x00], 4, 0, 0xc0, false, X64, RM_DST, NO_PREFIXF, 1, 5⟩,
  ⟨['m', 'o', 'v'], [.R64, .IMM32, .OP_N, .OP_N, .OP_N], GP3, REXF ||| REXWF ||| F_MODRMF ||| F_MODRM_RMF, NO_FLAGSF, NO_FLAGSF,
    1, 1, [0xc7, 0x00, 0x00, 0x00], 4, 0, 0xc0, false, X64, RM_DST, NO_PREFIXF, 1, 5⟩,
  ⟨['m', 'o', 'v'], [.R64E, .IMM32, .OP_N, .OP_N, .OP_N], GP3, REXF ||| REXWF ||| REXBF ||| F_MODRMF ||| F_MODRM_RMF, NO_FLAGSF, NO_FLAGSF,
    1, 1, [0xc7, 0x00, 0x00, 0x00], 4, 0, 0xc0, false, X64, RM_DST, NO_PREFIXF, 1, 5⟩,
  ⟨['m', 'o', 'v'], [.R8, .M_ANY, .OP_N, .OP_N, .OP_N], GP0, F_MODRMF ||| F_MODRM_REGF ||| ALLOW_SEGF, NO_FLAGSF, NO_FLAGSF,
    1, 1, [0x8a, 0x00, 0x00, 0x00], 1, 0, 0x00, false, X16 ||| X32 ||| X64, REG_DST, NO_PREFIXF, 4, 1⟩,
  ⟨['m', 'o', 'v'], [.R8H, .M_ANY, .OP_N, .OP_N, .OP_N], GP0, F_MODRMF ||| F_MODRM_REGF ||| ALLOW_SEGF, NO_FLAGSF, NO_FLAGSF,
    1, 1, [0x8a, 0x00, 0x00, 0x00], 1, 0, 0x00, false, X16 ||| X32 ||| X64, REG_DST, NO_PREFIXF, 4, 1⟩,
  ⟨['m', 'o', 'v'], [.R8E, .M_ANY, .OP_N, .OP_N, .OP_N], GP3, REXF ||| REXRF ||| F_MODRMF ||| F_MODRM_REGF ||| ALLOW_SEGF, NO_FLAGSF, NO_FLAGSF,
    1, 1, [0x8a, 0x00, 0x00, 0x00], 1, 0, 0x00, false, X64, REG_DST, NO_PREFIXF, 4, 1⟩,
  ⟨['m', 'o', 'v'], [.R8U, .M_ANY, .OP_N, .OP_N, .OP_N], GP3, REXF ||| F_MODRMF ||| F_MODRM_REGF ||| ALLOW_SEGF, NO_FLAGSF, NO_FLAGSF,
    1, 1, [0x8a, 0x00, 0x00, 0x00], 1, 0, 0x00, false, X64, REG_DST, NO_PREFIXF, 4, 1⟩,
  ⟨['m', 'o', 'v'], [.R16, .M_ANY, .OP_N, .OP_N, .OP_N], GP0, F_MODRMF ||| F_MODRM_REGF ||| ALLOW_SEGF, NO_FLAGSF, NO_FLAGSF,
    1, 1, [0x8b, 0x00, 0x00, 0x00], 2, 0, 0x00, true, X16 ||| X32 ||| X64, REG_DST, NO_PREFIXF, 4, 1⟩,
  ⟨['m', 'o', 'v'], [.R16E, .M_ANY, .OP_N, .OP_N, .OP_N], GP3, REXF ||| REXRF ||| F_MODRMF ||| F_MODRM_REGF ||| ALLOW_SEGF, NO_FLAGSF, NO_FLAGSF,
    1, 1, [0x8b, 0x00, 0x00, 0x00], 2, 0, 0x00, true, X64, REG_DST, NO_PREFIXF, 4, 1⟩,
  ⟨['m', 'o', 'v'], [.R32, .M_ANY, .OP_N, .OP_N, .OP_N], GP0, F_MODRMF ||| F_MODRM_REGF ||| ALLOW_SEGF, NO_FLAGSF, NO_FLAGSF,
    1, 1, [0x8b, 0x00, 0x00, 0x00], 4, 0, 0x00, true, X16 ||| X32 ||| X64, REG_DST, NO_PREFIXF, 4, 1⟩,
  ⟨['m', 'o', 'v'], [.R32E, .M_ANY, .OP_N, .OP_N, .OP_N], GP3, REXF ||| REXRF ||| F_MODRMF ||| F_MODRM_REGF ||| ALLOW_SEGF, NO_FLAGSF, NO_FLAGSF,
    1, 1, [0x8b, 0x00, 0x00, 0x00], 4, 0, 0x00, true, X64, REG_DST, NO_PREFIXF, 4, 1⟩,
  ⟨['m', 'o', 'v'], [.R64, .M_ANY, .OP_N, .OP_N, .OP_N], GP0, REXF ||| REXWF ||| F_MODRMF ||| F_MODRM_REGF ||| ALLOW_SEGF, NO_FLAGSF, NO_FLAGSF,
    1, 1, [0x8b, 0x00, 0x00, 0x00], 8, 0, 0x00, false, X16 ||| X32 ||| X64, REG_DST, NO_PREFIXF, 4, 1⟩,
  ⟨['m', 'o', 'v'], [.R64E, .M_ANY, .OP_N, .OP_N, .OP_N], GP3, REXF ||| REXWF ||| REXRF ||| F_MODRMF ||| F_MODRM_REGF ||| ALLOW_SEGF, NO_FLAGSF, NO_FLAGSF,
    1, 1, [0x8b, 0x00, 0x00, 0x00], 8, 0, 0x00, false, X64, REG_DST, NO_PREFIXF, 4, 1⟩,
  ⟨['m', 'o', 'v'], [.M_ANY, .R8, .OP_N, .OP_N, .OP_N], GP0, F_MODRMF ||| F_MODRM_REGF ||| ALLOW_SEGF, NO_FLAGSF, NO_FLAGSF,
    1, 1, [0x88, 0x00, 0x00, 0x00], 1, 0, 0x00, false, X16 ||| X32 ||| X64, RM_DST, NO_PREFIXF, 4, 0⟩,
  ⟨['m', 'o', 'v'], [.M_ANY, .R8H, .OP_N, .OP_N, .OP_N], GP0, F_MODRMF ||| F_MODRM_REGF ||| ALLOW_SEGF, NO_FLAGSF, NO_FLAGSF,
    1, 1, [0x88, 0x00, 0x00, 0x00], 1, 0, 0x00, false, X16 ||| X32 ||| X64, RM_DST, NO_PREFIXF, 4, 0⟩,
  ⟨['m', 'o', 'v'], [.M_ANY, .R8E, .OP_N, .OP_N, .OP_N], GP3, REXF ||| REXRF ||| F_MODRMF ||| F_MODRM_REGF ||| ALLOW_SEGF, NO_FLAGSF, NO_FLAGSF,
    1, 1, [0x88, 0x00, 0x00, 0x00], 1, 0, 0x00, false, X64, RM_DST, NO_PREFIXF, 4, 0⟩,
  ⟨['m', 'o', 'v'], [.M_ANY, .R8U, .OP_N, .OP_N, .OP_N], GP3, REXF ||| F_MODRMF ||| F_MODRM_REGF ||| ALLOW_SEGF, NO_FLAGSF, NO_FLAGSF,
    1, 1, [0x88, 0x00, 0x00, 0x00], 1, 0, 0x00, false, X64, RM_DST, NO_PREFIXF, 4, 0⟩,
  ⟨['m', 'o', 'v'], [.M_ANY, .R16, .OP_N, .OP_N, .OP_N], GP0, F_MODRMF ||| F_MODRM_REGF ||| ALLOW_SEGF, NO_FLAGSF, NO_FLAGSF,
    1, 1, [0x89, 0x00, 0x00, 0x00], 2, 0, 0x00, true, X16 ||| X32 ||| X64, RM_DST, NO_PREFIXF, 4, 0⟩,
  ⟨['m', 'o', 'v'], [.M_ANY, .R16E, .OP_N, .OP_N, .OP_N], GP3, REXF ||| REXRF ||| F_MODRMF ||| F_MODRM_REGF ||| ALLOW_SEGF, NO_FLAGSF, NO_FLAGSF,
    1, 1, [0x89, 0x00, 0x00, 0x00], 2, 0, 0x00, true, X64, RM_DST, NO_PREFIXF, 4, 0⟩,
  ⟨['m', 'o', 'v'], [.M_ANY, .R32, .OP_N, .OP_N, .OP_N], GP0, F_MODRMF ||| F_MODRM_REGF ||| ALLOW_SEGF, NO_FLAGSF, NO_FLAGSF,
    1, 1, [0x89, 0x00, 0x00, 0x00], 4, 0, 0x00, true, X16 ||| X32 ||| X64, RM_DST, NO_PREFIXF, 4, 0⟩,
  ⟨['m', 'o', 'v'], [.M_ANY, .R32E, .OP_N, .OP_N, .OP_N], GP3, REXF ||| REXRF ||| F_MODRMF ||| F_MODRM_REGF ||| ALLOW_SEGF, NO_FLAGSF, NO_FLAGSF,
    1, 1, [0x89, 0x00, 0x00, 0x00], 4, 0, 0x00, true, X64, RM_DST, NO_PREFIXF, 4, 0⟩,
  ⟨['m', 'o', 'v'], [.M_ANY, .R64, .OP_N, .OP_N, .OP_N], GP0, REXF ||| REXWF ||| F_MODRMF ||| F_MODRM_REGF ||| ALLOW_SEGF, NO_FLAGSF, NO_FLAGSF,
    1, 1, [0x89, 0x00, 0x00, 0x00], 8, 0, 0x00, false, X64, RM_DST, NO_PREFIXF, 4, 0⟩,
  ⟨['m', 'o', 'v'], [.M_ANY, .R64E, .OP_N, .OP_N, .OP_N], GP3, REXF ||| REXWF ||| REXRF ||| F_MODRMF ||| F_MODRM_REGF ||| ALLOW_SEGF, NO_FLAGSF, NO_FLAGSF,
    1, 1, [0x89, 0x00, 0x00, 0x00], 8, 0, 0x00, false, X64, RM_DST, NO_PREFIXF, 4, 0⟩,
  ⟨['m', 'o', 'v'], [.R8_AL, .M_ANY, .OP_N, .OP_N, .OP_N], GP0, ALLOW_SEGF ||| DSPWF ||| ALLOW_SEGXF ||| NO_MEM_REGF, NO_FLAGSF, NO_FLAGSF,
    1, 1, [0xa0, 0x00, 0x00, 0x00], 1, 0, 0x00, false, X16 ||| X32 ||| X64, REG_DST, NO_PREFIXF, 4, 9⟩,
  ⟨['m', 'o', 'v'], [.R8_AL, .M8, .OP_N, .OP_N, .OP_N], GP0, ALLOW_SEGF ||| DSPWF ||| ALLOW_SEGXF ||| NO_MEM_REGF, NO_FLAGSF, NO_FLAGSF,
    1, 1, [0xa0, 0x00, 0x00, 0x00], 1, 0, 0x00, false, X16 ||| X32 ||| X64, REG_DST, NO_PREFIXF, 4, 9⟩,
  ⟨['m', 'o', 'v'], [.M_ANY, .R8_AL, .OP_N, .OP_N, .OP_N], GP0, ALLOW_SEGF ||| DSPWF ||| ALLOW_SEGXF ||| NO_MEM_REGF, NO_FLAGSF, NO_FLAGSF,
    1, 1, [0xa2, 0x00, 0x00, 0x00], 1, 0, 0x00, false, X16 ||| X32 ||| X64, RM_DST, NO_PREFIXF, 4, 8⟩,
  ⟨['m', 'o', 'v'], [.M8, .R8_AL, .OP_N, .OP_N, .OP_N], GP0, ALLOW_SEGF ||| DSPWF ||| ALLOW_SEGXF ||| NO_MEM_REGF, NO_FLAGSF, NO_FLAGSF,
    1, 1, [0xa2, 0x00, 0x00, 0x00], 1, 0, 0x00, false, X16 ||| X32 ||| X64, RM_DST, NO_PREFIXF, 4, 8⟩,
  ⟨['m', 'o', 'v'], [.R16_AX, .M_ANY, .OP_N, .OP_N, .OP_N], GP0, ALLOW_SEGF ||| DSPWF ||| ALLOW_SEGXF ||| NO_MEM_REGF, NO_FLAGSF, NO_FLAGSF,
    1, 1, [0xa1, 0x00, 0x00, 0x00], 2, 0, 0x00, true, X16 ||| X32 ||| X64, REG_DST, NO_PREFIXF, 4, 9⟩,
  ⟨['m', 'o', 'v'], [.M_ANY, .R16_AX, .OP_N, .OP_N, .OP_N], GP0, ALLOW_SEGF ||| DSPWF ||| ALLOW_SEGXF ||| NO_MEM_REGF, NO_FLAGSF, NO_FLAGSF,
    1, 1, [0xa3, 0x00, 0x00, 0x00], 2, 0, 0x00, true, X16 ||| X32 ||| X64, RM_DST, NO_PREFIXF, 4, 8⟩,
  ⟨['m', 'o', 'v'], [.R16_AX, .M16, .OP_N, .OP_N, .OP_N], GP0, ALLOW_SEGF ||| DSPWF ||| ALLOW_SEGXF ||| NO_MEM_REGF, NO_FLAGSF, NO_FLAGSF,
    1, 1, [0xa1, 0x00, 0x00, 0x00], 2, 0, 0x00, true, X16 ||| X32 ||| X64, REG_DST, NO_PREFIXF, 4, 9⟩,
  ⟨['m', 'o', 'v'], [.M16, .R16_AX, .OP_N, .OP_N, .OP_N], GP0, ALLOW_SEGF ||| DSPWF ||| ALLOW_SEGXF ||| NO_MEM_REGF, NO_FLAGSF, NO_FLAGSF,
    1, 1, [0xa3, 0x00, 0x00, 0x00], 2, 0, 0x00, true, X16 ||| X32 ||| X64, RM_DST, NO_PREFIXF, 4, 8⟩,
  ⟨['m', 'o', 'v'], [.R32_EAX, .M_ANY, .OP_N, .OP_N, .OP_N], GP0, ALLOW_SEGF ||| DSPWF ||| ALLOW_SEGXF ||| NO_MEM_REGF, NO_FLAGSF, NO_FLAGSF,
    1, 1, [0xa1, 0x00, 0x00, 0x00], 4, 0, 0x00, true, X16 ||| X32 ||| X64, REG_DST, NO_PREFIXF, 4, 9⟩,
  ⟨['m', 'o', 'v'], [.M_ANY, .R32_EAX, .OP_N, .OP_N, .OP_N], GP0, ALLOW_SEGF ||| DSPWF ||| ALLOW_SEGXF ||| NO_MEM_REGF, NO_FLAGSF, NO_FLAGSF,
    1, 1, [0xa3, 0x00, 0x00, 0x00], 4, 0, 0x00, true, X16 ||| X32 ||| X64, RM_DST, NO_PREFIXF, 4, 8⟩]

/-- `InstrTableV2[160..]`: H/InstrTableV2.h. -/
def instrRows4 : List Instr := [
  ⟨['m', 'o', 'v'], [.R32_EAX, .M32, .OP_N, .OP_N, .OP_N], GP0, ALLOW_SEGF ||| DSPWF ||| ALLOW_SEGXF ||| NO_MEM_REGF, NO_FLAGSF, NO_FLAGSF,
    1, 1, [0xa1, 0x00, 0x00, 0x00], 4, 0, 0x00, true, X16 ||| X32 ||| X64, REG_DST, NO_PREFIXF, 4, 9⟩,
  ⟨['m', 'o', 'v'], [.M32, .R32_EAX, .OP_N, .OP_N, .OP_N], GP0, ALLOW_SEGF ||| DSPWF ||| ALLOW_SEGXF ||| NO_MEM_REGF, NO_FLAGSF, NO_FLAGSF,
    1, 1, [0xa3, 0x00, 0x00, 0x00], 4, 0, 0x00, true, X16 ||| X32 ||| X64, RM_DST, NO_PREFIXF, 4, 8⟩,
  ⟨['m', 'o', 'v'], [.R64_RAX, .M_ANY, .OP_N, .OP_N, .OP_N], GP3, REXF ||| REXWF ||| ALLOW_SEGF ||| DSPWF ||| ALLOW_SEGXF ||| NO_MEM_REGF, NO_FLAGSF, NO_FLAGSF,
    1, 1, [0xa1, 0x00, 0x00, 0x00], 8, 0, 0x00, false, X64, REG_DST, NO_PREFIXF, 4, 9⟩,
  ⟨['m', 'o', 'v'], [.M_ANY, .R64_RAX, .OP_N, .OP_N, .OP_N], GP3, REXF ||| REXWF ||| ALLOW_SEGF ||| DSPWF ||| ALLOW_SEGXF ||| NO_MEM_REGF, NO_FLAGSF, NO_FLAGSF,
    1, 1, [0xa3, 0x00, 0x00, 0x00], 8, 0, 0x00, false, X64, RM_DST, NO_PREFIXF, 4, 8⟩,
  ⟨['m', 'o', 'v'], [.R64_RAX, .M64, .OP_N, .OP_N, .OP_N], GP3, REXF ||| REXWF ||| ALLOW_SEGF ||| DSPWF ||| ALLOW_SEGXF ||| NO_MEM_REGF, NO_FLAGSF, NO_FLAGSF,
    1, 1, [0xa1, 0x00, 0x00, 0x00], 8, 0, 0x00, false, X64, REG_DST, NO_PREFIXF, 4, 9⟩,
  ⟨['m', 'o', 'v'], [.M64, .R64_RAX, .OP_N, .OP_N, .OP_N], GP3, REXF ||| REXWF ||| ALLOW_SEGF ||| DSPWF ||| ALLOW_SEGXF ||| NO_MEM_REGF, NO_FLAGSF, NO_FLAGSF,
    1, 1, [0xa3, 0x00, 0x00, 0x00], 8, 0, 0x00, false, X64, RM_DST, NO_PREFIXF, 4, 8⟩,
  ⟨['m', 'o', 'v', 'a', 'b', 's'], [.R8_AL, .M_ANY, .OP_N, .OP_N, .OP_N], GP0, ALLOW_SEGF ||| DSPWF ||| ALLOW_SEGXF ||| NO_MEM_REGF, NO_FLAGSF, NO_FLAGSF,
    1, 1, [0xa0, 0x00, 0x00, 0x00], 1, 0, 0x00, false, X16 ||| X32 ||| X64, REG_DST, NO_PREFIXF, 4, 9⟩,
  ⟨['m', 'o', 'v', 'a', 'b', 's'], [.R8_AL, .M8, .OP_N, .OP_N, .OP_N], GP0, ALLOW_SEGF ||| DSPWF ||| ALLOW_SEGXF ||| NO_MEM_REGF, NO_FLAGSF, NO_FLAGSF,
    1, 1, [0xa0, 0x00, 0x00, 0x00], 1, 0, 0x00, false, X16 ||| X32 ||| X64, REG_DST, NO_PREFIXF, 4, 9⟩,
  ⟨['m', 'o', 'v', 'a', 'b', 's'], [.M_ANY, .R8_AL, .OP_N, .OP_N, .OP_N], GP0, ALLOW_SEGF ||| DSPWF ||| ALLOW_SEGXF ||| NO_MEM_REGF, NO_FLAGSF, NO_FLAGSF,
    1, 1, [0xa2, 0x00, 0x00, 0x00], 1, 0, 0x00, false, X16 ||| X32 ||| X64, RM_DST, NO_PREFIXF, 4, 8⟩,
  ⟨['m', 'o', 'v', 'a', 'b', 's'], [.M8, .R8_AL, .OP_N, .OP_N, .OP_N], GP0, ALLOW_SEGF ||| DSPWF ||| ALLOW_SEGXF ||| NO_MEM_REGF, NO_FLAGSF, NO_FLAGSF,
    1, 1, [0xa2, 0x00, 0x00, 0x00], 1, 0, 0x00, false, X16 ||| X32 ||| X64, RM_DST, NO_PREFIXF, 4, 8⟩,
  ⟨['m', 'o', 'v', 'a', 'b', 's'], [.R16_AX, .M_ANY, .OP_N, .OP_N, .OP_N], GP0, ALLOW_SEGF ||| DSPWF ||| ALLOW_SEGXF ||| NO_MEM_REGF, NO_FLAGSF, NO_FLAGSF,
    1, 1, [0xa1, 0x00, 0x00, 0x00], 2, 0, 0x00, true, X16 ||| X32 ||| X64, REG_DST, NO_PREFIXF, 4, 9⟩,
  ⟨['m', 'o', 'v', 'a', 'b', 's'], [.M_ANY, .R16_AX, .OP_N, .OP_N, .OP_N], GP0, ALLOW_SEGF ||| DSPWF ||| ALLOW_SEGXF ||| NO_MEM_REGF, NO_FLAGSF, NO_FLAGSF,
    1, 1, [0xa3, 0x00, 0x00, 0x00], 2, 0, 0x00, true, X16 ||| X32 ||| X64, RM_DST, NO_PREFIXF, 4, 8⟩,
  ⟨['m', 'o', 'v', 'a', 'b', 's'], [.R16_AX, .M16, .OP_N, .OP_N, .OP_N], GP0, ALLOW_SEGF ||| DSPWF ||| ALLOW_SEGXF ||| NO_MEM_REGF, NO_FLAGSF, NO_FLAGSF,
    1, 1, [0xa1, 0x00, 0x00, 0x00], 2, 0, 0x00, true, X16 ||| X32 ||| X64, REG_DST, NO_PREFIXF, 4, 9⟩,
  ⟨['m', 'o', 'v', 'a', 'b', 's'], [.M16, .R16_AX, .OP_N, .OP_N, .OP_N], GP0, ALLOW_SEGF ||| DSPWF ||| ALLOW_SEGXF ||| NO_MEM_REGF, NO_FLAGSF, NO_FLAGSF,
    1, 1, [0xa3, 0x00, 0x00, 0x00], 2, 0, 0x00, true, X16 ||| X32 ||| X64, RM_DST, NO_PREFIXF, 4, 8⟩,
  ⟨['m', 'o', 'v', 'a', 'b', 's'], [.R32_EAX, .M_ANY, .OP_N, .OP_N, .OP_N], GP0, ALLOW_SEGF ||| DSPWF ||| ALLOW_SEGXF ||| NO_MEM_REGF, NO_FLAGSF, NO_FLAGSF,
    1, 1, [0xa1, 0x00, 0x00, 0x00], 4, 0, 0x00, true, X16 ||| X32 ||| X64, REG_DST, NO_PREFIXF, 4, 9⟩,
  ⟨['m', 'o', 'v', 'a', 'b', 's'], [.M_ANY, .R32_EAX, .OP_N, .OP_N, .OP_N], GP0, ALLOW_SEGF ||| DSPWF ||| ALLOW_SEGXF ||| NO_MEM_REGF, NO_FLAGSF, NO_FLAGSF,
    1, 1, [0xa3, 0x00, 0x00, 0x00], 4, 0, 0x00, true, X16 ||| X32 ||| X64, RM_DST, NO_PREFIXF, 4, 8⟩,
  ⟨['m', 'o', 'v', 'a', 'b', 's'], [.R32_EAX, .M32, .OP_N, .OP_N, .OP_N], GP0, ALLOW_SEGF ||| DSPWF ||| ALLOW_SEGXF ||| NO_MEM_REGF, NO_FLAGSF, NO_FLAGSF,
    1, 1, [0xa1, 0x00, 0x00, 0x00], 4, 0, 0x00, true, X16 ||| X32 ||| X64, REG_DST, NO_PREFIXF, 4, 9⟩,
  ⟨['m', 'o', 'v', 'a', 'b', 's'], [.M32, .R32_EAX, .OP_N, .OP_N, .OP_N], GP0, ALLOW_SEGF ||| DSPWF ||| ALLOW_SEGXF ||| NO_MEM_REGF, NO_FLAGSF, NO_FLAGSF,
    1, 1, [0xa3, 0x00, 0x00, 0x00], 4, 0, 0x00, true, X16 ||| X32 ||| X64, RM_DST, NO_PREFIXF, 4, 8⟩,
  ⟨['m', 'o', 'v', 'a', 'b', 's'], [.R64_RAX, .M_ANY, .OP_N, .OP_N, .OP_N], GP3, REXF ||| REXWF ||| ALLOW_SEGF ||| DSPWF ||| ALLOW_SEGXF ||| NO_MEM_REGF, NO_FLAGSF, NO_FLAGSF,
    1, 1, [0xa1, 0x00, 0x00, 0x00], 8, 0, 0x00, false, X64, REG_DST, NO_PREFIXF, 4, 9⟩,
  ⟨['m', 'o', 'v', 'a', 'b', 's'], [.M_ANY, .R64_RAX, .OP_N, .OP_N, .OP_N], GP3, REXF ||| REXWF ||| ALLOW_SEGF ||| DSPWF ||| ALLOW_SEGXF ||| NO_MEM_REGF, NO_FLAGSF, NO_FLAGSF,
    1, 1, [0xa3, 0x00, 0x00, 0x00], 8, 0, 0x00, false, X64, RM_DST, NO_PREFIXF, 4, 8⟩,
  ⟨['m', 'o', 'v', 'a', 'b', 's'], [.R64_RAX, .M64, .OP_N, .OP_N, .OP_N], GP3, REXF ||| REXWF ||| ALLOW_SEGF ||| DSPWF ||| ALLOW_SEGXF ||| NO_MEM_REGF, NO_FLAGSF, NO_FLAGSF,
    1, 1, [0xa1, 0x00, 0x00, 0x00], 8, 0, 0x00, false, X64, REG_DST, NO_PREFIXF, 4, 9⟩,
  ⟨['m', 'o', 'v', 'a', 'b', 's'], [.M64, .R64_RAX, .OP_N, .OP_N, .OP_N], GP3, REXF ||| REXWF ||| ALLOW_SEGF ||| DSPWF ||| ALLOW_SEGXF ||| NO_MEM_REGF, NO_FLAGSF, NO_FLAGSF,
    1, 1, [0xa3, 0x00, 0x00, 0x00], 8, 0, 0x00, false, X64, RM_DST, NO_PREFIXF, 4, 8⟩,
  ⟨['m', 'o', 'v'], [.M8, .IMM8, .OP_N, .OP_N, .OP_N], GP3, F_MODRMF ||| ALLOW_SEGF, NO_FLAGSF, NO_FLAGSF,
    1, 1, [0xc6, 0x00, 0x00, 0x00], 1, 0, 0x00, false, X16 ||| X32 ||| X64, RM_DST, NO_PREFIXF, 1, 0⟩,
  ⟨['m', 'o', 'v'], [.M16, .IMM8, .OP_N, .OP_N, .OP_N], GP3, F_MODRMF ||| ALLOW_SEGF, NO_FLAGSF, NO_FLAGSF,
    1, 1, [0xc7, 0x00, 0x00, 0x00], 2, 0, 0x00, true, X16 ||| X32 ||| X64, RM_DST, NO_PREFIXF, 1, 0⟩,
  ⟨['m', 'o', 'v'], [.M16, .IMM16, .OP_N, .OP_N, .OP_N], GP3, F_MODRMF ||| ALLOW_SEGF, NO_FLAGSF, NO_FLAGSF,
    1, 1, [0xc7, 0x00, 0x00, 0x00], 2, 0, 0x00, true, X16 ||| X32 ||| X64, RM_DST, NO_PREFIXF, 1, 0⟩,
  ⟨['m', 'o', 'v'], [.M32, .IMM8, .OP_N, .OP_N, .OP_N], GP3, F_MODRMF ||| ALLOW_SEGF ||| REXP_MEMF, NO_FLAGSF, NO_FLAGSF,
    1, 1, [0xc7, 0x00, 0x00, 0x00], 4, 0, 0x00, true, X16 ||| X32 ||| X64, RM_DST, NO_PREFIXF, 1, 0⟩,
  ⟨['m', 'o', 'v'], [.M32, .IMM16, .OP_N, .OP_N, .OP_N], GP3, F_MODRMF ||| ALLOW_SEGF ||| REXP_MEMF, NO_FLAGSF, NO_FLAGSF,
    1, 1, [0xc7, 0x00, 0x00, 0x00], 4, 0, 0x00, true, X16 ||| X32 ||| X64, RM_DST, NO_PREFIXF, 1, 0⟩,
  ⟨['m', 'o', 'v'], [.M32, .IMM32, .OP_N, .OP_N, .OP_N], GP3, F_MODRMF ||| ALLOW_SEGF ||| REXP_MEMF, NO_FLAGSF, NO_FLAGSF,
    1, 1, [0xc7, 0x00, 0x00, 0x00], 4, 0, 0x00, true, X16 ||| X32 ||| X64, RM_DST, NO_PREFIXF, 1, 0⟩,
  ⟨['m', 'o', 'v'], [.M64, .IMM8, .OP_N, .OP_N, .OP_N], GP3, F_MODRMF ||| ALLOW_SEGF ||| REXP_MEMF, NO_FLAGSF, NO_FLAGSF,
    1, 1, [0xc7, 0x00, 0x00, 0x00], 4, 0, 0x00, true, X16 ||| X32 ||| X64, RM_DST, NO_PREFIXF, 1, 0⟩,
  ⟨['m', 'o', 'v'], [.M64, .IMM16, .OP_N, .OP_N, .OP_N], GP3, F_MODRMF ||| ALLOW_SEGF ||| REXP_MEMF, NO_FLAGSF, NO_FLAGSF,
    1, 1, [0xc7, 0x00, 0x00, 0x00], 4, 0, 0x00, true, X16 ||| X32 ||| X64, RM_DST, NO_PREFIXF, 1, 0⟩,
  ⟨['m', 'o', 'v'], [.M64, .IMM32, .OP_N, .OP_N, .OP_N], GP3, F_MODRMF ||| ALLOW_SEGF ||| REXP_MEMF, NO_FLAGSF, NO_FLAGSF,
    1, 1, [0xc7, 0x00, 0x00, 0x00], 4, 0, 0x00, true, X16 ||| X32 ||| X64, RM_DST, NO_PREFIXF, 1, 0⟩,
  ⟨['m', 'o', 'v'], [.M_ANY, .IMM8, .OP_N, .OP_N, .OP_N], GP3, F_MODRMF ||| ALLOW_SEGF ||| REXP_MEMF, NO_FLAGSF, NO_FLAGSF,
    1, 1, [0xc6, 0x00, 0x00, 0x00], 1, 0, 0x00, true, X16 ||| X32 ||| X64, RM_DST, NO_PREFIXF, 1, 0⟩,
  ⟨['m', 'o', 'v'], [.M_ANY, .IMM16, .OP_N, .OP_N, .OP_N], GP3, F_MODRMF ||| ALLOW_SEGF ||| REXP_MEMF, NO_FLAGSF, NO_FLAGSF,
    1, 1, [0xc7, 0x00, 0x00, 0x00], 2, 0, 0x00, true, X16 ||| X32 ||| X64, RM_DST, NO_PREFIXF, 1, 0⟩,
  ⟨['m', 'o', 'v'], [.M_ANY, .IMM32, .OP_N, .OP_N, .OP_N], GP3, F_MODRMF ||| ALLOW_SEGF ||| REXP_MEMF, NO_FLAGSF, NO_FLAGSF,
    1, 1, [0xc7, 0x00, 0x00, 0x00], 4, 0, 0x00, true, X16 ||| X32 ||| X64, RM_DST, NO_PREFIXF, 1, 0⟩,
  ⟨['m', 'o', 'v', 'a', 'p', 's'], [.R_XMM, .R_XMM, .OP_N, .OP_N, .OP_N], SSE0, F_MODRMF ||| F_MODRM_REGF ||| F_MODRM_RMF ||| EREXF, NO_FLAGSF, NO_FLAGSF,
    4, 1, [0x28, 0x00, 0x00, 0x00], 16, 1, 0xc0, false, X32 ||| X64, REG_DST, PFX_0xF, 4, 5⟩,
  ⟨['m', 'o', 'v', 'a', 'p', 's'], [.R_XMM, .M_ANY, .OP_N, .OP_N, .OP_N], SSE0, F_MODRMF ||| F_MODRM_REGF ||| EREXF, NO_FLAGSF, NO_FLAGSF,
    4, 1, [0x28, 0x00, 0x00, 0x00], 16, 1, 0x00, false, X32 ||| X64, REG_DST, PFX_0xF, 4, 1⟩,
  ⟨['m', 'o', 'v', 'a', 'p', 's'], [.M_ANY, .R_XMM, .OP_N, .OP_N, .OP_N], SSE0, F_MODRMF ||| F_MODRM_REGF ||| EREXF, NO_FLAGSF, NO_FLAGSF,
    4, 1, [0x29, 0x00, 0x00, 0x00], 16, 1, 0x00, false, X32 ||| X64, RM_DST, PFX_0xF, 4, 0⟩,
  ⟨['m', 'u', 'l', 'p', 's'], [.R_XMM, .R_XMM, .OP_N, .OP_N, .OP_N], SSE0, F_MODRMF ||| F_MODRM_REGF ||| F_MODRM_RMF ||| EREXF, NO_FLAGSF, NO_FLAGSF,
    4, 1, [0x59, 0x00, 0x00, 0x00], 16, 1, 0xc0, false, X32 ||| X64, REG_DST, PFX_0xF, 4, 5⟩,
  ⟨['m', 'u', 'l', 'p', 's'], [.R_XMM, .M_ANY, .OP_N, .OP_N, .OP_N], SSE0, F_MODRMF ||| F_MODRM_REGF ||| EREXF, NO_FLAGSF, NO_FLAGSF,
    4, 1, [0x59, 0x00, 0x00, 0x00], 16, 1, 0x00, false, X32 ||| X64, REG_DST, PFX_0xF, 4, 1⟩,
  ⟨['p', 's', 'h', 'u', 'f', 'd'], [.R_XMM, .R_XMM, .IMM8, .OP_N, .OP_N], SSE0, F_MODRMF ||| F_MODRM_REGF ||| F_MODRM_RMF ||| IMM8_ONLYF ||| EREXF, NO_FLAGSF, NO_FLAGSF,
    4, 1, [0x70, 0x00, 0x00, 0x00], 16, 1, 0xc0, false, X32 ||| X64, REG_DST, PFX_0x66F, 2, 5⟩]

/-- `InstrTableV2[200..]`: H/InstrTableV2.h. -/
def instrRows5 : List Instr := [
  ⟨['p', 's', 'h', 'u', 'f', 'd'], [.R_XMM, .M_ANY, .IMM8, .OP_N, .OP_N], SSE0, F_MODRMF ||| F_MODRM_REGF ||| IMM8_ONLYF ||| EREXF, NO_FLAGSF, NO_FLAGSF,
    4, 1, [0x70, 0x00, 0x00, 0x00], 16, 1, 0x00, false, X32 ||| X64, REG_DST, PFX_0x66F, 2, 1⟩,
  ⟨['b', 'l', 'e', 'n', 'd', 'v', 'p', 's'], [.R_XMM, .R_XMM, .OP_N, .OP_N, .OP_N], SSE0, F_MODRMF ||| F_MODRM_REGF ||| F_MODRM_RMF ||| EREXF, NO_FLAGSF, NO_FLAGSF,
    4, 1, [0x14, 0x00, 0x00, 0x00], 16, 1, 0xc0, false, X32 ||| X64, REG_DST, PFX_0x66F38, 4, 5⟩,
  ⟨['b', 'l', 'e', 'n', 'd', 'v', 'p', 's'], [.R_XMM, .M_ANY, .OP_N, .OP_N, .OP_N], SSE0, F_MODRMF ||| F_MODRM_REGF ||| EREXF, NO_FLAGSF, NO_FLAGSF,
    4, 1, [0x14, 0x00, 0x00, 0x00], 16, 1, 0x00, false, X32 ||| X64, REG_DST, PFX_0x66F38, 4, 1⟩,
  ⟨['m', 'p', 's', 'a', 'd', 'b', 'w'], [.R_XMM, .R_XMM, .OP_N, .OP_N, .OP_N], SSE0, F_MODRMF ||| F_MODRM_REGF ||| F_MODRM_RMF ||| EREXF, NO_FLAGSF, NO_FLAGSF,
    4, 1, [0x42, 0x00, 0x00, 0x00], 16, 1, 0xc0, false, X32 ||| X64, REG_DST, PFX_0x66F3A, 4, 5⟩,
  ⟨['m', 'p', 's', 'a', 'd', 'b', 'w'], [.R_XMM, .M_ANY, .OP_N, .OP_N, .OP_N], SSE0, F_MODRMF ||| F_MODRM_REGF ||| EREXF, NO_FLAGSF, NO_FLAGSF,
    4, 1, [0x42, 0x00, 0x00, 0x00], 16, 1, 0x00, false, X32 ||| X64, REG_DST, PFX_0x66F3A, 4, 1⟩,
  ⟨['v', 'm', 'o', 'v', 'a', 'p', 's'], [.R_XMM, .R_XMM, .OP_N, .OP_N, .OP_N], AVX0, F_MODRMF ||| F_MODRM_REGF ||| F_MODRM_RMF ||| SRCHDSTLF, VEXF ||| VEX_WIGF ||| VEX_0FF ||| VEX_2OPNDF ||| EVEXF, EVEX_W0F ||| EVEX_MASKF ||| EVEX_ZF,
    1, 1, [0x29, 0x00, 0x00, 0x00], 16, 1, 0xc0, false, X32 ||| X64, RM_DST, NO_PREFIXF, 4, 5⟩,
  ⟨['v', 'm', 'o', 'v', 'a', 'p', 's'], [.R_YMM, .R_YMM, .OP_N, .OP_N, .OP_N], AVX1, F_MODRMF ||| F_MODRM_REGF ||| F_MODRM_RMF ||| SRCHDSTLF, VEXF ||| VEX_WIGF ||| VEX_0FF ||| VEX_2OPNDF ||| EVEXF, EVEX_W0F ||| EVEX_MASKF ||| EVEX_ZF,
    1, 1, [0x29, 0x00, 0x00, 0x00], 32, 1, 0xc0, false, X32 ||| X64, RM_DST, NO_PREFIXF, 4, 5⟩,
  ⟨['v', 'm', 'o', 'v', 'a', 'p', 's'], [.R_XMM, .R_XMM, .OP_N, .OP_N, .OP_N], AVX0, F_MODRMF ||| F_MODRM_REGF ||| F_MODRM_RMF, VEXF ||| VEX_WIGF ||| VEX_0FF ||| VEX_2OPNDF ||| EVEXF, EVEX_W0F ||| EVEX_MASKF ||| EVEX_ZF,
    1, 1, [0x28, 0x00, 0x00, 0x00], 16, 1, 0xc0, false, X32 ||| X64, REG_DST, NO_PREFIXF, 4, 5⟩,
  ⟨['v', 'm', 'o', 'v', 'a', 'p', 's'], [.R_YMM, .R_YMM, .OP_N, .OP_N, .OP_N], AVX1, F_MODRMF ||| F_MODRM_REGF ||| F_MODRM_RMF, VEXF ||| VEX_WIGF ||| VEX_0FF ||| VEX_2OPNDF ||| EVEXF, EVEX_W0F ||| EVEX_MASKF ||| EVEX_ZF,
    1, 1, [0x28, 0x00, 0x00, 0x00], 32, 1, 0xc0, false, X32 ||| X64, REG_DST, NO_PREFIXF, 4, 5⟩,
  ⟨['v', 'm', 'o', 'v', 'a', 'p', 's'], [.R_XMM, .M_ANY, .OP_N, .OP_N, .OP_N], AVX0, F_MODRMF ||| F_MODRM_REGF, VEXF ||| VEX_WIGF ||| VEX_0FF ||| VEX_2OPNDF ||| EVEXF, EVEX_W0F ||| EVEX_MASKF ||| EVEX_ZF,
    1, 1, [0x28, 0x00, 0x00, 0x00], 16, 1, 0x00, false, X32 ||| X64, REG_DST, NO_PREFIXF, 4, 1⟩,
  ⟨['v', 'm', 'o', 'v', 'a', 'p', 's'], [.R_YMM, .M_ANY, .OP_N, .OP_N, .OP_N], AVX1, F_MODRMF ||| F_MODRM_REGF, VEXF ||| VEX_WIGF ||| VEX_0FF ||| VEX_2OPNDF ||| EVEXF, EVEX_W0F ||| EVEX_MASKF ||| EVEX_ZF,
    1, 1, [0x28, 0x00, 0x00, 0x00], 32, 1, 0x00, false, X32 ||| X64, REG_DST, NO_PREFIXF, 4, 1⟩,
  ⟨['v', 'm', 'o', 'v', 'a', 'p', 's'], [.M_ANY, .R_XMM, .OP_N, .OP_N, .OP_N], AVX0, F_MODRMF ||| F_MODRM_REGF, VEXF ||| VEX_WIGF ||| VEX_0FF ||| VEX_2OPNDF ||| EVEXF, EVEX_W0F ||| EVEX_MASKF,
    1, 1, [0x29, 0x00, 0x00, 0x00], 16, 1, 0x00, false, X32 ||| X64, RM_DST, NO_PREFIXF, 4, 0⟩,
  ⟨['v', 'm', 'o', 'v', 'a', 'p', 's'], [.M_ANY, .R_YMM, .OP_N, .OP_N, .OP_N], AVX1, F_MODRMF ||| F_MODRM_REGF, VEXF ||| VEX_WIGF ||| VEX_0FF ||| VEX_2OPNDF ||| EVEXF, EVEX_W0F ||| EVEX_MASKF,
    1, 1, [0x29, 0x00, 0x00, 0x00], 32, 1, 0x00, false, X32 ||| X64, RM_DST, NO_PREFIXF, 4, 0⟩,
  ⟨['v', 'm', 'o', 'v', 'a', 'p', 's'], [.R_ZMM, .R_ZMM, .OP_N, .OP_N, .OP_N], EVX0, F_MODRMF ||| F_MODRM_REGF ||| F_MODRM_RMF, VEX_0FF ||| VEX_2OPNDF ||| EVEXF, EVEX_ONLYF ||| EVEX_W0F ||| EVEX_MASKF ||| EVEX_ZF,
    1, 1, [0x28, 0x00, 0x00, 0x00], 64, 1, 0xc0, false, X32 ||| X64, REG_DST, NO_PREFIXF, 4, 5⟩,
  ⟨['v', 'm', 'o', 'v', 'a', 'p', 's'], [.R_ZMM, .M_ANY, .OP_N, .OP_N, .OP_N], EVX0, F_MODRMF ||| F_MODRM_REGF, VEX_0FF ||| VEX_2OPNDF ||| EVEXF, EVEX_ONLYF ||| EVEX_W0F ||| EVEX_MASKF ||| EVEX_ZF,
    1, 1, [0x28, 0x00, 0x00, 0x00], 64, 1, 0x00, false, X32 ||| X64, REG_DST, NO_PREFIXF, 4, 1⟩,
  ⟨['v', 'm', 'o', 'v', 'a', 'p', 's'], [.M_ANY, .R_ZMM, .OP_N, .OP_N, .OP_N], EVX0, F_MODRMF ||| F_MODRM_REGF, VEX_0FF ||| VEX_2OPNDF ||| EVEXF, EVEX_ONLYF ||| EVEX_W0F ||| EVEX_MASKF,
    1, 1, [0x29, 0x00, 0x00, 0x00], 64, 1, 0x00, false, X32 ||| X64, RM_DST, NO_PREFIXF, 4, 0⟩,
  ⟨['v', 'm', 'o', 'v', 'a', 'p', 'd'], [.R_XMM, .R_XMM, .OP_N, .OP_N, .OP_N], AVX0, F_MODRMF ||| F_MODRM_REGF ||| F_MODRM_RMF ||| SRCHDSTLF, VEXF ||| VEX_WIGF ||| VEX_66F ||| VEX_0FF ||| VEX_2OPNDF ||| EVEXF, EVEX_W1F ||| EVEX_MASKF ||| EVEX_ZF,
    1, 1, [0x29, 0x00, 0x00, 0x00], 16, 1, 0xc0, false, X32 ||| X64, RM_DST, NO_PREFIXF, 4, 5⟩,
  ⟨['v', 'm', 'o', 'v', 'a', 'p', 'd'], [.R_YMM, .R_YMM, .OP_N, .OP_N, .OP_N], AVX1, F_MODRMF ||| F_MODRM_REGF ||| F_MODRM_RMF ||| SRCHDSTLF, VEXF ||| VEX_WIGF ||| VEX_66F ||| VEX_0FF ||| VEX_2OPNDF ||| EVEXF, EVEX_W1F ||| EVEX_MASKF ||| EVEX_ZF,
    1, 1, [0x29, 0x00, 0x00, 0x00], 32, 1, 0xc0, false, X32 ||| X64, RM_DST, NO_PREFIXF, 4, 5⟩,
  ⟨['v', 'm', 'o', 'v', 'a', 'p', 'd'], [.R_XMM, .R_XMM, .OP_N, .OP_N, .OP_N], AVX0, F_MODRMF ||| F_MODRM_REGF ||| F_MODRM_RMF, VEXF ||| VEX_WIGF ||| VEX_66F ||| VEX_0FF ||| VEX_2OPNDF ||| EVEXF, EVEX_W1F ||| EVEX_MASKF ||| EVEX_ZF,
    1, 1, [0x28, 0x00, 0x00, 0x00], 16, 1, 0xc0, false, X32 ||| X64, REG_DST, NO_PREFIXF, 4, 5⟩,
  ⟨['v', 'm', 'o', 'v', 'a', 'p', 'd'], [.R_YMM, .R_YMM, .OP_N, .OP_N, .OP_N], AVX1, F_MODRMF ||| F_MODRM_REGF ||| F_MODRM_RMF, VEXF ||| VEX_WIGF ||| VEX_66F ||| VEX_0FF ||| VEX_2OPNDF ||| EVEXF, EVEX_W1F ||| EVEX_MASKF ||| EVEX_ZF,
    1, 1, [0x28, 0x00, 0x00, 0x00], 32, 1, 0xc0, false, X32 ||| X64, REG_DST, NO_PREFIXF, 4, 5⟩,
  ⟨['v', 'm', 'o', 'v', 'a', 'p', 'd'], [.R_XMM, .M_ANY, .OP_N, .OP_N, .OP_N], AVX0, F_MODRMF ||| F_MODRM_REGF, VEXF ||| VEX_WIGF ||| VEX_66F ||| VEX_0FF ||| VEX_2OPNDF ||| EVEXF, EVEX_W1F ||| EVEX_MASKF ||| EVEX_ZF,
    1, 1, [0x28, 0x00, 0x00, 0x00], 16, 1, 0x00, false, X32 ||| X64, REG_DST, NO_PREFIXF, 4, 1⟩,
  ⟨['v', 'm', 'o', 'v', 'a', 'p', 'd'], [.R_YMM, .M_ANY, .OP_N, .OP_N, .OP_N], AVX1, F_MODRMF ||| F_MODRM_REGF, VEXF ||| VEX_WIGF ||| VEX_66F ||| VEX_0FF ||| VEX_2OPNDF ||| EVEXF, EVEX_W1F ||| EVEX_MASKF ||| EVEX_ZF,
    1, 1, [0x28, 0x00, 0x00, 0x00], 32, 1, 0x00, false, X32 ||| X64, REG_DST, NO_PREFIXF, 4, 1⟩,
  ⟨['v', 'm', 'o', 'v', 'a', 'p', 'd'], [.M_ANY, .R_XMM, .OP_N, .OP_N, .OP_N], AVX0, F_MODRMF ||| F_MODRM_REGF, VEXF ||| VEX_WIGF ||| VEX_66F ||| VEX_0FF ||| VEX_2OPNDF ||| EVEXF, EVEX_W1F ||| EVEX_MASKF,
    1, 1, [0x29, 0x00, 0x00, 0x00], 16, 1, 0x00, false, X32 ||| X64, RM_DST, NO_PREFIXF, 4, 0⟩,
  ⟨['v', 'm', 'o', 'v', 'a', 'p', 'd'], [.M_ANY, .R_YMM, .OP_N, .OP_N, .OP_N], AVX1, F_MODRMF ||| F_MODRM_REGF, VEXF ||| VEX_WIGF ||| VEX_66F ||| VEX_0FF ||| VEX_2OPNDF ||| EVEXF, EVEX_W1F ||| EVEX_MASKF,
    1, 1, [0x29, 0x00, 0x00, 0x00], 32, 1, 0x00, false, X32 ||| X64, RM_DST, NO_PREFIXF, 4, 0⟩,
  ⟨['v', 'm', 'o', 'v', 'a', 'p', 'd'], [.R_ZMM, .R_ZMM, .OP_N, .OP_N, .OP_N], EVX0, F_MODRMF ||| F_MODRM_REGF ||| F_MODRM_RMF, VEX_66F ||| VEX_0FF ||| VEX_2OPNDF ||| EVEXF, EVEX_ONLYF ||| EVEX_W1F ||| EVEX_MASKF ||| EVEX_ZF,
    1, 1, [0x28, 0x00, 0x00, 0x00], 64, 1, 0xc0, false, X32 ||| X64, REG_DST, NO_PREFIXF, 4, 5⟩,
  ⟨['v', 'm', 'o', 'v', 'a', 'p', 'd'], [.R_ZMM, .M_ANY, .OP_N, .OP_N, .OP_N], EVX0, F_MODRMF ||| F_MODRM_REGF, VEX_66F ||| VEX_0FF ||| VEX_2OPNDF ||| EVEXF, EVEX_ONLYF ||| EVEX_W1F ||| EVEX_MASKF ||| EVEX_ZF,
    1, 1, [0x28, 0x00, 0x00, 0x00], 64, 1, 0x00, false, X32 ||| X64, REG_DST, NO_PREFIXF, 4, 1⟩,
  ⟨['v', 'm', 'o', 'v', 'a', 'p', 'd'], [.M_ANY, .R_ZMM, .OP_N, .OP_N, .OP_N], EVX0, F_MODRMF ||| F_MODRM_REGF, VEX_66F ||| VEX_0FF ||| VEX_2OPNDF ||| EVEXF, EVEX_ONLYF ||| EVEX_W1F ||| EVEX_MASKF,
    1, 1, [0x29, 0x00, 0x00, 0x00], 64, 1, 0x00, false, X32 ||| X64, RM_DST, NO_PREFIXF, 4, 0⟩,
  ⟨['v', 'm', 'u', 'l', 'p', 's'], [.R_XMM, .R_XMM, .R_XMM, .OP_N, .OP_N], AVX0, F_MODRMF ||| F_MODRM_REGF ||| F_MODRM_RMF, VEXF ||| VEX_WIGF ||| VEX_0FF ||| VEX_NDSF ||| EVEXF, EVEX_W0F ||| EVEX_MASKF ||| EVEX_ZF ||| EVEX_RNDF,
    4, 1, [0x59, 0x00, 0x00, 0x00], 16, 2, 0xc0, false, X32 ||| X64, REG_DST, NO_PREFIXF, 4, 5⟩,
  ⟨['v', 'm', 'u', 'l', 'p', 's'], [.R_XMM, .R_XMM, .M_ANY, .OP_N, .OP_N], AVX0, F_MODRMF ||| F_MODRM_REGF, VEXF ||| VEX_WIGF ||| VEX_0FF ||| VEX_NDSF ||| EVEXF, EVEX_W0F ||| EVEX_BRDF ||| EVEX_MASKF ||| EVEX_ZF,
    4, 1, [0x59, 0x00, 0x00, 0x00], 16, 2, 0x00, false, X32 ||| X64, REG_DST, NO_PREFIXF, 4, 2⟩,
  ⟨['v', 'm', 'u', 'l', 'p', 's'], [.R_YMM, .R_YMM, .R_YMM, .OP_N, .OP_N], AVX1, F_MODRMF ||| F_MODRM_REGF ||| F_MODRM_RMF, VEXF ||| VEX_WIGF ||| VEX_0FF ||| VEX_NDSF ||| EVEXF, EVEX_W0F ||| EVEX_MASKF ||| EVEX_ZF ||| EVEX_RNDF,
    8, 1, [0x59, 0x00, 0x00, 0x00], 32, 2, 0xc0, false, X32 ||| X64, REG_DST, NO_PREFIXF, 4, 5⟩,
  ⟨['v', 'm', 'u', 'l', 'p', 's'], [.R_YMM, .R_YMM, .M_ANY, .OP_N, .OP_N], AVX1, F_MODRMF ||| F_MODRM_REGF, VEXF ||| VEX_WIGF ||| VEX_0FF ||| VEX_NDSF ||| EVEXF, EVEX_W0F ||| EVEX_BRDF ||| EVEX_MASKF ||| EVEX_ZF,
    8, 1, [0x59, 0x00, 0x00, 0x00], 32, 2, 0x00, false, X32 ||| X64, REG_DST, NO_PREFIXF, 4, 2⟩,
  ⟨['v', 'm', 'u', 'l', 'p', 's'], [.R_XMM, .R_XMM, .OP_N, .OP_N, .OP_N], AVX0, F_MODRMF ||| F_MODRM_REGF ||| F_MODRM_RMF, VEXF ||| VEX_WIGF ||| VEX_0FF ||| VEX_DUP_NDSF, EVEX_W0F ||| EVEX_MASKF ||| EVEX_ZF ||| EVEX_RNDF,
    4, 1, [0x59, 0x00, 0x00, 0x00], 16, 1, 0xc0, false, X32 ||| X64, REG_DST, NO_PREFIXF, 4, 5⟩,
  ⟨['v', 'm', 'u', 'l', 'p', 's'], [.R_YMM, .R_YMM, .OP_N, .OP_N, .OP_N], AVX1, F_MODRMF ||| F_MODRM_REGF ||| F_MODRM_RMF, VEXF ||| VEX_WIGF ||| VEX_0FF ||| VEX_DUP_NDSF, EVEX_W0F ||| EVEX_MASKF ||| EVEX_ZF ||| EVEX_RNDF,
    8, 1, [0x59, 0x00, 0x00, 0x00], 32, 1, 0xc0, false, X32 ||| X64, REG_DST, NO_PREFIXF, 4, 5⟩,
  ⟨['v', 'm', 'u', 'l', 'p', 's'], [.R_ZMM, .R_ZMM, .R_ZMM, .OP_N, .OP_N], EVX0, F_MODRMF ||| F_MODRM_REGF ||| F_MODRM_RMF, VEX_0FF ||| VEX_NDSF ||| EVEXF, EVEX_ONLYF ||| EVEX_W0F ||| EVEX_MASKF ||| EVEX_ZF ||| EVEX_RNDF,
    16, 1, [0x59, 0x00, 0x00, 0x00], 64, 2, 0xc0, false, X32 ||| X64, REG_DST, NO_PREFIXF, 4, 5⟩,
  ⟨['v', 'm', 'u', 'l', 'p', 's'], [.R_ZMM, .R_ZMM, .M_ANY, .OP_N, .OP_N], EVX0, F_MODRMF ||| F_MODRM_REGF, VEX_0FF ||| VEX_NDSF ||| EVEXF, EVEX_ONLYF ||| EVEX_W0F ||| EVEX_BRDF ||| EVEX_MASKF ||| EVEX_ZF,
    16, 1, [0x59, 0x00, 0x00, 0x00], 64, 2, 0x00, false, X32 ||| X64, REG_DST, NO_PREFIXF, 4, 2⟩,
  ⟨['v', 'p', 's', 'h', 'u', 'f', 'd'], [.R_XMM, .R_XMM, .IMM8, .OP_N, .OP_N], AVX0, F_MODRMF ||| F_MODRM_REGF ||| F_MODRM_RMF ||| IMM8_ONLYF, VEXF ||| VEX_WIGF ||| VEX_66F ||| VEX_0FF ||| VEX_2OPNDF ||| EVEXF, EVEX_W0F ||| EVEX_MASKF ||| EVEX_ZF,
    4, 1, [0x70, 0x00, 0x00, 0x00], 16, 1, 0xc0, false, X32 ||| X64, REG_DST, NO_PREFIXF, 2, 5⟩,
  ⟨['v', 'p', 's', 'h', 'u', 'f', 'd'], [.R_XMM, .M_ANY, .IMM8, .OP_N, .OP_N], AVX0, F_MODRMF ||| F_MODRM_REGF ||| IMM8_ONLYF, VEXF ||| VEX_WIGF ||| VEX_66F ||| VEX_0FF ||| VEX_2OPNDF ||| EVEXF, EVEX_W0F ||| EVEX_BRDF ||| EVEX_MASKF ||| EVEX_ZF,
    4, 1, [0x70, 0x00, 0x00, 0x00], 16, 1, 0x00, false, X32 ||| X64, REG_DST, NO_PREFIXF, 2, 1⟩,
  ⟨['v', 'p', 's', 'h', 'u', 'f', 'd'], [.R_YMM, .R_YMM, .IMM8, .OP_N, .OP_N], AVX1, F_MODRMF ||| F_MODRM_REGF ||| F_MODRM_RMF ||| IMM8_ONLYF, VEXF ||| VEX_WIGF ||| VEX_66F ||| VEX_0FF ||| VEX_2OPNDF ||| EVEXF, EVEX_W0F ||| EVEX_MASKF ||| EVEX_ZF,
    8, 1, [0x70, 0x00, 0x00, 0x00], 32, 1, 0xc0, false, X32 ||| X64, REG_DST, NO_PREFIXF, 2, 5⟩,
  ⟨['v', 'p', 's', 'h', 'u', 'f', 'd'], [.R_YMM, .M_ANY, .IMM8, .OP_N, .OP_N], AVX1, F_MODRMF ||| F_MODRM_REGF ||| IMM8_ONLYF, VEXF ||| VEX_WIGF ||| VEX_66F ||| VEX_0FF ||| VEX_2OPNDF ||| EVEXF, EVEX_W0F ||| EVEX_BRDF ||| EVEX_MASKF ||| EVEX_ZF,
    8, 1, [0x70, 0x00, 0x00, 0x00], 32, 1, 0x00, false, X32 ||| X64, REG_DST, NO_PREFIXF, 2, 1⟩,
  ⟨['v', 'p', 's', 'h', 'u', 'f', 'd'], [.R_ZMM, .R_ZMM, .IMM8, .OP_N, .OP_N], EVX0, F_MODRMF ||| F_MODRM_REGF ||| F_MODRM_RMF ||| IMM8_ONLYF, VEXF ||| VEX_WIGF ||| VEX_66F ||| VEX_0FF ||| VEX_2OPNDF ||| EVEXF, EVEX_ONLYF ||| EVEX_W0F ||| EVEX_MASKF ||| EVEX_ZF,
    16, 1, [0x70, 0x00, 0x00, 0x00], 64, 1, 0xc0, false, X32 ||| X64, REG_DST, NO_PREFIXF, 2, 5⟩]

/-- `InstrTableV2[240..]`: H/InstrTableV2.h. -/
def instrRows6 : List Instr := [
  ⟨['v', 'p', 's', 'h', 'u', 'f', 'd'], [.R_ZMM, .M_ANY, .IMM8, .OP_N, .OP_N], EVX0, F_MODRMF ||| F_MODRM_REGF ||| IMM8_ONLYF, VEXF ||| VEX_WIGF ||| VEX_66F ||| VEX_0FF ||| VEX_2OPNDF ||| EVEXF, EVEX_ONLYF ||| EVEX_W0F ||| EVEX_BRDF ||| EVEX_MASKF ||| EVEX_ZF,
    16, 1, [0x70, 0x00, 0x00, 0x00], 64, 1, 0x00, false, X32 ||| X64, REG_DST, NO_PREFIXF, 2, 1⟩,
  ⟨['v', 'g', 'a', 't', 'h', 'e', 'r', 'd', 'p', 's'], [.R_XMM, .M_ANY, .R_XMM, .OP_N, .OP_N], AVX0, F_MODRMF ||| F_MODRM_REGF, VEXF ||| VEX_66F ||| VEX_0F38F ||| VEX_DDSF ||| VEX_VSIBF, NO_FLAGSF,
    4, 1, [0x92, 0x00, 0x00, 0x00], 16, 2, 0x00, false, X32 ||| X64, REG_DST, NO_PREFIXF, 4, 1⟩,
  ⟨['v', 'g', 'a', 't', 'h', 'e', 'r', 'd', 'p', 's'], [.R_YMM, .M_ANY, .R_YMM, .OP_N, .OP_N], AVX1, F_MODRMF ||| F_MODRM_REGF, VEXF ||| VEX_66F ||| VEX_0F38F ||| VEX_DDSF ||| VEX_VSIBF, NO_FLAGSF,
    8, 1, [0x92, 0x00, 0x00, 0x00], 32, 2, 0x00, false, X32 ||| X64, REG_DST, NO_PREFIXF, 4, 1⟩,
  ⟨['v', 'g', 'a', 't', 'h', 'e', 'r', 'd', 'p', 's'], [.R_ZMM, .M_ANY, .OP_N, .OP_N, .OP_N], EVX0, F_MODRMF ||| F_MODRM_REGF, VEXF ||| VEX_66F ||| VEX_0F38F ||| VEX_2OPNDF ||| VEX_VSIBF ||| EVEXF, EVEX_ONLYF ||| EVEX_W0F ||| EVEX_MASKF ||| EVEX_KF ||| EVEX_VSIBF,
    16, 1, [0x92, 0x00, 0x00, 0x00], 64, 1, 0x00, false, X32 ||| X64, REG_DST, NO_PREFIXF, 4, 1⟩,
  ⟨['v', 'g', 'a', 't', 'h', 'e', 'r', 'd', 'p', 's'], [.R_XMM, .M_ANY, .OP_N, .OP_N, .OP_N], EVX0, F_MODRMF ||| F_MODRM_REGF, VEXF ||| VEX_66F ||| VEX_0F38F ||| VEX_2OPNDF ||| VEX_VSIBF ||| EVEXF, EVEX_ONLYF ||| EVEX_W0F ||| EVEX_MASKF ||| EVEX_KF ||| EVEX_VSIBF,
    4, 1, [0x92, 0x00, 0x00, 0x00], 16, 1, 0x00, false, X32 ||| X64, REG_DST, NO_PREFIXF, 4, 1⟩,
  ⟨['v', 'g', 'a', 't', 'h', 'e', 'r', 'd', 'p', 's'], [.R_YMM, .M_ANY, .OP_N, .OP_N, .OP_N], EVX0, F_MODRMF ||| F_MODRM_REGF, VEXF ||| VEX_66F ||| VEX_0F38F ||| VEX_2OPNDF ||| VEX_VSIBF ||| EVEXF, EVEX_ONLYF ||| EVEX_W0F ||| EVEX_MASKF ||| EVEX_KF ||| EVEX_VSIBF,
    8, 1, [0x92, 0x00, 0x00, 0x00], 32, 1, 0x00, false, X32 ||| X64, REG_DST, NO_PREFIXF, 4, 1⟩,
  ⟨['v', 'b', 'l', 'e', 'n', 'd', 'v', 'p', 's'], [.R_XMM, .R_XMM, .R_XMM, .R_XMM, .OP_N], AVX0, F_MODRMF ||| F_MODRM_REGF ||| F_MODRM_RMF ||| IMM8_ONLYF, VEXF ||| VEX_W0F ||| VEX_66F ||| VEX_0F3AF ||| VEX_NDSF ||| VEX_4OPNDF, NO_FLAGSF,
    4, 1, [0x4a, 0x00, 0x00, 0x00], 16, 2, 0xc0, false, X32 ||| X64, REG_DST, NO_PREFIXF, 3, 5⟩,
  ⟨['v', 'b', 'l', 'e', 'n', 'd', 'v', 'p', 's'], [.R_XMM, .R_XMM, .M_ANY, .R_XMM, .OP_N], AVX0, F_MODRMF ||| F_MODRM_REGF ||| IMM8_ONLYF, VEXF ||| VEX_W0F ||| VEX_66F ||| VEX_0F3AF ||| VEX_NDSF ||| VEX_4OPNDF, NO_FLAGSF,
    4, 1, [0x4a, 0x00, 0x00, 0x00], 16, 2, 0x00, false, X32 ||| X64, REG_DST, NO_PREFIXF, 3, 2⟩,
  ⟨['v', 'b', 'l', 'e', 'n', 'd', 'v', 'p', 's'], [.R_YMM, .R_YMM, .R_YMM, .R_YMM, .OP_N], AVX1, F_MODRMF ||| F_MODRM_REGF ||| F_MODRM_RMF ||| IMM8_ONLYF, VEXF ||| VEX_W0F ||| VEX_66F ||| VEX_0F3AF ||| VEX_NDSF ||| VEX_4OPNDF, NO_FLAGSF,
    8, 1, [0x4a, 0x00, 0x00, 0x00], 32, 2, 0xc0, false, X32 ||| X64, REG_DST, NO_PREFIXF, 3, 5⟩,
  ⟨['v', 'b', 'l', 'e', 'n', 'd', 'v', 'p', 's'], [.R_YMM, .R_YMM, .M_ANY, .R_YMM, .OP_N], AVX1, F_MODRMF ||| F_MODRM_REGF ||| IMM8_ONLYF, VEXF ||| VEX_W0F ||| VEX_66F ||| VEX_0F3AF ||| VEX_NDSF ||| VEX_4OPNDF, NO_FLAGSF,
    8, 1, [0x4a, 0x00, 0x00, 0x00], 32, 2, 0x00, false, X32 ||| X64, REG_DST, NO_PREFIXF, 3, 2⟩,
  ⟨['v', 'm', 'p', 's', 'a', 'd', 'b', 'w'], [.R_XMM, .R_XMM, .R_XMM, .IMM8, .OP_N], AVX0, F_MODRMF ||| F_MODRM_REGF ||| F_MODRM_RMF ||| IMM8_ONLYF, VEXF ||| VEX_WIGF ||| VEX_66F ||| VEX_0F3AF ||| VEX_NDSF, NO_FLAGSF,
    4, 1, [0x42, 0x00, 0x00, 0x00], 16, 2, 0xc0, false, X32 ||| X64, REG_DST, NO_PREFIXF, 3, 5⟩,
  ⟨['v', 'm', 'p', 's', 'a', 'd', 'b', 'w'], [.R_XMM, .R_XMM, .M_ANY, .IMM8, .OP_N], AVX0, F_MODRMF ||| F_MODRM_REGF ||| IMM8_ONLYF, VEXF ||| VEX_WIGF ||| VEX_66F ||| VEX_0F3AF ||| VEX_NDSF, NO_FLAGSF,
    4, 1, [0x42, 0x00, 0x00, 0x00], 16, 2, 0x00, false, X32 ||| X64, REG_DST, NO_PREFIXF, 3, 2⟩,
  ⟨['v', 'm', 'p', 's', 'a', 'd', 'b', 'w'], [.R_YMM, .R_YMM, .R_YMM, .IMM8, .OP_N], AVX1, F_MODRMF ||| F_MODRM_REGF ||| F_MODRM_RMF ||| IMM8_ONLYF, VEXF ||| VEX_WIGF ||| VEX_66F ||| VEX_0F3AF ||| VEX_NDSF, NO_FLAGSF,
    8, 1, [0x42, 0x00, 0x00, 0x00], 32, 2, 0xc0, false, X32 ||| X64, REG_DST, NO_PREFIXF, 3, 5⟩,
  ⟨['v', 'm', 'p', 's', 'a', 'd', 'b', 'w'], [.R_YMM, .R_YMM, .M_ANY, .IMM8, .OP_N], AVX1, F_MODRMF ||| F_MODRM_REGF ||| IMM8_ONLYF, VEXF ||| VEX_WIGF ||| VEX_66F ||| VEX_0F3AF ||| VEX_NDSF, NO_FLAGSF,
    8, 1, [0x42, 0x00, 0x00, 0x00], 32, 2, 0x00, false, X32 ||| X64, REG_DST, NO_PREFIXF, 3, 2⟩,
  ⟨['v', 'm', 'p', 's', 'a', 'd', 'b', 'w'], [.R_XMM, .R_XMM, .IMM8, .OP_N, .OP_N], AVX0, F_MODRMF ||| F_MODRM_REGF ||| F_MODRM_RMF ||| IMM8_ONLYF, VEXF ||| VEX_WIGF ||| VEX_66F ||| VEX_0F3AF ||| VEX_DUP_NDSF, NO_FLAGSF,
    4, 1, [0x42, 0x00, 0x00, 0x00], 16, 1, 0xc0, false, X32 ||| X64, REG_DST, NO_PREFIXF, 2, 5⟩,
  ⟨['v', 'm', 'p', 's', 'a', 'd', 'b', 'w'], [.R_YMM, .R_YMM, .IMM8, .OP_N, .OP_N], AVX1, F_MODRMF ||| F_MODRM_REGF ||| F_MODRM_RMF ||| IMM8_ONLYF, VEXF ||| VEX_WIGF ||| VEX_66F ||| VEX_0F3AF ||| VEX_DUP_NDSF, NO_FLAGSF,
    8, 1, [0x42, 0x00, 0x00, 0x00], 32, 1, 0xc0, false, X32 ||| X64, REG_DST, NO_PREFIXF, 2, 5⟩,
  ⟨['v', 'p', 'm', 'o', 'v', 'z', 'x', 'b', 'q'], [.R_XMM, .R_XMM, .OP_N, .OP_N, .OP_N], AVX0, F_MODRMF ||| F_MODRM_REGF ||| F_MODRM_RMF, VEXF ||| VEX_WIGF ||| VEX_66F ||| VEX_0F38F ||| VEX_2OPNDF ||| EVEXF, EVEX_MASKF ||| EVEX_ZF,
    2, 1, [0x32, 0x00, 0x00, 0x00], 16, 1, 0xc0, false, X32 ||| X64, REG_DST, NO_PREFIXF, 4, 5⟩,
  ⟨['v', 'p', 'm', 'o', 'v', 'z', 'x', 'b', 'q'], [.R_XMM, .M_ANY, .OP_N, .OP_N, .OP_N], AVX0, F_MODRMF ||| F_MODRM_REGF, VEXF ||| VEX_WIGF ||| VEX_66F ||| VEX_0F38F ||| VEX_2OPNDF ||| EVEXF, EVEX_MASKF ||| EVEX_ZF,
    2, 1, [0x32, 0x00, 0x00, 0x00], 16, 1, 0x00, false, X32 ||| X64, REG_DST, NO_PREFIXF, 4, 1⟩,
  ⟨['v', 'p', 'm', 'o', 'v', 'z', 'x', 'b', 'q'], [.R_YMM, .R_XMM, .OP_N, .OP_N, .OP_N], AVX1, F_MODRMF ||| F_MODRM_REGF ||| F_MODRM_RMF, VEXF ||| VEX_WIGF ||| VEX_66F ||| VEX_0F38F ||| VEX_2OPNDF ||| EVEXF, EVEX_MASKF ||| EVEX_ZF,
    4, 1, [0x32, 0x00, 0x00, 0x00], 32, 1, 0xc0, false, X32 ||| X64, REG_DST, NO_PREFIXF, 4, 5⟩,
  ⟨['v', 'p', 'm', 'o', 'v', 'z', 'x', 'b', 'q'], [.R_YMM, .M_ANY, .OP_N, .OP_N, .OP_N], AVX1, F_MODRMF ||| F_MODRM_REGF, VEXF ||| VEX_WIGF ||| VEX_66F ||| VEX_0F38F ||| VEX_2OPNDF ||| EVEXF, EVEX_MASKF ||| EVEX_ZF,
    4, 1, [0x32, 0x00, 0x00, 0x00], 32, 1, 0x00, false, X32 ||| X64, REG_DST, NO_PREFIXF, 4, 1⟩,
  ⟨['v', 'p', 'm', 'o', 'v', 'z', 'x', 'b', 'q'], [.R_ZMM, .R_XMM, .OP_N, .OP_N, .OP_N], EVX0, F_MODRMF ||| F_MODRM_REGF ||| F_MODRM_RMF, VEXF ||| VEX_WIGF ||| VEX_66F ||| VEX_0F38F ||| VEX_2OPNDF ||| EVEXF, EVEX_ONLYF ||| EVEX_MASKF ||| EVEX_ZF,
    8, 1, [0x32, 0x00, 0x00, 0x00], 64, 1, 0xc0, false, X32 ||| X64, REG_DST, NO_PREFIXF, 4, 5⟩,
  ⟨['v', 'p', 'm', 'o', 'v', 'z', 'x', 'b', 'q'], [.R_ZMM, .M_ANY, .OP_N, .OP_N, .OP_N], EVX0, F_MODRMF ||| F_MODRM_REGF, VEXF ||| VEX_WIGF ||| VEX_66F ||| VEX_0F38F ||| VEX_2OPNDF ||| EVEXF, EVEX_ONLYF ||| EVEX_MASKF ||| EVEX_ZF,
    8, 1, [0x32, 0x00, 0x00, 0x00], 64, 1, 0x00, false, X32 ||| X64, REG_DST, NO_PREFIXF, 4, 1⟩,
  ⟨['v', 'b', 'r', 'o', 'a', 'd', 'c', 'a', 's', 't', 's', 'd'], [.R_YMM, .M_ANY, .OP_N, .OP_N, .OP_N], AVX1, F_MODRMF ||| F_MODRM_REGF, VEXF ||| VEX_W0F ||| VEX_66F ||| VEX_0F38F ||| VEX_2OPNDF ||| EVEXF, EVEX_W1F ||| EVEX_MASKF ||| EVEX_ZF,
    8, 1, [0x19, 0x00, 0x00, 0x00], 32, 1, 0x00, false, X32 ||| X64, REG_DST, NO_PREFIXF, 4, 1⟩,
  ⟨['v', 'b', 'r', 'o', 'a', 'd', 'c', 'a', 's', 't', 's', 'd'], [.R_YMM, .R_XMM, .OP_N, .OP_N, .OP_N], AVX1, F_MODRMF ||| F_MODRM_REGF ||| F_MODRM_RMF, VEXF ||| VEX_W0F ||| VEX_66F ||| VEX_0F38F ||| VEX_2OPNDF ||| EVEXF, EVEX_W1F ||| EVEX_MASKF ||| EVEX_ZF,
    8, 1, [0x19, 0x00, 0x00, 0x00], 32, 1, 0xc0, false, X32 ||| X64, REG_DST, NO_PREFIXF, 4, 5⟩,
  ⟨['v', 'b', 'r', 'o', 'a', 'd', 'c', 'a', 's', 't', 's', 'd'], [.R_ZMM, .R_XMM, .OP_N, .OP_N, .OP_N], EVX0, F_MODRMF ||| F_MODRM_REGF ||| F_MODRM_RMF, VEXF ||| VEX_W0F ||| VEX_66F ||| VEX_0F38F ||| VEX_2OPNDF ||| EVEXF, EVEX_ONLYF ||| EVEX_W1F ||| EVEX_MASKF ||| EVEX_ZF,
    8, 1, [0x19, 0x00, 0x00, 0x00], 64, 1, 0xc0, false, X32 ||| X64, REG_DST, NO_PREFIXF, 4, 5⟩,
  ⟨['v', 'b', 'r', 'o', 'a', 'd', 'c', 'a', 's', 't', 's', 'd'], [.R_ZMM, .M_ANY, .OP_N, .OP_N, .OP_N], EVX0, F_MODRMF ||| F_MODRM_REGF, VEXF ||| VEX_W0F ||| VEX_66F ||| VEX_0F38F ||| VEX_2OPNDF ||| EVEXF, EVEX_ONLYF ||| EVEX_W1F ||| EVEX_MASKF ||| EVEX_ZF,
    8, 1, [0x19, 0x00, 0x00, 0x00], 64, 1, 0x00, false, X32 ||| X64, REG_DST, NO_PREFIXF, 4, 1⟩,
  ⟨['v', 'b', 'l', 'e', 'n', 'd', 'm', 'p', 'd'], [.R_XMM, .R_XMM, .R_XMM, .OP_N, .OP_N], EVX0, F_MODRMF ||| F_MODRM_REGF ||| F_MODRM_RMF, VEXF ||| VEX_W0F ||| VEX_66F ||| VEX_0F38F ||| VEX_NDSF ||| EVEXF, EVEX_ONLYF ||| EVEX_W1F ||| EVEX_MASKF ||| EVEX_ZF,
    2, 1, [0x65, 0x00, 0x00, 0x00], 16, 2, 0xc0, false, X32 ||| X64, REG_DST, NO_PREFIXF, 4, 5⟩,
  ⟨['v', 'b', 'l', 'e', 'n', 'd', 'm', 'p', 'd'], [.R_YMM, .R_YMM, .R_YMM, .OP_N, .OP_N], EVX0, F_MODRMF ||| F_MODRM_REGF ||| F_MODRM_RMF, VEXF ||| VEX_W0F ||| VEX_66F ||| VEX_0F38F ||| VEX_NDSF ||| EVEXF, EVEX_ONLYF ||| EVEX_W1F ||| EVEX_MASKF ||| EVEX_ZF,
    4, 1, [0x65, 0x00, 0x00, 0x00], 32, 2, 0xc0, false, X32 ||| X64, REG_DST, NO_PREFIXF, 4, 5⟩,
  ⟨['v', 'b', 'l', 'e', 'n', 'd', 'm', 'p', 'd'], [.R_ZMM, .R_ZMM, .R_ZMM, .OP_N, .OP_N], EVX0, F_MODRMF ||| F_MODRM_REGF ||| F_MODRM_RMF, VEXF ||| VEX_W0F ||| VEX_66F ||| VEX_0F38F ||| VEX_NDSF ||| EVEXF, EVEX_ONLYF ||| EVEX_W1F ||| EVEX_MASKF ||| EVEX_ZF,
    8, 1, [0x65, 0x00, 0x00, 0x00], 64, 2, 0xc0, false, X32 ||| X64, REG_DST, NO_PREFIXF, 4, 5⟩,
  ⟨['v', 'b', 'l', 'e', 'n', 'd', 'm', 'p', 'd'], [.R_XMM, .R_XMM, .M_ANY, .OP_N, .OP_N], EVX0, F_MODRMF ||| F_MODRM_REGF, VEXF ||| VEX_W0F ||| VEX_66F ||| VEX_0F38F ||| VEX_NDSF ||| EVEXF, EVEX_ONLYF ||| EVEX_W1F ||| EVEX_BRDF ||| EVEX_MASKF ||| EVEX_ZF,
    2, 1, [0x65, 0x00, 0x00, 0x00], 16, 2, 0x00, false, X32 ||| X64, REG_DST, NO_PREFIXF, 4, 2⟩,
  ⟨['v', 'b', 'l', 'e', 'n', 'd', 'm', 'p', 'd'], [.R_YMM, .R_YMM, .M_ANY, .OP_N, .OP_N], EVX0, F_MODRMF ||| F_MODRM_REGF, VEXF ||| VEX_W0F ||| VEX_66F ||| VEX_0F38F ||| VEX_NDSF ||| EVEXF, EVEX_ONLYF ||| EVEX_W1F ||| EVEX_BRDF ||| EVEX_MASKF ||| EVEX_ZF,
    4, 1, [0x65, 0x00, 0x00, 0x00], 32, 2, 0x00, false, X32 ||| X64, REG_DST, NO_PREFIXF, 4, 2⟩,
  ⟨['v', 'b', 'l', 'e', 'n', 'd', 'm', 'p', 'd'], [.R_ZMM, .R_ZMM, .M_ANY, .OP_N, .OP_N], EVX0, F_MODRMF ||| F_MODRM_REGF, VEXF ||| VEX_W0F ||| VEX_66F ||| VEX_0F38F ||| VEX_NDSF ||| EVEXF, EVEX_ONLYF ||| EVEX_W1F ||| EVEX_BRDF ||| EVEX_MASKF ||| EVEX_ZF,
    8, 1, [0x65, 0x00, 0x00, 0x00], 64, 2, 0x00, false, X32 ||| X64, REG_DST, NO_PREFIXF, 4, 2⟩,
  ⟨['v', 'c', 'v', 't', 'd', 'q', '2', 'p', 'd'], [.R_XMM, .R_XMM, .OP_N, .OP_N, .OP_N], AVX0, F_MODRMF ||| F_MODRM_REGF ||| F_MODRM_RMF, VEXF ||| VEX_WIGF ||| VEX_F3F ||| VEX_0FF ||| VEX_2OPNDF ||| EVEXF, EVEX_W0F ||| EVEX_MASKF ||| EVEX_ZF,
    2, 1, [0xe6, 0x00, 0x00, 0x00], 16, 1, 0xc0, false, X32 ||| X64, REG_DST, NO_PREFIXF, 4, 5⟩,
  ⟨['v', 'c', 'v', 't', 'd', 'q', '2', 'p', 'd'], [.R_XMM, .M_ANY, .OP_N, .OP_N, .OP_N], AVX0, F_MODRMF ||| F_MODRM_REGF, VEXF ||| VEX_WIGF ||| VEX_F3F ||| VEX_0FF ||| VEX_2OPNDF ||| EVEXF, EVEX_W0F ||| EVEX_BRDF ||| EVEX_MASKF ||| EVEX_ZF,
    2, 1, [0xe6, 0x00, 0x00, 0x00], 16, 1, 0x00, false, X32 ||| X64, REG_DST, NO_PREFIXF, 4, 1⟩,
  ⟨['v', 'c', 'v', 't', 'd', 'q', '2', 'p', 'd'], [.R_YMM, .R_XMM, .OP_N, .OP_N, .OP_N], AVX1, F_MODRMF ||| F_MODRM_REGF ||| F_MODRM_RMF, VEXF ||| VEX_WIGF ||| VEX_F3F ||| VEX_0FF ||| VEX_2OPNDF ||| EVEXF, EVEX_W0F ||| EVEX_MASKF ||| EVEX_ZF,
    4, 1, [0xe6, 0x00, 0x00, 0x00], 32, 1, 0xc0, false, X32 ||| X64, REG_DST, NO_PREFIXF, 4, 5⟩,
  ⟨['v', 'c', 'v', 't', 'd', 'q', '2', 'p', 'd'], [.R_YMM, .M_ANY, .OP_N, .OP_N, .OP_N], AVX1, F_MODRMF ||| F_MODRM_REGF, VEXF ||| VEX_WIGF ||| VEX_F3F ||| VEX_0FF ||| VEX_2OPNDF ||| EVEXF, EVEX_W0F ||| EVEX_BRDF ||| EVEX_MASKF ||| EVEX_ZF,
    4, 1, [0xe6, 0x00, 0x00, 0x00], 32, 1, 0x00, false, X32 ||| X64, REG_DST, NO_PREFIXF, 4, 1⟩,
  ⟨['v', 'c', 'v', 't', 'd', 'q', '2', 'p', 'd'], [.R_ZMM, .R_YMM, .OP_N, .OP_N, .OP_N], EVX0, F_MODRMF ||| F_MODRM_REGF ||| F_MODRM_RMF, VEX_F3F ||| VEX_0FF ||| VEX_2OPNDF ||| EVEXF, EVEX_ONLYF ||| EVEX_W0F ||| EVEX_MASKF ||| EVEX_ZF,
    8, 1, [0xe6, 0x00, 0x00, 0x00], 64, 1, 0xc0, false, X32 ||| X64, REG_DST, NO_PREFIXF, 4, 5⟩,
  ⟨['v', 'c', 'v', 't', 'd', 'q', '2', 'p', 'd'], [.R_ZMM, .M_ANY, .OP_N, .OP_N, .OP_N], EVX0, F_MODRMF ||| F_MODRM_REGF, VEX_F3F ||| VEX_0FF ||| VEX_2OPNDF ||| EVEXF, EVEX_ONLYF ||| EVEX_W0F ||| EVEX_BRDF ||| EVEX_MASKF ||| EVEX_ZF,
    8, 1, [0xe6, 0x00, 0x00, 0x00], 64, 1, 0x00, false, X32 ||| X64, REG_DST, NO_PREFIXF, 4, 1⟩,
  ⟨['v', 'c', 'v', 't', 'd', 'q', '2', 'p', 'd'], [.R_ZMM, .M256, .OP_N, .OP_N, .OP_N], EVX0, F_MODRMF ||| F_MODRM_REGF, VEX_F3F ||| VEX_0FF ||| VEX_2OPNDF ||| EVEXF, EVEX_ONLYF ||| EVEX_W0F ||| EVEX_MASKF ||| EVEX_ZF,
    2, 1, [0xe6, 0x00, 0x00, 0x00], 64, 1, 0x00, false, X32 ||| X64, REG_DST, NO_PREFIXF, 4, 1⟩,
  ⟨['v', 'c', 'v', 't', 's', 'i', '2', 's', 's'], [.R_XMM, .R_XMM, .R32, .OP_N, .OP_N], AVX0, F_MODRMF ||| F_MODRM_REGF ||| F_MODRM_RMF, VEXF ||| VEX_W0F ||| VEX_F3F ||| VEX_0FF ||| VEX_LIGF ||| VEX_NDSF ||| EVEXF, EVEX_W0F ||| EVEX_RNDF,
    4, 1, [0x2a, 0x00, 0x00, 0x00], 16, 2, 0xc0, false, X32 ||| X64, REG_DST, NO_PREFIXF, 4, 5⟩]

/-- `InstrTableV2[280..]`: H/InstrTableV2.h. -/
def instrRows7 : List Instr := [
  ⟨['v', 'c', 'v', 't', 's', 'i', '2', 's', 's'], [.R_XMM, .R_XMM, .R32E, .OP_N, .OP_N], AVX0, F_MODRMF ||| F_MODRM_REGF ||| F_MODRM_RMF, VEXF ||| VEX_W0F ||| VEX_F3F ||| VEX_0FF ||| VEX_LIGF ||| VEX_NDSF ||| EVEXF, EVEX_W0F ||| EVEX_RNDF,
    4, 1, [0x2a, 0x00, 0x00, 0x00], 16, 2, 0xc0, false, X32 ||| X64, REG_DST, NO_PREFIXF, 4, 5⟩,
  ⟨['v', 'c', 'v', 't', 's', 'i', '2', 's', 's'], [.R_XMM, .R_XMM, .M32, .OP_N, .OP_N], AVX0, F_MODRMF ||| F_MODRM_REGF, VEXF ||| VEX_W0F ||| VEX_F3F ||| VEX_0FF ||| VEX_LIGF ||| VEX_NDSF ||| EVEXF, EVEX_W0F,
    4, 1, [0x2a, 0x00, 0x00, 0x00], 16, 2, 0x00, false, X32 ||| X64, REG_DST, NO_PREFIXF, 4, 2⟩,
  ⟨['v', 'c', 'v', 't', 's', 'i', '2', 's', 's'], [.R_XMM, .R_XMM, .R64, .OP_N, .OP_N], AVX0, F_MODRMF ||| F_MODRM_REGF ||| F_MODRM_RMF, VEXF ||| VEX_W1F ||| VEX_F3F ||| VEX_0FF ||| VEX_LIGF ||| VEX_NDSF ||| EVEXF, EVEX_W1F ||| EVEX_RNDF,
    2, 1, [0x2a, 0x00, 0x00, 0x00], 16, 2, 0xc0, false, X32 ||| X64, REG_DST, NO_PREFIXF, 4, 5⟩,
  ⟨['v', 'c', 'v', 't', 's', 'i', '2', 's', 's'], [.R_XMM, .R_XMM, .R64E, .OP_N, .OP_N], AVX0, F_MODRMF ||| F_MODRM_REGF ||| F_MODRM_RMF, VEXF ||| VEX_W1F ||| VEX_F3F ||| VEX_0FF ||| VEX_LIGF ||| VEX_NDSF ||| EVEXF, EVEX_W1F ||| EVEX_RNDF,
    2, 1, [0x2a, 0x00, 0x00, 0x00], 16, 2, 0xc0, false, X32 ||| X64, REG_DST, NO_PREFIXF, 4, 5⟩,
  ⟨['v', 'c', 'v', 't', 's', 'i', '2', 's', 's'], [.R_XMM, .R_XMM, .M64, .OP_N, .OP_N], AVX0, F_MODRMF ||| F_MODRM_REGF, VEXF ||| VEX_W1F ||| VEX_F3F ||| VEX_0FF ||| VEX_LIGF ||| VEX_NDSF ||| EVEXF, EVEX_W1F,
    2, 1, [0x2a, 0x00, 0x00, 0x00], 16, 2, 0x00, false, X32 ||| X64, REG_DST, NO_PREFIXF, 4, 2⟩,
  ⟨['v', 'c', 'v', 't', 's', 'i', '2', 's', 's'], [.R_XMM, .R_XMM, .M_ANY, .OP_N, .OP_N], AVX0, F_MODRMF ||| F_MODRM_REGF, VEXF ||| VEX_W0F ||| VEX_F3F ||| VEX_0FF ||| VEX_LIGF ||| VEX_NDSF ||| EVEXF, EVEX_W0F,
    4, 1, [0x2a, 0x00, 0x00, 0x00], 16, 2, 0x00, false, X32 ||| X64, REG_DST, NO_PREFIXF, 4, 2⟩,
  ⟨['c', 'v', 't', 's', 'i', '2', 's', 's'], [.R_XMM, .R32, .OP_N, .OP_N, .OP_N], SSE0, F_MODRMF ||| F_MODRM_REGF ||| F_MODRM_RMF ||| EREXF, NO_FLAGSF, NO_FLAGSF,
    4, 1, [0x2a, 0x00, 0x00, 0x00], 16, 1, 0xc0, false, X32 ||| X64, REG_DST, PFX_0xF30F, 4, 5⟩,
  ⟨['c', 'v', 't', 's', 'i', '2', 's', 's'], [.R_XMM, .M32, .OP_N, .OP_N, .OP_N], SSE0, F_MODRMF ||| F_MODRM_REGF ||| EREXF, NO_FLAGSF, NO_FLAGSF,
    4, 1, [0x2a, 0x00, 0x00, 0x00], 16, 1, 0x00, false, X32 ||| X64, REG_DST, PFX_0xF30F, 4, 1⟩,
  ⟨['c', 'v', 't', 's', 'i', '2', 's', 's'], [.R_XMM, .M_ANY, .OP_N, .OP_N, .OP_N], SSE0, F_MODRMF ||| F_MODRM_REGF ||| EREXF, NO_FLAGSF, NO_FLAGSF,
    4, 1, [0x2a, 0x00, 0x00, 0x00], 16, 1, 0x00, false, X32 ||| X64, REG_DST, PFX_0xF30F, 4, 1⟩,
  ⟨['c', 'v', 't', 's', 'i', '2', 's', 's'], [.R_XMM, .R64, .OP_N, .OP_N, .OP_N], SSE0, REXF ||| REXWF ||| F_MODRMF ||| F_MODRM_REGF ||| F_MODRM_RMF ||| EREXF, NO_FLAGSF, NO_FLAGSF,
    2, 1, [0x2a, 0x00, 0x00, 0x00], 16, 1, 0xc0, false, X64, REG_DST, PFX_0xF30F, 4, 5⟩,
  ⟨['c', 'v', 't', 's', 'i', '2', 's', 's'], [.R_XMM, .M64, .OP_N, .OP_N, .OP_N], SSE0, REXF ||| REXWF ||| F_MODRMF ||| F_MODRM_REGF ||| EREXF, NO_FLAGSF, NO_FLAGSF,
    2, 1, [0x2a, 0x00, 0x00, 0x00], 16, 1, 0x00, false, X32 ||| X64, REG_DST, PFX_0xF30F, 4, 1⟩,
  ⟨['c', 'v', 't', 's', 'i', '2', 's', 's'], [.R_XMM, .R32E, .OP_N, .OP_N, .OP_N], SSE0, F_MODRMF ||| F_MODRM_REGF ||| F_MODRM_RMF ||| EREXF, NO_FLAGSF, NO_FLAGSF,
    4, 1, [0x2a, 0x00, 0x00, 0x00], 16, 1, 0xc0, false, X32 ||| X64, REG_DST, PFX_0xF30F, 4, 5⟩,
  ⟨['c', 'v', 't', 's', 'i', '2', 's', 's'], [.R_XMM, .R64E, .OP_N, .OP_N, .OP_N], SSE0, REXF ||| REXWF ||| F_MODRMF ||| F_MODRM_REGF ||| F_MODRM_RMF ||| EREXF, NO_FLAGSF, NO_FLAGSF,
    4, 1, [0x2a, 0x00, 0x00, 0x00], 16, 1, 0xc0, false, X32 ||| X64, REG_DST, PFX_0xF30F, 4, 5⟩,
  ⟨['v', 'm', 'o', 'v', 'd', 'q', 'a'], [.R_XMM, .R_XMME, .OP_N, .OP_N, .OP_N], AVX0, F_MODRMF ||| F_MODRM_REGF ||| F_MODRM_RMF, VEXF ||| VEX_WIGF ||| VEX_66F ||| VEX_0FF ||| VEX_2OPNDF, NO_FLAGSF,
    1, 1, [0x7f, 0x00, 0x00, 0x00], 16, 1, 0xc0, false, X32 ||| X64, RM_DST, NO_PREFIXF, 4, 5⟩,
  ⟨['v', 'm', 'o', 'v', 'd', 'q', 'a'], [.R_XMM, .R_XMM, .OP_N, .OP_N, .OP_N], AVX0, F_MODRMF ||| F_MODRM_REGF ||| F_MODRM_RMF, VEXF ||| VEX_WIGF ||| VEX_66F ||| VEX_0FF ||| VEX_2OPNDF, NO_FLAGSF,
    1, 1, [0x6f, 0x00, 0x00, 0x00], 16, 1, 0xc0, false, X32 ||| X64, REG_DST, NO_PREFIXF, 4, 5⟩,
  ⟨['v', 'm', 'o', 'v', 'd', 'q', 'a'], [.R_XMM, .M_ANY, .OP_N, .OP_N, .OP_N], AVX0, F_MODRMF ||| F_MODRM_REGF, VEXF ||| VEX_WIGF ||| VEX_66F ||| VEX_0FF ||| VEX_2OPNDF, NO_FLAGSF,
    1, 1, [0x6f, 0x00, 0x00, 0x00], 16, 1, 0x00, false, X32 ||| X64, REG_DST, NO_PREFIXF, 4, 1⟩,
  ⟨['v', 'm', 'o', 'v', 'd', 'q', 'a'], [.M_ANY, .R_XMM, .OP_N, .OP_N, .OP_N], AVX0, F_MODRMF ||| F_MODRM_REGF, VEXF ||| VEX_WIGF ||| VEX_66F ||| VEX_0FF ||| VEX_2OPNDF, NO_FLAGSF,
    1, 1, [0x7f, 0x00, 0x00, 0x00], 16, 1, 0x00, false, X32 ||| X64, RM_DST, NO_PREFIXF, 4, 0⟩,
  ⟨['v', 'm', 'o', 'v', 'd', 'q', 'a'], [.R_YMM, .R_YMME, .OP_N, .OP_N, .OP_N], AVX1, F_MODRMF ||| F_MODRM_REGF ||| F_MODRM_RMF, VEXF ||| VEX_WIGF ||| VEX_66F ||| VEX_0FF ||| VEX_2OPNDF, NO_FLAGSF,
    1, 1, [0x7f, 0x00, 0x00, 0x00], 32, 1, 0xc0, false, X32 ||| X64, RM_DST, NO_PREFIXF, 4, 5⟩,
  ⟨['v', 'm', 'o', 'v', 'd', 'q', 'a'], [.R_YMM, .R_YMM, .OP_N, .OP_N, .OP_N], AVX1, F_MODRMF ||| F_MODRM_REGF ||| F_MODRM_RMF, VEXF ||| VEX_WIGF ||| VEX_66F ||| VEX_0FF ||| VEX_2OPNDF, NO_FLAGSF,
    1, 1, [0x6f, 0x00, 0x00, 0x00], 32, 1, 0xc0, false, X32 ||| X64, REG_DST, NO_PREFIXF, 4, 5⟩,
  ⟨['v', 'm', 'o', 'v', 'd', 'q', 'a'], [.R_YMM, .M_ANY, .OP_N, .OP_N, .OP_N], AVX1, F_MODRMF ||| F_MODRM_REGF, VEXF ||| VEX_WIGF ||| VEX_66F ||| VEX_0FF ||| VEX_2OPNDF, NO_FLAGSF,
    1, 1, [0x6f, 0x00, 0x00, 0x00], 32, 1, 0x00, false, X32 ||| X64, REG_DST, NO_PREFIXF, 4, 1⟩,
  ⟨['v', 'm', 'o', 'v', 'd', 'q', 'a'], [.M_ANY, .R_YMM, .OP_N, .OP_N, .OP_N], AVX1, F_MODRMF ||| F_MODRM_REGF, VEXF ||| VEX_WIGF ||| VEX_66F ||| VEX_0FF ||| VEX_2OPNDF, NO_FLAGSF,
    1, 1, [0x7f, 0x00, 0x00, 0x00], 32, 1, 0x00, false, X32 ||| X64, RM_DST, NO_PREFIXF, 4, 0⟩,
  ⟨['v', 'm', 'o', 'v', 'd', 'q', 'a', '3', '2'], [.R_XMM, .R_XMM, .OP_N, .OP_N, .OP_N], EVX0, F_MODRMF ||| F_MODRM_REGF ||| F_MODRM_RMF, VEX_66F ||| VEX_0FF ||| VEX_2OPNDF ||| EVEXF, EVEX_ONLYF ||| EVEX_W0F ||| EVEX_MASKF ||| EVEX_ZF,
    1, 1, [0x6f, 0x00, 0x00, 0x00], 16, 1, 0xc0, false, X32 ||| X64, REG_DST, NO_PREFIXF, 4, 5⟩,
  ⟨['v', 'm', 'o', 'v', 'd', 'q', 'a', '3', '2'], [.R_XMM, .M_ANY, .OP_N, .OP_N, .OP_N], EVX0, F_MODRMF ||| F_MODRM_REGF, VEX_66F ||| VEX_0FF ||| VEX_2OPNDF ||| EVEXF, EVEX_ONLYF ||| EVEX_W0F ||| EVEX_MASKF ||| EVEX_ZF,
    1, 1, [0x6f, 0x00, 0x00, 0x00], 16, 1, 0x00, false, X32 ||| X64, REG_DST, NO_PREFIXF, 4, 1⟩,
  ⟨['v', 'm', 'o', 'v', 'd', 'q', 'a', '3', '2'], [.M_ANY, .R_XMM, .OP_N, .OP_N, .OP_N], EVX0, F_MODRMF ||| F_MODRM_REGF, VEX_66F ||| VEX_0FF ||| VEX_2OPNDF ||| EVEXF, EVEX_ONLYF ||| EVEX_W0F ||| EVEX_MASKF ||| EVEX_ZF,
    1, 1, [0x7f, 0x00, 0x00, 0x00], 16, 1, 0x00, false, X32 ||| X64, RM_DST, NO_PREFIXF, 4, 0⟩,
  ⟨['v', 'm', 'o', 'v', 'd', 'q', 'a', '3', '2'], [.R_YMM, .R_YMM, .OP_N, .OP_N, .OP_N], EVX0, F_MODRMF ||| F_MODRM_REGF ||| F_MODRM_RMF, VEX_66F ||| VEX_0FF ||| VEX_2OPNDF ||| EVEXF, EVEX_ONLYF ||| EVEX_W0F ||| EVEX_MASKF ||| EVEX_ZF,
    1, 1, [0x6f, 0x00, 0x00, 0x00], 32, 1, 0xc0, false, X32 ||| X64, REG_DST, NO_PREFIXF, 4, 5⟩,
  ⟨['v', 'm', 'o', 'v', 'd', 'q', 'a', '3', '2'], [.R_YMM, .M_ANY, .OP_N, .OP_N, .OP_N], EVX0, F_MODRMF ||| F_MODRM_REGF, VEX_66F ||| VEX_0FF ||| VEX_2OPNDF ||| EVEXF, EVEX_ONLYF ||| EVEX_W0F ||| EVEX_MASKF ||| EVEX_ZF,
    1, 1, [0x6f, 0x00, 0x00, 0x00], 32, 1, 0x00, false, X32 ||| X64, REG_DST, NO_PREFIXF, 4, 1⟩,
  ⟨['v', 'm', 'o', 'v', 'd', 'q', 'a', '3', '2'], [.M_ANY, .R_YMM, .OP_N, .OP_N, .OP_N], EVX0, F_MODRMF ||| F_MODRM_REGF, VEX_66F ||| VEX_0FF ||| VEX_2OPNDF ||| EVEXF, EVEX_ONLYF ||| EVEX_W0F ||| EVEX_MASKF ||| EVEX_ZF,
    1, 1, [0x7f, 0x00, 0x00, 0x00], 32, 1, 0x00, false, X32 ||| X64, RM_DST, NO_PREFIXF, 4, 0⟩,
  ⟨['v', 'm', 'o', 'v', 'd', 'q', 'a', '3', '2'], [.R_ZMM, .R_ZMM, .OP_N, .OP_N, .OP_N], EVX0, F_MODRMF ||| F_MODRM_REGF ||| F_MODRM_RMF, VEX_66F ||| VEX_0FF ||| VEX_2OPNDF ||| EVEXF, EVEX_ONLYF ||| EVEX_W0F ||| EVEX_MASKF ||| EVEX_ZF,
    1, 1, [0x6f, 0x00, 0x00, 0x00], 64, 1, 0xc0, false, X32 ||| X64, REG_DST, NO_PREFIXF, 4, 5⟩,
  ⟨['v', 'm', 'o', 'v', 'd', 'q', 'a', '3', '2'], [.R_ZMM, .M_ANY, .OP_N, .OP_N, .OP_N], EVX0, F_MODRMF ||| F_MODRM_REGF, VEX_66F ||| VEX_0FF ||| VEX_2OPNDF ||| EVEXF, EVEX_ONLYF ||| EVEX_W0F ||| EVEX_MASKF ||| EVEX_ZF,
    1, 1, [0x6f, 0x00, 0x00, 0x00], 64, 1, 0x00, false, X32 ||| X64, REG_DST, NO_PREFIXF, 4, 1⟩,
  ⟨['v', 'm', 'o', 'v', 'd', 'q', 'a', '3', '2'], [.M_ANY, .R_ZMM, .OP_N, .OP_N, .OP_N], EVX0, F_MODRMF ||| F_MODRM_REGF, VEX_66F ||| VEX_0FF ||| VEX_2OPNDF ||| EVEXF, EVEX_ONLYF ||| EVEX_W0F ||| EVEX_MASKF ||| EVEX_ZF,
    1, 1, [0x7f, 0x00, 0x00, 0x00], 64, 1, 0x00, false, X32 ||| X64, RM_DST, NO_PREFIXF, 4, 0⟩,
  ⟨['v', 'm', 'o', 'v', 'd', 'q', 'a', '6', '4'], [.R_XMM, .R_XMM, .OP_N, .OP_N, .OP_N], EVX0, F_MODRMF ||| F_MODRM_REGF ||| F_MODRM_RMF, VEX_66F ||| VEX_0FF ||| VEX_2OPNDF ||| EVEXF, EVEX_ONLYF ||| EVEX_W1F ||| EVEX_MASKF ||| EVEX_ZF,
    1, 1, [0x6f, 0x00, 0x00, 0x00], 16, 1, 0xc0, false, X32 ||| X64, REG_DST, NO_PREFIXF, 4, 5⟩,
  ⟨['v', 'm', 'o', 'v', 'd', 'q', 'a', '6', '4'], [.R_XMM, .M_ANY, .OP_N, .OP_N, .OP_N], EVX0, F_MODRMF ||| F_MODRM_REGF, VEX_66F ||| VEX_0FF ||| VEX_2OPNDF ||| EVEXF, EVEX_ONLYF ||| EVEX_W1F ||| EVEX_MASKF ||| EVEX_ZF,
    1, 1, [0x6f, 0x00, 0x00, 0x00], 16, 1, 0x00, false, X32 ||| X64, REG_DST, NO_PREFIXF, 4, 1⟩,
  ⟨['v', 'm', 'o', 'v', 'd', 'q', 'a', '6', '4'], [.M_ANY, .R_XMM, .OP_N, .OP_N, .OP_N], EVX0, F_MODRMF ||| F_MODRM_REGF, VEX_66F ||| VEX_0FF ||| VEX_2OPNDF ||| EVEXF, EVEX_ONLYF ||| EVEX_W1F ||| EVEX_MASKF ||| EVEX_ZF,
    1, 1, [0x7f, 0x00, 0x00, 0x00], 16, 1, 0x00, false, X32 ||| X64, RM_DST, NO_PREFIXF, 4, 0⟩,
  ⟨['v', 'm', 'o', 'v', 'd', 'q', 'a', '6', '4'], [.R_YMM, .R_YMM, .OP_N, .OP_N, .OP_N], EVX0, F_MODRMF ||| F_MODRM_REGF ||| F_MODRM_RMF, VEX_66F ||| VEX_0FF ||| VEX_2OPNDF ||| EVEXF, EVEX_ONLYF ||| EVEX_W1F ||| EVEX_MASKF ||| EVEX_ZF,
    1, 1, [0x6f, 0x00, 0x00, 0x00], 32, 1, 0xc0, false, X32 ||| X64, REG_DST, NO_PREFIXF, 4, 5⟩,
  ⟨['v', 'm', 'o', 'v', 'd', 'q', 'a', '6', '4'], [.R_YMM, .M_ANY, .OP_N, .OP_N, .OP_N], EVX0, F_MODRMF ||| F_MODRM_REGF, VEX_66F ||| VEX_0FF ||| VEX_2OPNDF ||| EVEXF, EVEX_ONLYF ||| EVEX_W1F ||| EVEX_MASKF ||| EVEX_ZF,
    1, 1, [0x6f, 0x00, 0x00, 0x00], 32, 1, 0x00, false, X32 ||| X64, REG_DST, NO_PREFIXF, 4, 1⟩,
  ⟨['v', 'm', 'o', 'v', 'd', 'q', 'a', '6', '4'], [.M_ANY, .R_YMM, .OP_N, .OP_N, .OP_N], EVX0, F_MODRMF ||| F_MODRM_REGF, VEX_66F ||| VEX_0FF ||| VEX_2OPNDF ||| EVEXF, EVEX_ONLYF ||| EVEX_W1F ||| EVEX_MASKF ||| EVEX_ZF,
    1, 1, [0x7f, 0x00, 0x00, 0x00], 32, 1, 0x00, false, X32 ||| X64, RM_DST, NO_PREFIXF, 4, 0⟩,
  ⟨['v', 'm', 'o', 'v', 'd', 'q', 'a', '6', '4'], [.R_ZMM, .R_ZMM, .OP_N, .OP_N, .OP_N], EVX0, F_MODRMF ||| F_MODRM_REGF ||| F_MODRM_RMF, VEX_66F ||| VEX_0FF ||| VEX_2OPNDF ||| EVEXF, EVEX_ONLYF ||| EVEX_W1F ||| EVEX_MASKF ||| EVEX_ZF,
    1, 1, [0x6f, 0x00, 0x00, 0x00], 64, 1, 0xc0, false, X32 ||| X64, REG_DST, NO_PREFIXF, 4, 5⟩,
  ⟨['v', 'm', 'o', 'v', 'd', 'q', 'a', '6', '4'], [.R_ZMM, .M_ANY, .OP_N, .OP_N, .OP_N], EVX0, F_MODRMF ||| F_MODRM_REGF, VEX_66F ||| VEX_0FF ||| VEX_2OPNDF ||| EVEXF, EVEX_ONLYF ||| EVEX_W1F ||| EVEX_MASKF ||| EVEX_ZF,
    1, 1, [0x6f, 0x00, 0x00, 0x00], 64, 1, 0x00, false, X32 ||| X64, REG_DST, NO_PREFIXF, 4, 1⟩,
  ⟨['v', 'm', 'o', 'v', 'd', 'q', 'a', '6', '4'], [.M_ANY, .R_ZMM, .OP_N, .OP_N, .OP_N], EVX0, F_MODRMF ||| F_MODRM_REGF, VEX_66F ||| VEX_0FF ||| VEX_2OPNDF ||| EVEXF, EVEX_ONLYF ||| EVEX_W1F ||| EVEX_MASKF ||| EVEX_ZF,
    1, 1, [0x7f, 0x00, 0x00, 0x00], 64, 1, 0x00, false, X32 ||| X64, RM_DST, NO_PREFIXF, 4, 0⟩,
  ⟨['v', 'm', 'o', 'v', 'd', 'q', 'u'], [.R_XMM, .R_XMME, .OP_N, .OP_N, .OP_N], AVX0, F_MODRMF ||| F_MODRM_REGF ||| F_MODRM_RMF, VEXF ||| VEX_WIGF ||| VEX_F3F ||| VEX_0FF ||| VEX_2OPNDF, NO_FLAGSF,
    1, 1, [0x7f, 0x00, 0x00, 0x00], 16, 1, 0xc0, false, X32 ||| X64, RM_DST, NO_PREFIXF, 4, 5⟩]

/-- `InstrTableV2[320..]`: H/InstrTableV2.h. -/
def instrRows8 : List Instr := [
  ⟨['v', 'm', 'o', 'v', 'd', 'q', 'u'], [.R_XMM, .R_XMM, .OP_N, .OP_N, .OP_N], AVX0, F_MODRMF ||| F_MODRM_REGF ||| F_MODRM_RMF, VEXF ||| VEX_WIGF ||| VEX_F3F ||| VEX_0FF ||| VEX_2OPNDF, NO_FLAGSF,
    1, 1, [0x6f, 0x00, 0x00, 0x00], 16, 1, 0xc0, false, X32 ||| X64, REG_DST, NO_PREFIXF, 4, 5⟩,
  ⟨['v', 'm', 'o', 'v', 'd', 'q', 'u'], [.R_XMM, .M_ANY, .OP_N, .OP_N, .OP_N], AVX0, F_MODRMF ||| F_MODRM_REGF, VEXF ||| VEX_WIGF ||| VEX_F3F ||| VEX_0FF ||| VEX_2OPNDF, NO_FLAGSF,
    1, 1, [0x6f, 0x00, 0x00, 0x00], 16, 1, 0x00, false, X32 ||| X64, REG_DST, NO_PREFIXF, 4, 1⟩,
  ⟨['v', 'm', 'o', 'v', 'd', 'q', 'u'], [.M_ANY, .R_XMM, .OP_N, .OP_N, .OP_N], AVX0, F_MODRMF ||| F_MODRM_REGF, VEXF ||| VEX_WIGF ||| VEX_F3F ||| VEX_0FF ||| VEX_2OPNDF, NO_FLAGSF,
    1, 1, [0x7f, 0x00, 0x00, 0x00], 16, 1, 0x00, false, X32 ||| X64, RM_DST, NO_PREFIXF, 4, 0⟩,
  ⟨['v', 'm', 'o', 'v', 'd', 'q', 'u'], [.R_YMM, .R_YMME, .OP_N, .OP_N, .OP_N], AVX1, F_MODRMF ||| F_MODRM_REGF ||| F_MODRM_RMF, VEXF ||| VEX_WIGF ||| VEX_F3F ||| VEX_0FF ||| VEX_2OPNDF, NO_FLAGSF,
    1, 1, [0x7f, 0x00, 0x00, 0x00], 32, 1, 0xc0, false, X32 ||| X64, RM_DST, NO_PREFIXF, 4, 5⟩,
  ⟨['v', 'm', 'o', 'v', 'd', 'q', 'u'], [.R_YMM, .R_YMM, .OP_N, .OP_N, .OP_N], AVX1, F_MODRMF ||| F_MODRM_REGF ||| F_MODRM_RMF, VEXF ||| VEX_WIGF ||| VEX_F3F ||| VEX_0FF ||| VEX_2OPNDF, NO_FLAGSF,
    1, 1, [0x6f, 0x00, 0x00, 0x00], 32, 1, 0xc0, false, X32 ||| X64, REG_DST, NO_PREFIXF, 4, 5⟩,
  ⟨['v', 'm', 'o', 'v', 'd', 'q', 'u'], [.R_YMM, .M_ANY, .OP_N, .OP_N, .OP_N], AVX1, F_MODRMF ||| F_MODRM_REGF, VEXF ||| VEX_WIGF ||| VEX_F3F ||| VEX_0FF ||| VEX_2OPNDF, NO_FLAGSF,
    1, 1, [0x6f, 0x00, 0x00, 0x00], 32, 1, 0x00, false, X32 ||| X64, REG_DST, NO_PREFIXF, 4, 1⟩,
  ⟨['v', 'm', 'o', 'v', 'd', 'q', 'u'], [.M_ANY, .R_YMM, .OP_N, .OP_N, .OP_N], AVX1, F_MODRMF ||| F_MODRM_REGF, VEXF ||| VEX_WIGF ||| VEX_F3F ||| VEX_0FF ||| VEX_2OPNDF, NO_FLAGSF,
    1, 1, [0x7f, 0x00, 0x00, 0x00], 32, 1, 0x00, false, X32 ||| X64, RM_DST, NO_PREFIXF, 4, 0⟩,
  ⟨['v', 'm', 'o', 'v', 'd', 'q', 'u', '8'], [.R_XMM, .R_XMM, .OP_N, .OP_N, .OP_N], EVX0, F_MODRMF ||| F_MODRM_REGF ||| F_MODRM_RMF, VEX_F2F ||| VEX_0FF ||| VEX_2OPNDF ||| EVEXF, EVEX_ONLYF ||| EVEX_W0F ||| EVEX_MASKF ||| EVEX_ZF,
    1, 1, [0x6f, 0x00, 0x00, 0x00], 16, 1, 0xc0, false, X32 ||| X64, REG_DST, NO_PREFIXF, 4, 5⟩,
  ⟨['v', 'm', 'o', 'v', 'd', 'q', 'u', '8'], [.R_XMM, .M_ANY, .OP_N, .OP_N, .OP_N], EVX0, F_MODRMF ||| F_MODRM_REGF, VEX_F2F ||| VEX_0FF ||| VEX_2OPNDF ||| EVEXF, EVEX_ONLYF ||| EVEX_W0F ||| EVEX_MASKF ||| EVEX_ZF,
    1, 1, [0x6f, 0x00, 0x00, 0x00], 16, 1, 0x00, false, X32 ||| X64, REG_DST, NO_PREFIXF, 4, 1⟩,
  ⟨['v', 'm', 'o', 'v', 'd', 'q', 'u', '8'], [.M_ANY, .R_XMM, .OP_N, .OP_N, .OP_N], EVX0, F_MODRMF ||| F_MODRM_REGF, VEX_F2F ||| VEX_0FF ||| VEX_2OPNDF ||| EVEXF, EVEX_ONLYF ||| EVEX_W0F ||| EVEX_MASKF ||| EVEX_ZF,
    1, 1, [0x7f, 0x00, 0x00, 0x00], 16, 1, 0x00, false, X32 ||| X64, RM_DST, NO_PREFIXF, 4, 0⟩,
  ⟨['v', 'm', 'o', 'v', 'd', 'q', 'u', '8'], [.R_YMM, .R_YMM, .OP_N, .OP_N, .OP_N], EVX0, F_MODRMF ||| F_MODRM_REGF ||| F_MODRM_RMF, VEX_F2F ||| VEX_0FF ||| VEX_2OPNDF ||| EVEXF, EVEX_ONLYF ||| EVEX_W0F ||| EVEX_MASKF ||| EVEX_ZF,
    1, 1, [0x6f, 0x00, 0x00, 0x00], 32, 1, 0xc0, false, X32 ||| X64, REG_DST, NO_PREFIXF, 4, 5⟩,
  ⟨['v', 'm', 'o', 'v', 'd', 'q', 'u', '8'], [.R_YMM, .M_ANY, .OP_N, .OP_N, .OP_N], EVX0, F_MODRMF ||| F_MODRM_REGF, VEX_F2F ||| VEX_0FF ||| VEX_2OPNDF ||| EVEXF, EVEX_ONLYF ||| EVEX_W0F ||| EVEX_MASKF ||| EVEX_ZF,
    1, 1, [0x6f, 0x00, 0x00, 0x00], 32, 1, 0x00, false, X32 ||| X64, REG_DST, NO_PREFIXF, 4, 1⟩,
  ⟨['v', 'm', 'o', 'v', 'd', 'q', 'u', '8'], [.M_ANY, .R_YMM, .OP_N, .OP_N, .OP_N], EVX0, F_MODRMF ||| F_MODRM_REGF, VEX_F2F ||| VEX_0FF ||| VEX_2OPNDF ||| EVEXF, EVEX_ONLYF ||| EVEX_W0F ||| EVEX_MASKF ||| EVEX_ZF,
    1, 1, [0x7f, 0x00, 0x00, 0x00], 32, 1, 0x00, false, X32 ||| X64, RM_DST, NO_PREFIXF, 4, 0⟩,
  ⟨['v', 'm', 'o', 'v', 'd', 'q', 'u', '8'], [.R_ZMM, .R_ZMM, .OP_N, .OP_N, .OP_N], EVX0, F_MODRMF ||| F_MODRM_REGF ||| F_MODRM_RMF, VEX_F2F ||| VEX_0FF ||| VEX_2OPNDF ||| EVEXF, EVEX_ONLYF ||| EVEX_W0F ||| EVEX_MASKF ||| EVEX_ZF,
    1, 1, [0x6f, 0x00, 0x00, 0x00], 64, 1, 0xc0, false, X32 ||| X64, REG_DST, NO_PREFIXF, 4, 5⟩,
  ⟨['v', 'm', 'o', 'v', 'd', 'q', 'u', '8'], [.R_ZMM, .M_ANY, .OP_N, .OP_N, .OP_N], EVX0, F_MODRMF ||| F_MODRM_REGF, VEX_F2F ||| VEX_0FF ||| VEX_2OPNDF ||| EVEXF, EVEX_ONLYF ||| EVEX_W0F ||| EVEX_MASKF ||| EVEX_ZF,
    1, 1, [0x6f, 0x00, 0x00, 0x00], 64, 1, 0x00, false, X32 ||| X64, REG_DST, NO_PREFIXF, 4, 1⟩,
  ⟨['v', 'm', 'o', 'v', 'd', 'q', 'u', '8'], [.M_ANY, .R_ZMM, .OP_N, .OP_N, .OP_N], EVX0, F_MODRMF ||| F_MODRM_REGF, VEX_F2F ||| VEX_0FF ||| VEX_2OPNDF ||| EVEXF, EVEX_ONLYF ||| EVEX_W0F ||| EVEX_MASKF ||| EVEX_ZF,
    1, 1, [0x7f, 0x00, 0x00, 0x00], 64, 1, 0x00, false, X32 ||| X64, RM_DST, NO_PREFIXF, 4, 0⟩,
  ⟨['v', 'm', 'o', 'v', 'd', 'q', 'u', '1', '6'], [.R_XMM, .R_XMM, .OP_N, .OP_N, .OP_N], EVX0, F_MODRMF ||| F_MODRM_REGF ||| F_MODRM_RMF, VEX_F2F ||| VEX_0FF ||| VEX_2OPNDF ||| EVEXF, EVEX_ONLYF ||| EVEX_W1F ||| EVEX_MASKF ||| EVEX_ZF,
    1, 1, [0x6f, 0x00, 0x00, 0x00], 16, 1, 0xc0, false, X32 ||| X64, REG_DST, NO_PREFIXF, 4, 5⟩,
  ⟨['v', 'm', 'o', 'v', 'd', 'q', 'u', '1', '6'], [.R_XMM, .M_ANY, .OP_N, .OP_N, .OP_N], EVX0, F_MODRMF ||| F_MODRM_REGF, VEX_F2F ||| VEX_0FF ||| VEX_2OPNDF ||| EVEXF, EVEX_ONLYF ||| EVEX_W1F ||| EVEX_MASKF ||| EVEX_ZF,
    1, 1, [0x6f, 0x00, 0x00, 0x00], 16, 1, 0x00, false, X32 ||| X64, REG_DST, NO_PREFIXF, 4, 1⟩,
  ⟨['v', 'm', 'o', 'v', 'd', 'q', 'u', '1', '6'], [.M_ANY, .R_XMM, .OP_N, .OP_N, .OP_N], EVX0, F_MODRMF ||| F_MODRM_REGF, VEX_F2F ||| VEX_0FF ||| VEX_2OPNDF ||| EVEXF, EVEX_ONLYF ||| EVEX_W1F ||| EVEX_MASKF ||| EVEX_ZF,
    1, 1, [0x7f, 0x00, 0x00, 0x00], 16, 1, 0x00, false, X32 ||| X64, RM_DST, NO_PREFIXF, 4, 0⟩,
  ⟨['v', 'm', 'o', 'v', 'd', 'q', 'u', '1', '6'], [.R_YMM, .R_YMM, .OP_N, .OP_N, .OP_N], EVX0, F_MODRMF ||| F_MODRM_REGF ||| F_MODRM_RMF, VEX_F2F ||| VEX_0FF ||| VEX_2OPNDF ||| EVEXF, EVEX_ONLYF ||| EVEX_W1F ||| EVEX_MASKF ||| EVEX_ZF,
    1, 1, [0x6f, 0x00, 0x00, 0x00], 32, 1, 0xc0, false, X32 ||| X64, REG_DST, NO_PREFIXF, 4, 5⟩,
  ⟨['v', 'm', 'o', 'v', 'd', 'q', 'u', '1', '6'], [.R_YMM, .M_ANY, .OP_N, .OP_N, .OP_N], EVX0, F_MODRMF ||| F_MODRM_REGF, VEX_F2F ||| VEX_0FF ||| VEX_2OPNDF ||| EVEXF, EVEX_ONLYF ||| EVEX_W1F ||| EVEX_MASKF ||| EVEX_ZF,
    1, 1, [0x6f, 0x00, 0x00, 0x00], 32, 1, 0x00, false, X32 ||| X64, REG_DST, NO_PREFIXF, 4, 1⟩,
  ⟨['v', 'm', 'o', 'v', 'd', 'q', 'u', '1', '6'], [.M_ANY, .R_YMM, .OP_N, .OP_N, .OP_N], EVX0, F_MODRMF ||| F_MODRM_REGF, VEX_F2F ||| VEX_0FF ||| VEX_2OPNDF ||| EVEXF, EVEX_ONLYF ||| EVEX_W1F ||| EVEX_MASKF ||| EVEX_ZF,
    1, 1, [0x7f, 0x00, 0x00, 0x00], 32, 1, 0x00, false, X32 ||| X64, RM_DST, NO_PREFIXF, 4, 0⟩,
  ⟨['v', 'm', 'o', 'v', 'd', 'q', 'u', '1', '6'], [.R_ZMM, .R_ZMM, .OP_N, .OP_N, .OP_N], EVX0, F_MODRMF ||| F_MODRM_REGF ||| F_MODRM_RMF, VEX_F2F ||| VEX_0FF ||| VEX_2OPNDF ||| EVEXF, EVEX_ONLYF ||| EVEX_W1F ||| EVEX_MASKF ||| EVEX_ZF,
    1, 1, [0x6f, 0x00, 0x00, 0x00], 64, 1, 0xc0, false, X32 ||| X64, REG_DST, NO_PREFIXF, 4, 5⟩,
  ⟨['v', 'm', 'o', 'v', 'd', 'q', 'u', '1', '6'], [.R_ZMM, .M_ANY, .OP_N, .OP_N, .OP_N], EVX0, F_MODRMF ||| F_MODRM_REGF, VEX_F2F ||| VEX_0FF ||| VEX_2OPNDF ||| EVEXF, EVEX_ONLYF ||| EVEX_W1F ||| EVEX_MASKF ||| EVEX_ZF,
    1, 1, [0x6f, 0x00, 0x00, 0x00], 64, 1, 0x00, false, X32 ||| X64, REG_DST, NO_PREFIXF, 4, 1⟩,
  ⟨['v', 'm', 'o', 'v', 'd', 'q', 'u', '1', '6'], [.M_ANY, .R_ZMM, .OP_N, .OP_N, .OP_N], EVX0, F_MODRMF ||| F_MODRM_REGF, VEX_F2F ||| VEX_0FF ||| VEX_2OPNDF ||| EVEXF, EVEX_ONLYF ||| EVEX_W1F ||| EVEX_MASKF ||| EVEX_ZF,
    1, 1, [0x7f, 0x00, 0x00, 0x00], 64, 1, 0x00, false, X32 ||| X64, RM_DST, NO_PREFIXF, 4, 0⟩,
  ⟨['v', 'm', 'o', 'v', 'd', 'q', 'u', '3', '2'], [.R_XMM, .R_XMM, .OP_N, .OP_N, .OP_N], EVX0, F_MODRMF ||| F_MODRM_REGF ||| F_MODRM_RMF, VEX_F3F ||| VEX_0FF ||| VEX_2OPNDF ||| EVEXF, EVEX_ONLYF ||| EVEX_W0F ||| EVEX_MASKF ||| EVEX_ZF,
    1, 1, [0x6f, 0x00, 0x00, 0x00], 16, 1, 0xc0, false, X32 ||| X64, REG_DST, NO_PREFIXF, 4, 5⟩,
  ⟨['v', 'm', 'o', 'v', 'd', 'q', 'u', '3', '2'], [.R_XMM, .M_ANY, .OP_N, .OP_N, .OP_N], EVX0, F_MODRMF ||| F_MODRM_REGF, VEX_F3F ||| VEX_0FF ||| VEX_2OPNDF ||| EVEXF, EVEX_ONLYF ||| EVEX_W0F ||| EVEX_MASKF ||| EVEX_ZF,
    1, 1, [0x6f, 0x00, 0x00, 0x00], 16, 1, 0x00, false, X32 ||| X64, REG_DST, NO_PREFIXF, 4, 1⟩,
  ⟨['v', 'm', 'o', 'v', 'd', 'q', 'u', '3', '2'], [.M_ANY, .R_XMM, .OP_N, .OP_N, .OP_N], EVX0, F_MODRMF ||| F_MODRM_REGF, VEX_F3F ||| VEX_0FF ||| VEX_2OPNDF ||| EVEXF, EVEX_ONLYF ||| EVEX_W0F ||| EVEX_MASKF ||| EVEX_ZF,
    1, 1, [0x7f, 0x00, 0x00, 0x00], 16, 1, 0x00, false, X32 ||| X64, RM_DST, NO_PREFIXF, 4, 0⟩,
  ⟨['v', 'm', 'o', 'v', 'd', 'q', 'u', '3', '2'], [.R_YMM, .R_YMM, .OP_N, .OP_N, .OP_N], EVX0, F_MODRMF ||| F_MODRM_REGF ||| F_MODRM_RMF, VEX_F3F ||| VEX_0FF ||| VEX_2OPNDF ||| EVEXF, EVEX_ONLYF ||| EVEX_W0F ||| EVEX_MASKF ||| EVEX_ZF,
    1, 1, [0x6f, 0x00, 0x00, 0x00], 32, 1, 0xc0, false, X32 ||| X64, REG_DST, NO_PREFIXF, 4, 5⟩,
  ⟨['v', 'm', 'o', 'v', 'd', 'q', 'u', '3', '2'], [.R_YMM, .M_ANY, .OP_N, .OP_N, .OP_N], EVX0, F_MODRMF ||| F_MODRM_REGF, VEX_F3F ||| VEX_0FF ||| VEX_2OPNDF ||| EVEXF, EVEX_ONLYF ||| EVEX_W0F ||| EVEX_MASKF ||| EVEX_ZF,
    1, 1, [0x6f, 0x00, 0x00, 0x00], 32, 1, 0x00, false, X32 ||| X64, REG_DST, NO_PREFIXF, 4, 1⟩,
  ⟨['v', 'm', 'o', 'v', 'd', 'q', 'u', '3', '2'], [.M_ANY, .R_YMM, .OP_N, .OP_N, .OP_N], EVX0, F_MODRMF ||| F_MODRM_REGF, VEX_F3F ||| VEX_0FF ||| VEX_2OPNDF ||| EVEXF, EVEX_ONLYF ||| EVEX_W0F ||| EVEX_MASKF ||| EVEX_ZF,
    1, 1, [0x7f, 0x00, 0x00, 0x00], 32, 1, 0x00, false, X32 ||| X64, RM_DST, NO_PREFIXF, 4, 0⟩,
  ⟨['v', 'm', 'o', 'v', 'd', 'q', 'u', '3', '2'], [.R_ZMM, .R_ZMM, .OP_N, .OP_N, .OP_N], EVX0, F_MODRMF ||| F_MODRM_REGF ||| F_MODRM_RMF, VEX_F3F ||| VEX_0FF ||| VEX_2OPNDF ||| EVEXF, EVEX_ONLYF ||| EVEX_W0F ||| EVEX_MASKF ||| EVEX_ZF,
    1, 1, [0x6f, 0x00, 0x00, 0x00], 64, 1, 0xc0, false, X32 ||| X64, REG_DST, NO_PREFIXF, 4, 5⟩,
  ⟨['v', 'm', 'o', 'v', 'd', 'q', 'u', '3', '2'], [.R_ZMM, .M_ANY, .OP_N, .OP_N, .OP_N], EVX0, F_MODRMF ||| F_MODRM_REGF, VEX_F3F ||| VEX_0FF ||| VEX_2OPNDF ||| EVEXF, EVEX_ONLYF ||| EVEX_W0F ||| EVEX_MASKF ||| EVEX_ZF,
    1, 1, [0x6f, 0x00, 0x00, 0x00], 64, 1, 0x00, false, X32 ||| X64, REG_DST, NO_PREFIXF, 4, 1⟩,
  ⟨['v', 'm', 'o', 'v', 'd', 'q', 'u', '3', '2'], [.M_ANY, .R_ZMM, .OP_N, .OP_N, .OP_N], EVX0, F_MODRMF ||| F_MODRM_REGF, VEX_F3F ||| VEX_0FF ||| VEX_2OPNDF ||| EVEXF, EVEX_ONLYF ||| EVEX_W0F ||| EVEX_MASKF ||| EVEX_ZF,
    1, 1, [0x7f, 0x00, 0x00, 0x00], 64, 1, 0x00, false, X32 ||| X64, RM_DST, NO_PREFIXF, 4, 0⟩,
  ⟨['v', 'm', 'o', 'v', 'd', 'q', 'u', '6', '4'], [.R_XMM, .R_XMM, .OP_N, .OP_N, .OP_N], EVX0, F_MODRMF ||| F_MODRM_REGF ||| F_MODRM_RMF, VEX_F3F ||| VEX_0FF ||| VEX_2OPNDF ||| EVEXF, EVEX_ONLYF ||| EVEX_W1F ||| EVEX_MASKF ||| EVEX_ZF,
    1, 1, [0x6f, 0x00, 0x00, 0x00], 16, 1, 0xc0, false, X32 ||| X64, REG_DST, NO_PREFIXF, 4, 5⟩,
  ⟨['v', 'm', 'o', 'v', 'd', 'q', 'u', '6', '4'], [.R_XMM, .M_ANY, .OP_N, .OP_N, .OP_N], EVX0, F_MODRMF ||| F_MODRM_REGF, VEX_F3F ||| VEX_0FF ||| VEX_2OPNDF ||| EVEXF, EVEX_ONLYF ||| EVEX_W1F ||| EVEX_MASKF ||| EVEX_ZF,
    1, 1, [0x6f, 0x00, 0x00, 0x00], 16, 1, 0x00, false, X32 ||| X64, REG_DST, NO_PREFIXF, 4, 1⟩,
  ⟨['v', 'm', 'o', 'v', 'd', 'q', 'u', '6', '4'], [.M_ANY, .R_XMM, .OP_N, .OP_N, .OP_N], EVX0, F_MODRMF ||| F_MODRM_REGF, VEX_F3F ||| VEX_0FF ||| VEX_2OPNDF ||| EVEXF, EVEX_ONLYF ||| EVEX_W1F ||| EVEX_MASKF ||| EVEX_ZF,
    1, 1, [0x7f, 0x00, 0x00, 0x00], 16, 1, 0x00, false, X32 ||| X64, RM_DST, NO_PREFIXF, 4, 0⟩,
  ⟨['v', 'm', 'o', 'v', 'd', 'q', 'u', '6', '4'], [.R_YMM, .R_YMM, .OP_N, .OP_N, .OP_N], EVX0, F_MODRMF ||| F_MODRM_REGF ||| F_MODRM_RMF, VEX_F3F ||| VEX_0FF ||| VEX_2OPNDF ||| EVEXF, EVEX_ONLYF ||| EVEX_W1F ||| EVEX_MASKF ||| EVEX_ZF,
    1, 1, [0x6f, 0x00, 0x00, 0x00], 32, 1, 0xc0, false, X32 ||| X64, REG_DST, NO_PREFIXF, 4, 5⟩,
  ⟨['v', 'm', 'o', 'v', 'd', 'q', 'u', '6', '4'], [.R_YMM, .M_ANY, .OP_N, .OP_N, .OP_N], EVX0, F_MODRMF ||| F_MODRM_REGF, VEX_F3F ||| VEX_0FF ||| VEX_2OPNDF ||| EVEXF, EVEX_ONLYF ||| EVEX_W1F ||| EVEX_MASKF ||| EVEX_ZF,
    1, 1, [0x6f, 0x00, 0x00, 0x00], 32, 1, 0x00, false, X32 ||| X64, REG_DST, NO_PREFIXF, 4, 1⟩,
  ⟨['v', 'm', 'o', 'v', 'd', 'q', 'u', '6', '4'], [.M_ANY, .R_YMM, .OP_N, .OP_N, .OP_N], EVX0, F_MODRMF ||| F_MODRM_REGF, VEX_F3F ||| VEX_0FF ||| VEX_2OPNDF ||| EVEXF, EVEX_ONLYF ||| EVEX_W1F ||| EVEX_MASKF ||| EVEX_ZF,
    1, 1, [0x7f, 0x00, 0x00, 0x00], 32, 1, 0x00, false, X32 ||| X64, RM_DST, NO_PREFIXF, 4, 0⟩]

/-- `InstrTableV2[360..]`: H/InstrTableV2.h. -/
def instrRows9 : List Instr := [
  ⟨['v', 'm', 'o', 'v', 'd', 'q', 'u', '6', '4'], [.R_ZMM, .R_ZMM, .OP_N, .OP_N, .OP_N], EVX0, F_MODRMF ||| F_MODRM_REGF ||| F_MODRM_RMF, VEX_F3F ||| VEX_0FF ||| VEX_2OPNDF ||| EVEXF, EVEX_ONLYF ||| EVEX_W1F ||| EVEX_MASKF ||| EVEX_ZF,
    1, 1, [0x6f, 0x00, 0x00, 0x00], 64, 1, 0xc0, false, X32 ||| X64, REG_DST, NO_PREFIXF, 4, 5⟩,
  ⟨['v', 'm', 'o', 'v', 'd', 'q', 'u', '6', '4'], [.R_ZMM, .M_ANY, .OP_N, .OP_N, .OP_N], EVX0, F_MODRMF ||| F_MODRM_REGF, VEX_F3F ||| VEX_0FF ||| VEX_2OPNDF ||| EVEXF, EVEX_ONLYF ||| EVEX_W1F ||| EVEX_MASKF ||| EVEX_ZF,
    1, 1, [0x6f, 0x00, 0x00, 0x00], 64, 1, 0x00, false, X32 ||| X64, REG_DST, NO_PREFIXF, 4, 1⟩,
  ⟨['v', 'm', 'o', 'v', 'd', 'q', 'u', '6', '4'], [.M_ANY, .R_ZMM, .OP_N, .OP_N, .OP_N], EVX0, F_MODRMF ||| F_MODRM_REGF, VEX_F3F ||| VEX_0FF ||| VEX_2OPNDF ||| EVEXF, EVEX_ONLYF ||| EVEX_W1F ||| EVEX_MASKF ||| EVEX_ZF,
    1, 1, [0x7f, 0x00, 0x00, 0x00], 64, 1, 0x00, false, X32 ||| X64, RM_DST, NO_PREFIXF, 4, 0⟩,
  ⟨['b', 'e', 'x', 't', 'r'], [.R32, .R32, .R32, .OP_N, .OP_N], AVX0, F_MODRMF ||| F_MODRM_REGF ||| F_MODRM_RMF, VEXF ||| VEX_W0F ||| VEX_0F38F ||| VEX_3RD_OPF, NO_FLAGSF,
    1, 1, [0xf7, 0x00, 0x00, 0x00], 4, 1, 0xc0, false, X32 ||| X64, REG_DST, NO_PREFIXF, 4, 5⟩,
  ⟨['b', 'e', 'x', 't', 'r'], [.R32, .M_ANY, .R32, .OP_N, .OP_N], AVX0, F_MODRMF ||| F_MODRM_REGF, VEXF ||| VEX_W0F ||| VEX_0F38F ||| VEX_3RD_OPF, NO_FLAGSF,
    1, 1, [0xf7, 0x00, 0x00, 0x00], 4, 1, 0x00, false, X32 ||| X64, REG_DST, NO_PREFIXF, 4, 1⟩,
  ⟨['b', 'e', 'x', 't', 'r'], [.R64, .R64, .R64, .OP_N, .OP_N], AVX0, F_MODRMF ||| F_MODRM_REGF ||| F_MODRM_RMF, VEXF ||| VEX_W1F ||| VEX_0F38F ||| VEX_3RD_OPF, NO_FLAGSF,
    1, 1, [0xf7, 0x00, 0x00, 0x00], 8, 1, 0xc0, false, X32 ||| X64, REG_DST, NO_PREFIXF, 4, 5⟩,
  ⟨['b', 'e', 'x', 't', 'r'], [.R64, .M_ANY, .R64, .OP_N, .OP_N], AVX0, F_MODRMF ||| F_MODRM_REGF, VEXF ||| VEX_W1F ||| VEX_0F38F ||| VEX_3RD_OPF, NO_FLAGSF,
    1, 1, [0xf7, 0x00, 0x00, 0x00], 8, 1, 0x00, false, X32 ||| X64, REG_DST, NO_PREFIXF, 4, 1⟩]

/-- `struct Instr_Def InstrTableV2[]`: H/InstrTableV2.h:5 ff. -/
def instrTable : List Instr :=
  instrRows0 ++ instrRows1 ++ instrRows2 ++ instrRows3 ++ instrRows4 ++ instrRows5 ++ instrRows6 ++ instrRows7 ++ instrRows8 ++ instrRows9

end Verif.Cgv2
