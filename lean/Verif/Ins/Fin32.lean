import Verif.Ins.Check
/-! # C64: the finite check for 32-bit code, evaluated by the kernel (one theorem for each kind of the first operand, because of
the memory the kernel needs) -/
namespace Verif.Ins
set_option maxRecDepth 100000

theorem check1_32 : check1 .u32 = true := by decide +kernel

theorem check2_32_0 : check2 .u32 0 = true := by decide +kernel
theorem check2_32_1 : check2 .u32 1 = true := by decide +kernel
theorem check2_32_2 : check2 .u32 2 = true := by decide +kernel
theorem check2_32_3 : check2 .u32 3 = true := by decide +kernel
theorem check2_32_4 : check2 .u32 4 = true := by decide +kernel
theorem check2_32_5 : check2 .u32 5 = true := by decide +kernel
theorem check2_32_6 : check2 .u32 6 = true := by decide +kernel
theorem check2_32_7 : check2 .u32 7 = true := by decide +kernel
theorem check2_32_8 : check2 .u32 8 = true := by decide +kernel
theorem check2_32_9 : check2 .u32 9 = true := by decide +kernel
theorem check2_32_10 : check2 .u32 10 = true := by decide +kernel
theorem check2_32_11 : check2 .u32 11 = true := by decide +kernel
theorem check2_32_12 : check2 .u32 12 = true := by decide +kernel
theorem check2_32_13 : check2 .u32 13 = true := by decide +kernel
theorem check2_32_14 : check2 .u32 14 = true := by decide +kernel
theorem check2_32_15 : check2 .u32 15 = true := by decide +kernel
theorem check2_32_16 : check2 .u32 16 = true := by decide +kernel
theorem check2_32_17 : check2 .u32 17 = true := by decide +kernel

theorem check2_32 (i : Nat) (hi : i < 18) : check2 .u32 i = true := by
  match i, hi with
  | 0, _ => exact check2_32_0
  | 1, _ => exact check2_32_1
  | 2, _ => exact check2_32_2
  | 3, _ => exact check2_32_3
  | 4, _ => exact check2_32_4
  | 5, _ => exact check2_32_5
  | 6, _ => exact check2_32_6
  | 7, _ => exact check2_32_7
  | 8, _ => exact check2_32_8
  | 9, _ => exact check2_32_9
  | 10, _ => exact check2_32_10
  | 11, _ => exact check2_32_11
  | 12, _ => exact check2_32_12
  | 13, _ => exact check2_32_13
  | 14, _ => exact check2_32_14
  | 15, _ => exact check2_32_15
  | 16, _ => exact check2_32_16
  | 17, _ => exact check2_32_17
  | n + 18, h => omega

theorem check3_imul_32_0 : check3 .u32 .imul 0 = true := by decide +kernel
theorem check3_imul_32_1 : check3 .u32 .imul 1 = true := by decide +kernel
theorem check3_imul_32_2 : check3 .u32 .imul 2 = true := by decide +kernel
theorem check3_imul_32_3 : check3 .u32 .imul 3 = true := by decide +kernel
theorem check3_imul_32_4 : check3 .u32 .imul 4 = true := by decide +kernel
theorem check3_imul_32_5 : check3 .u32 .imul 5 = true := by decide +kernel
theorem check3_imul_32_6 : check3 .u32 .imul 6 = true := by decide +kernel
theorem check3_imul_32_7 : check3 .u32 .imul 7 = true := by decide +kernel
theorem check3_imul_32_8 : check3 .u32 .imul 8 = true := by decide +kernel
theorem check3_imul_32_9 : check3 .u32 .imul 9 = true := by decide +kernel
theorem check3_imul_32_10 : check3 .u32 .imul 10 = true := by decide +kernel
theorem check3_imul_32_11 : check3 .u32 .imul 11 = true := by decide +kernel
theorem check3_imul_32_12 : check3 .u32 .imul 12 = true := by decide +kernel
theorem check3_imul_32_13 : check3 .u32 .imul 13 = true := by decide +kernel
theorem check3_imul_32_14 : check3 .u32 .imul 14 = true := by decide +kernel
theorem check3_imul_32_15 : check3 .u32 .imul 15 = true := by decide +kernel
theorem check3_imul_32_16 : check3 .u32 .imul 16 = true := by decide +kernel
theorem check3_imul_32_17 : check3 .u32 .imul 17 = true := by decide +kernel

theorem check3_imul_32 (i : Nat) (hi : i < 18) : check3 .u32 .imul i = true := by
  match i, hi with
  | 0, _ => exact check3_imul_32_0
  | 1, _ => exact check3_imul_32_1
  | 2, _ => exact check3_imul_32_2
  | 3, _ => exact check3_imul_32_3
  | 4, _ => exact check3_imul_32_4
  | 5, _ => exact check3_imul_32_5
  | 6, _ => exact check3_imul_32_6
  | 7, _ => exact check3_imul_32_7
  | 8, _ => exact check3_imul_32_8
  | 9, _ => exact check3_imul_32_9
  | 10, _ => exact check3_imul_32_10
  | 11, _ => exact check3_imul_32_11
  | 12, _ => exact check3_imul_32_12
  | 13, _ => exact check3_imul_32_13
  | 14, _ => exact check3_imul_32_14
  | 15, _ => exact check3_imul_32_15
  | 16, _ => exact check3_imul_32_16
  | 17, _ => exact check3_imul_32_17
  | n + 18, h => omega

theorem check3_shxd_32_0 : check3 .u32 .shxd 0 = true := by decide +kernel
theorem check3_shxd_32_1 : check3 .u32 .shxd 1 = true := by decide +kernel
theorem check3_shxd_32_2 : check3 .u32 .shxd 2 = true := by decide +kernel
theorem check3_shxd_32_3 : check3 .u32 .shxd 3 = true := by decide +kernel
theorem check3_shxd_32_4 : check3 .u32 .shxd 4 = true := by decide +kernel
theorem check3_shxd_32_5 : check3 .u32 .shxd 5 = true := by decide +kernel
theorem check3_shxd_32_6 : check3 .u32 .shxd 6 = true := by decide +kernel
theorem check3_shxd_32_7 : check3 .u32 .shxd 7 = true := by decide +kernel
theorem check3_shxd_32_8 : check3 .u32 .shxd 8 = true := by decide +kernel
theorem check3_shxd_32_9 : check3 .u32 .shxd 9 = true := by decide +kernel
theorem check3_shxd_32_10 : check3 .u32 .shxd 10 = true := by decide +kernel
theorem check3_shxd_32_11 : check3 .u32 .shxd 11 = true := by decide +kernel
theorem check3_shxd_32_12 : check3 .u32 .shxd 12 = true := by decide +kernel
theorem check3_shxd_32_13 : check3 .u32 .shxd 13 = true := by decide +kernel
theorem check3_shxd_32_14 : check3 .u32 .shxd 14 = true := by decide +kernel
theorem check3_shxd_32_15 : check3 .u32 .shxd 15 = true := by decide +kernel
theorem check3_shxd_32_16 : check3 .u32 .shxd 16 = true := by decide +kernel
theorem check3_shxd_32_17 : check3 .u32 .shxd 17 = true := by decide +kernel

theorem check3_shxd_32 (i : Nat) (hi : i < 18) : check3 .u32 .shxd i = true := by
  match i, hi with
  | 0, _ => exact check3_shxd_32_0
  | 1, _ => exact check3_shxd_32_1
  | 2, _ => exact check3_shxd_32_2
  | 3, _ => exact check3_shxd_32_3
  | 4, _ => exact check3_shxd_32_4
  | 5, _ => exact check3_shxd_32_5
  | 6, _ => exact check3_shxd_32_6
  | 7, _ => exact check3_shxd_32_7
  | 8, _ => exact check3_shxd_32_8
  | 9, _ => exact check3_shxd_32_9
  | 10, _ => exact check3_shxd_32_10
  | 11, _ => exact check3_shxd_32_11
  | 12, _ => exact check3_shxd_32_12
  | 13, _ => exact check3_shxd_32_13
  | 14, _ => exact check3_shxd_32_14
  | 15, _ => exact check3_shxd_32_15
  | 16, _ => exact check3_shxd_32_16
  | 17, _ => exact check3_shxd_32_17
  | n + 18, h => omega

end Verif.Ins
