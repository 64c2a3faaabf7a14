import Verif.Ins.Check
/-! # C64: the finite check for 16-bit code, evaluated by the kernel (one theorem for each kind of the first operand, because of
the memory the kernel needs) -/
namespace Verif.Ins
set_option maxRecDepth 100000

theorem check1_16 : check1 .u16 = true := by decide +kernel

theorem check2_16_0 : check2 .u16 0 = true := by decide +kernel
theorem check2_16_1 : check2 .u16 1 = true := by decide +kernel
theorem check2_16_2 : check2 .u16 2 = true := by decide +kernel
theorem check2_16_3 : check2 .u16 3 = true := by decide +kernel
theorem check2_16_4 : check2 .u16 4 = true := by decide +kernel
theorem check2_16_5 : check2 .u16 5 = true := by decide +kernel
theorem check2_16_6 : check2 .u16 6 = true := by decide +kernel
theorem check2_16_7 : check2 .u16 7 = true := by decide +kernel
theorem check2_16_8 : check2 .u16 8 = true := by decide +kernel
theorem check2_16_9 : check2 .u16 9 = true := by decide +kernel
theorem check2_16_10 : check2 .u16 10 = true := by decide +kernel
theorem check2_16_11 : check2 .u16 11 = true := by decide +kernel
theorem check2_16_12 : check2 .u16 12 = true := by decide +kernel
theorem check2_16_13 : check2 .u16 13 = true := by decide +kernel
theorem check2_16_14 : check2 .u16 14 = true := by decide +kernel
theorem check2_16_15 : check2 .u16 15 = true := by decide +kernel
theorem check2_16_16 : check2 .u16 16 = true := by decide +kernel
theorem check2_16_17 : check2 .u16 17 = true := by decide +kernel

theorem check2_16 (i : Nat) (hi : i < 18) : check2 .u16 i = true := by
  match i, hi with
  | 0, _ => exact check2_16_0
  | 1, _ => exact check2_16_1
  | 2, _ => exact check2_16_2
  | 3, _ => exact check2_16_3
  | 4, _ => exact check2_16_4
  | 5, _ => exact check2_16_5
  | 6, _ => exact check2_16_6
  | 7, _ => exact check2_16_7
  | 8, _ => exact check2_16_8
  | 9, _ => exact check2_16_9
  | 10, _ => exact check2_16_10
  | 11, _ => exact check2_16_11
  | 12, _ => exact check2_16_12
  | 13, _ => exact check2_16_13
  | 14, _ => exact check2_16_14
  | 15, _ => exact check2_16_15
  | 16, _ => exact check2_16_16
  | 17, _ => exact check2_16_17
  | n + 18, h => omega

theorem check3_imul_16_0 : check3 .u16 .imul 0 = true := by decide +kernel
theorem check3_imul_16_1 : check3 .u16 .imul 1 = true := by decide +kernel
theorem check3_imul_16_2 : check3 .u16 .imul 2 = true := by decide +kernel
theorem check3_imul_16_3 : check3 .u16 .imul 3 = true := by decide +kernel
theorem check3_imul_16_4 : check3 .u16 .imul 4 = true := by decide +kernel
theorem check3_imul_16_5 : check3 .u16 .imul 5 = true := by decide +kernel
theorem check3_imul_16_6 : check3 .u16 .imul 6 = true := by decide +kernel
theorem check3_imul_16_7 : check3 .u16 .imul 7 = true := by decide +kernel
theorem check3_imul_16_8 : check3 .u16 .imul 8 = true := by decide +kernel
theorem check3_imul_16_9 : check3 .u16 .imul 9 = true := by decide +kernel
theorem check3_imul_16_10 : check3 .u16 .imul 10 = true := by decide +kernel
theorem check3_imul_16_11 : check3 .u16 .imul 11 = true := by decide +kernel
theorem check3_imul_16_12 : check3 .u16 .imul 12 = true := by decide +kernel
theorem check3_imul_16_13 : check3 .u16 .imul 13 = true := by decide +kernel
theorem check3_imul_16_14 : check3 .u16 .imul 14 = true := by decide +kernel
theorem check3_imul_16_15 : check3 .u16 .imul 15 = true := by decide +kernel
theorem check3_imul_16_16 : check3 .u16 .imul 16 = true := by decide +kernel
theorem check3_imul_16_17 : check3 .u16 .imul 17 = true := by decide +kernel

theorem check3_imul_16 (i : Nat) (hi : i < 18) : check3 .u16 .imul i = true := by
  match i, hi with
  | 0, _ => exact check3_imul_16_0
  | 1, _ => exact check3_imul_16_1
  | 2, _ => exact check3_imul_16_2
  | 3, _ => exact check3_imul_16_3
  | 4, _ => exact check3_imul_16_4
  | 5, _ => exact check3_imul_16_5
  | 6, _ => exact check3_imul_16_6
  | 7, _ => exact check3_imul_16_7
  | 8, _ => exact check3_imul_16_8
  | 9, _ => exact check3_imul_16_9
  | 10, _ => exact check3_imul_16_10
  | 11, _ => exact check3_imul_16_11
  | 12, _ => exact check3_imul_16_12
  | 13, _ => exact check3_imul_16_13
  | 14, _ => exact check3_imul_16_14
  | 15, _ => exact check3_imul_16_15
  | 16, _ => exact check3_imul_16_16
  | 17, _ => exact check3_imul_16_17
  | n + 18, h => omega

theorem check3_shxd_16_0 : check3 .u16 .shxd 0 = true := by decide +kernel
theorem check3_shxd_16_1 : check3 .u16 .shxd 1 = true := by decide +kernel
theorem check3_shxd_16_2 : check3 .u16 .shxd 2 = true := by decide +kernel
theorem check3_shxd_16_3 : check3 .u16 .shxd 3 = true := by decide +kernel
theorem check3_shxd_16_4 : check3 .u16 .shxd 4 = true := by decide +kernel
theorem check3_shxd_16_5 : check3 .u16 .shxd 5 = true := by decide +kernel
theorem check3_shxd_16_6 : check3 .u16 .shxd 6 = true := by decide +kernel
theorem check3_shxd_16_7 : check3 .u16 .shxd 7 = true := by decide +kernel
theorem check3_shxd_16_8 : check3 .u16 .shxd 8 = true := by decide +kernel
theorem check3_shxd_16_9 : check3 .u16 .shxd 9 = true := by decide +kernel
theorem check3_shxd_16_10 : check3 .u16 .shxd 10 = true := by decide +kernel
theorem check3_shxd_16_11 : check3 .u16 .shxd 11 = true := by decide +kernel
theorem check3_shxd_16_12 : check3 .u16 .shxd 12 = true := by decide +kernel
theorem check3_shxd_16_13 : check3 .u16 .shxd 13 = true := by decide +kernel
theorem check3_shxd_16_14 : check3 .u16 .shxd 14 = true := by decide +kernel
theorem check3_shxd_16_15 : check3 .u16 .shxd 15 = true := by decide +kernel
theorem check3_shxd_16_16 : check3 .u16 .shxd 16 = true := by decide +kernel
theorem check3_shxd_16_17 : check3 .u16 .shxd 17 = true := by decide +kernel

theorem check3_shxd_16 (i : Nat) (hi : i < 18) : check3 .u16 .shxd i = true := by
  match i, hi with
  | 0, _ => exact check3_shxd_16_0
  | 1, _ => exact check3_shxd_16_1
  | 2, _ => exact check3_shxd_16_2
  | 3, _ => exact check3_shxd_16_3
  | 4, _ => exact check3_shxd_16_4
  | 5, _ => exact check3_shxd_16_5
  | 6, _ => exact check3_shxd_16_6
  | 7, _ => exact check3_shxd_16_7
  | 8, _ => exact check3_shxd_16_8
  | 9, _ => exact check3_shxd_16_9
  | 10, _ => exact check3_shxd_16_10
  | 11, _ => exact check3_shxd_16_11
  | 12, _ => exact check3_shxd_16_12
  | 13, _ => exact check3_shxd_16_13
  | 14, _ => exact check3_shxd_16_14
  | 15, _ => exact check3_shxd_16_15
  | 16, _ => exact check3_shxd_16_16
  | 17, _ => exact check3_shxd_16_17
  | n + 18, h => omega

end Verif.Ins
