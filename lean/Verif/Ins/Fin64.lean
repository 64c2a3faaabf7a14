import Verif.Ins.Check
/-! # C64: the finite check for 64-bit code, evaluated by the kernel (one theorem for each kind of the first operand, because of
the memory the kernel needs) -/
namespace Verif.Ins
set_option maxRecDepth 100000

theorem check1_64 : check1 .u64 = true := by decide +kernel

theorem check2_64_0 : check2 .u64 0 = true := by decide +kernel
theorem check2_64_1 : check2 .u64 1 = true := by decide +kernel
theorem check2_64_2 : check2 .u64 2 = true := by decide +kernel
theorem check2_64_3 : check2 .u64 3 = true := by decide +kernel
theorem check2_64_4 : check2 .u64 4 = true := by decide +kernel
theorem check2_64_5 : check2 .u64 5 = true := by decide +kernel
theorem check2_64_6 : check2 .u64 6 = true := by decide +kernel
theorem check2_64_7 : check2 .u64 7 = true := by decide +kernel
theorem check2_64_8 : check2 .u64 8 = true := by decide +kernel
theorem check2_64_9 : check2 .u64 9 = true := by decide +kernel
theorem check2_64_10 : check2 .u64 10 = true := by decide +kernel
theorem check2_64_11 : check2 .u64 11 = true := by decide +kernel
theorem check2_64_12 : check2 .u64 12 = true := by decide +kernel
theorem check2_64_13 : check2 .u64 13 = true := by decide +kernel
theorem check2_64_14 : check2 .u64 14 = true := by decide +kernel
theorem check2_64_15 : check2 .u64 15 = true := by decide +kernel
theorem check2_64_16 : check2 .u64 16 = true := by decide +kernel
theorem check2_64_17 : check2 .u64 17 = true := by decide +kernel

theorem check2_64 (i : Nat) (hi : i < 18) : check2 .u64 i = true := by
  match i, hi with
  | 0, _ => exact check2_64_0
  | 1, _ => exact check2_64_1
  | 2, _ => exact check2_64_2
  | 3, _ => exact check2_64_3
  | 4, _ => exact check2_64_4
  | 5, _ => exact check2_64_5
  | 6, _ => exact check2_64_6
  | 7, _ => exact check2_64_7
  | 8, _ => exact check2_64_8
  | 9, _ => exact check2_64_9
  | 10, _ => exact check2_64_10
  | 11, _ => exact check2_64_11
  | 12, _ => exact check2_64_12
  | 13, _ => exact check2_64_13
  | 14, _ => exact check2_64_14
  | 15, _ => exact check2_64_15
  | 16, _ => exact check2_64_16
  | 17, _ => exact check2_64_17
  | n + 18, h => omega

theorem check3_imul_64_0 : check3 .u64 .imul 0 = true := by decide +kernel
theorem check3_imul_64_1 : check3 .u64 .imul 1 = true := by decide +kernel
theorem check3_imul_64_2 : check3 .u64 .imul 2 = true := by decide +kernel
theorem check3_imul_64_3 : check3 .u64 .imul 3 = true := by decide +kernel
theorem check3_imul_64_4 : check3 .u64 .imul 4 = true := by decide +kernel
theorem check3_imul_64_5 : check3 .u64 .imul 5 = true := by decide +kernel
theorem check3_imul_64_6 : check3 .u64 .imul 6 = true := by decide +kernel
theorem check3_imul_64_7 : check3 .u64 .imul 7 = true := by decide +kernel
theorem check3_imul_64_8 : check3 .u64 .imul 8 = true := by decide +kernel
theorem check3_imul_64_9 : check3 .u64 .imul 9 = true := by decide +kernel
theorem check3_imul_64_10 : check3 .u64 .imul 10 = true := by decide +kernel
theorem check3_imul_64_11 : check3 .u64 .imul 11 = true := by decide +kernel
theorem check3_imul_64_12 : check3 .u64 .imul 12 = true := by decide +kernel
theorem check3_imul_64_13 : check3 .u64 .imul 13 = true := by decide +kernel
theorem check3_imul_64_14 : check3 .u64 .imul 14 = true := by decide +kernel
theorem check3_imul_64_15 : check3 .u64 .imul 15 = true := by decide +kernel
theorem check3_imul_64_16 : check3 .u64 .imul 16 = true := by decide +kernel
theorem check3_imul_64_17 : check3 .u64 .imul 17 = true := by decide +kernel

theorem check3_imul_64 (i : Nat) (hi : i < 18) : check3 .u64 .imul i = true := by
  match i, hi with
  | 0, _ => exact check3_imul_64_0
  | 1, _ => exact check3_imul_64_1
  | 2, _ => exact check3_imul_64_2
  | 3, _ => exact check3_imul_64_3
  | 4, _ => exact check3_imul_64_4
  | 5, _ => exact check3_imul_64_5
  | 6, _ => exact check3_imul_64_6
  | 7, _ => exact check3_imul_64_7
  | 8, _ => exact check3_imul_64_8
  | 9, _ => exact check3_imul_64_9
  | 10, _ => exact check3_imul_64_10
  | 11, _ => exact check3_imul_64_11
  | 12, _ => exact check3_imul_64_12
  | 13, _ => exact check3_imul_64_13
  | 14, _ => exact check3_imul_64_14
  | 15, _ => exact check3_imul_64_15
  | 16, _ => exact check3_imul_64_16
  | 17, _ => exact check3_imul_64_17
  | n + 18, h => omega

theorem check3_shxd_64_0 : check3 .u64 .shxd 0 = true := by decide +kernel
theorem check3_shxd_64_1 : check3 .u64 .shxd 1 = true := by decide +kernel
theorem check3_shxd_64_2 : check3 .u64 .shxd 2 = true := by decide +kernel
theorem check3_shxd_64_3 : check3 .u64 .shxd 3 = true := by decide +kernel
theorem check3_shxd_64_4 : check3 .u64 .shxd 4 = true := by decide +kernel
theorem check3_shxd_64_5 : check3 .u64 .shxd 5 = true := by decide +kernel
theorem check3_shxd_64_6 : check3 .u64 .shxd 6 = true := by decide +kernel
theorem check3_shxd_64_7 : check3 .u64 .shxd 7 = true := by decide +kernel
theorem check3_shxd_64_8 : check3 .u64 .shxd 8 = true := by decide +kernel
theorem check3_shxd_64_9 : check3 .u64 .shxd 9 = true := by decide +kernel
theorem check3_shxd_64_10 : check3 .u64 .shxd 10 = true := by decide +kernel
theorem check3_shxd_64_11 : check3 .u64 .shxd 11 = true := by decide +kernel
theorem check3_shxd_64_12 : check3 .u64 .shxd 12 = true := by decide +kernel
theorem check3_shxd_64_13 : check3 .u64 .shxd 13 = true := by decide +kernel
theorem check3_shxd_64_14 : check3 .u64 .shxd 14 = true := by decide +kernel
theorem check3_shxd_64_15 : check3 .u64 .shxd 15 = true := by decide +kernel
theorem check3_shxd_64_16 : check3 .u64 .shxd 16 = true := by decide +kernel
theorem check3_shxd_64_17 : check3 .u64 .shxd 17 = true := by decide +kernel

theorem check3_shxd_64 (i : Nat) (hi : i < 18) : check3 .u64 .shxd i = true := by
  match i, hi with
  | 0, _ => exact check3_shxd_64_0
  | 1, _ => exact check3_shxd_64_1
  | 2, _ => exact check3_shxd_64_2
  | 3, _ => exact check3_shxd_64_3
  | 4, _ => exact check3_shxd_64_4
  | 5, _ => exact check3_shxd_64_5
  | 6, _ => exact check3_shxd_64_6
  | 7, _ => exact check3_shxd_64_7
  | 8, _ => exact check3_shxd_64_8
  | 9, _ => exact check3_shxd_64_9
  | 10, _ => exact check3_shxd_64_10
  | 11, _ => exact check3_shxd_64_11
  | 12, _ => exact check3_shxd_64_12
  | 13, _ => exact check3_shxd_64_13
  | 14, _ => exact check3_shxd_64_14
  | 15, _ => exact check3_shxd_64_15
  | 16, _ => exact check3_shxd_64_16
  | 17, _ => exact check3_shxd_64_17
  | n + 18, h => omega

end Verif.Ins
