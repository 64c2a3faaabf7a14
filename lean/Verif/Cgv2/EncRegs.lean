import Verif.Cgv2.Enc
import Verif.Cgv2.Sdm
import Verif.Cgv2.LookupProps

/-!
# Operands as the programmer wrote them, and the register facts

Specification part: what it means that an operand names a register or an address.  The hardware
number of a register is the `bytval` column of H/special.h.
-/

namespace Verif.Cgv2

/-- Hardware number of a register line (the debug registers carry an extra 0x10). -/
def RegRow.hw (g : RegRow) : Nat :=
  if g.opcls = 0x1000 ∧ 0x10 ≤ g.num then g.num - 0x10 else g.num

/-- Operand `x` is the register with hardware number `n`, and its operand type (exact or
demoted, as in the two lookups) is `t`. -/
def IsReg (t : OpType) (x : Opnd) (n : Nat) : Prop :=
  ∃ g, g ∈ regTable ∧ x.base = some g.tok ∧ n = g.hw ∧ x.indirect = false ∧ x.idx = none ∧
    (matchReg g = some t ∨ (matchReg g).map demoteOperand = some t)

/-- Register operand types of the shipped table. -/
def regType (t : OpType) : Bool :=
  t ∈ [.R8, .R16, .R32, .R64, .R8_AL, .R16_AX, .R32_EAX, .R64_RAX, .R8E, .R16E, .R32E, .R64E,
    .R_CR8, .R_CR, .R_DR, .R8H, .R8U, .R_SEG, .R_SEGE, .R_XMM, .R_YMM, .R_ZMM]

/-- Least and greatest register number of a type. -/
def typeRange : OpType → Nat × Nat
  | .R8 => (0, 3)
  | .R8_AL | .R16_AX | .R32_EAX | .R64_RAX => (0, 0)
  | .R8H | .R8U => (4, 7)
  | .R8E | .R16E | .R32E | .R64E => (8, 15)
  | .R_CR8 => (8, 8)
  | .R_XMM | .R_YMM | .R_ZMM => (0, 31)
  | _ => (0, 7)

/-- `GetRegisterNo` delivers the hardware number for every register of these types, and the
number lies in the range of the type. -/
theorem regs_check : regTable.all (fun g =>
    [matchReg g, (matchReg g).map demoteOperand].all (fun t => match t with
      | none => true
      | some t => !regType t || (getRegisterNo (some g.tok) == g.hw &&
          decide ((typeRange t).1 ≤ g.hw ∧ g.hw ≤ (typeRange t).2)))) = true := by
  decide +kernel

theorem isReg_no {t : OpType} {x : Opnd} {n : Nat} (ht : regType t = true) (h : IsReg t x n) :
    getRegisterNo x.base = n ∧ (typeRange t).1 ≤ n ∧ n ≤ (typeRange t).2 ∧ x.base.isSome = true ∧
      x.indirect = false := by
  obtain ⟨g, hg, hb, hn, hi, _, hm⟩ := h
  have hc := List.all_eq_true.mp (List.all_eq_true.mp regs_check g hg) (some t) (by
    rcases hm with hm | hm <;> simp [hm])
  simp [ht] at hc
  subst hn
  rw [hb]
  exact ⟨hc.1, hc.2.1, hc.2.2, rfl, hi⟩

/-- General registers of address size `w`, by hardware number. -/
def addrReg (w n : Nat) (g : RegRow) : Prop :=
  g ∈ regTable ∧ g.size = w ∧ g.opcls &&& 0xf = w ∧ g.num = n

/-- Vector registers by hardware number. -/
def vecReg (n : Nat) (g : RegRow) : Prop :=
  g ∈ regTable ∧ (g.opcls = 0x20 ∨ g.opcls = 0x80 ∨ g.opcls = 0x100) ∧ g.num = n

theorem addrRegs_check : regTable.all (fun g =>
    ((g.size == 8 && g.opcls &&& 0xf == 8) || (g.size == 4 && g.opcls &&& 0xf == 4)) →
    (getRegisterNo (some g.tok) == g.num && decide (g.num < 16) &&
      sizeFromRegister (some g.tok) == g.size && !isSimdRegister (some g.tok))) = true := by
  decide +kernel

theorem vecRegs_check : regTable.all (fun g =>
    (g.opcls == 0x20 || g.opcls == 0x80 || g.opcls == 0x100) →
    (getRegisterNo (some g.tok) == g.num && decide (g.num < 32) &&
      decide (16 ≤ sizeFromRegister (some g.tok)) && isSimdRegister (some g.tok))) = true := by
  decide +kernel

theorem addrReg_facts {w n : Nat} {g : RegRow} (hw : w = 4 ∨ w = 8) (h : addrReg w n g) :
    getRegisterNo (some g.tok) = n ∧ n < 16 ∧ sizeFromRegister (some g.tok) = w ∧
      isSimdRegister (some g.tok) = false := by
  obtain ⟨hg, hs, ho, hn⟩ := h
  have hc := List.all_eq_true.mp addrRegs_check g hg
  have : (g.size == 8 && g.opcls &&& 0xf == 8) || (g.size == 4 && g.opcls &&& 0xf == 4) := by
    rcases hw with hw | hw <;> subst hw <;> simp [hs, ho]
  simp only [this, decide_eq_true_eq, forall_const] at hc
  simp at hc
  subst hn; subst hs
  exact ⟨hc.1.1.1, hc.1.1.2, hc.1.2, hc.2⟩

theorem vecReg_facts {n : Nat} {g : RegRow} (h : vecReg n g) :
    getRegisterNo (some g.tok) = n ∧ n < 32 ∧ 16 ≤ sizeFromRegister (some g.tok) ∧
      isSimdRegister (some g.tok) = true := by
  obtain ⟨hg, ho, hn⟩ := h
  have hc := List.all_eq_true.mp vecRegs_check g hg
  have : (g.opcls == 0x20 || g.opcls == 0x80 || g.opcls == 0x100) := by
    rcases ho with ho | ho | ho <;> simp [ho]
  simp only [this, decide_eq_true_eq, forall_const] at hc
  simp at hc
  subst hn
  exact ⟨hc.1.1.1, hc.1.1.2, hc.1.2, hc.2⟩

/-! ## The memory tables -/

/-- ModRM, flags and SIB the architecture prescribes for base `b` and index `i` (17 = none,
16 = RIP), without displacement. -/
def expMem (m64 : Bool) (b i : Nat) : Option MemDef :=
  if b < 16 ∧ i = 17 then
    some ⟨b % 8, if b % 8 = 4 then 3 else if b % 8 = 5 then 5 else 1, if b % 8 = 4 then 0x24 else 0⟩
  else if b < 16 ∧ i < 16 then
    some ⟨4, if b % 8 = 5 then 7 else 3, i % 8 * 8 + b % 8⟩
  else if b = 17 ∧ i < 16 then some ⟨4, 11, i % 8 * 8 + 5⟩
  else if b = 17 ∧ i = 17 then (if m64 then some ⟨4, 11, 0x25⟩ else some ⟨5, 9, 0⟩)
  else if b = 16 ∧ i = 17 then some ⟨5, 9, 0⟩
  else none

theorem memTable64_check : ((List.range 18).all fun b => (List.range 18).all fun i =>
    match expMem true b i with
    | none => true
    | some e => (memTable true).getD (b * 18 + i % 18) default == e) = true := by
  decide +kernel

/-- 32-bit code has the registers 0-7 only. -/
theorem memTable32_check : ((List.range 18).all fun b => (List.range 18).all fun i =>
    !(b < 8 || b == 17) || !(i < 8 || i == 17) ||
    match expMem false b i with
    | none => true
    | some e => (memTable false).getD (b * 18 + i % 18) default == e) = true := by
  decide +kernel

/-- The memory tables agree with the architecture. -/
theorem memTable_eq {m64 : Bool} {b i : Nat} {e : MemDef} (h : expMem m64 b i = some e)
    (h32 : m64 = false → (b < 8 ∨ b = 17) ∧ (i < 8 ∨ i = 17)) :
    (memTable m64).getD (b * 18 + i % 18) default = e := by
  have hb : b < 18 := by
    unfold expMem at h
    by_cases hb : b < 18
    · exact hb
    · exfalso
      rw [if_neg (by omega), if_neg (by omega), if_neg (by omega), if_neg (by omega),
        if_neg (by omega)] at h
      exact absurd h (by simp)
  have hi : i < 18 := by
    unfold expMem at h
    by_cases hi : i < 18
    · exact hi
    · exfalso
      rw [if_neg (by omega), if_neg (by omega), if_neg (by omega), if_neg (by omega),
        if_neg (by omega)] at h
      exact absurd h (by simp)
  cases m64 with
  | true =>
    have := List.all_eq_true.mp (List.all_eq_true.mp memTable64_check b (List.mem_range.mpr hb)) i
      (List.mem_range.mpr hi)
    rw [h] at this
    exact eq_of_beq this
  | false =>
    have := List.all_eq_true.mp (List.all_eq_true.mp memTable32_check b (List.mem_range.mpr hb)) i
      (List.mem_range.mpr hi)
    rw [h] at this
    obtain ⟨h1, h2⟩ := h32 rfl
    have e1 : (decide (b < 8) || b == 17) = true := by simpa using h1
    have e2 : (decide (i < 8) || i == 17) = true := by simpa using h2
    rw [e1, e2] at this
    exact eq_of_beq this

end Verif.Cgv2
