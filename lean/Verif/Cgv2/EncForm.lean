import Verif.Cgv2.EncHead

/-!
# From a table row to the instruction of the manual: operands and ModRM

`Holds`, `Says` and `Operands` are the specification; `rowCommon` is a check made for every row
of the table by the kernel.
-/

namespace Verif.Cgv2

open Isa

/-- The operand types of a row. -/
def opList (r : Instr) : List OpType := r.ops.filter (fun t => t != .OP_N)

/-- The entry of the manual for a row. -/
def manual (r : Instr) : Option Entry :=
  if has r.flags SRCHDSTLF then sdmAlt r.mnemonic (opList r) else sdm r.mnemonic (opList r)

/-- The operand written is what the ModRM operand of the instruction says. -/
def Holds (m64 vsib : Bool) (t : OpType) (x : Opnd) : RM → Prop
  | .reg n => IsReg t x n
  | .mem b i s d rip w => isMem t = true ∧ IsMem m64 vsib x b i s d rip w

/-- Segment override prefixes of the manual (vol. 2, 2.1.1). -/
def segOverride : SegReg → Nat
  | .es => 0x26 | .cs => 0x2e | .ss => 0x36 | .ds => 0x3e | .fs => 0x64 | .gs => 0x65

/-- The instruction read says what was written. -/
structure Says (r : Instr) (f : Form) (o : Nat → Opnd) (c : Ctx) (rd : Reading) : Prop where
  reg : ∀ k, f.reg = some k → IsReg (r.op k) (o k) rd.reg
  rm : Holds c.m64 f.vsib (r.op f.rm) (o f.rm) rd.rm
  v : ∀ k, f.v = some k → IsReg (r.op k) (o k) rd.v
  imm : ∀ k n, f.imm = some (k, n) → rd.imm = (o k).data % 256 ^ n
  is4 : ∀ k, f.is4 = some k → IsReg (r.op k) (o k) rd.is4
  seg : rd.seg = match c.seg with
    | none => 0
    | some s => segOverride s

theorem segByte_eq (s : SegReg) : segByte s = segOverride s := by cases s <;> rfl

/-- The register exists in the mode and encoding space. -/
def Fits (m64 : Bool) (k : Kind) (n : Nat) : Prop :=
  if m64 then (if k = .evex then n < 32 else n < 16) else n < 8

/-- Numbers of the registers of a ModRM operand fit. -/
def RMFits (m64 : Bool) (k : Kind) : RM → Prop
  | .reg n => Fits m64 k n
  | .mem _ i _ _ _ _ => k ≠ .evex → i.getD 0 < 16

/-- What the parser hands over: every operand is a register or address of the row's type. -/
structure Operands (r : Instr) (f : Form) (o : Nat → Opnd) (c : Ctx) (k : Kind) (rm : RM) : Prop where
  reg : ∀ i, f.reg = some i → ∃ n, IsReg (r.op i) (o i) n ∧ Fits c.m64 k n
  hrm : Holds c.m64 f.vsib (r.op f.rm) (o f.rm) rm
  rmFits : RMFits c.m64 k rm
  /-- a vector index is present where one is demanded -/
  vsib : f.vsib = true → ∀ b s d rip w, rm ≠ .mem b none s d rip w
  v : ∀ i, f.v = some i → ∃ n, IsReg (r.op i) (o i) n ∧ Fits c.m64 k n
  /-- the parser stores the number of a register operand in the operand data -/
  is4 : ∀ i, f.is4 = some i → ∃ n, IsReg (r.op i) (o i) n ∧ Fits c.m64 .vex n ∧ (o i).data = n
  pfx : c.pfx = none
  /-- segment overrides: where the row allows them -/
  seg : c.seg = none ∨ (has r.flags ALLOW_SEGF = true ∧
    (c.m64 = true → has r.flags ALLOW_SEGXF = false →
      c.seg = some .fs ∨ c.seg = some .gs ∨ c.seg = some .ss))

/-! ## Row check -/

/-- The ModRM, memory and immediate columns of a row agree with a form. -/
def rowCommon (r : Instr) (f : Form) (isV : Bool) : Bool :=
  has r.flags F_MODRMF && !has r.flags F_OPCODE_REGF && !has r.flags OPCODE_EXTF &&
  (r.opDir == REG_DST || r.opDir == RM_DST) &&
  (match f.reg with
   | some k => has r.flags F_MODRM_REGF && regType (r.op k) && f.digit.isNone &&
      (k == if r.opDir == REG_DST then 0 else sourceIdx r isV)
   | none => !has r.flags F_MODRM_REGF && f.digit == some 0) &&
  (if isMem (r.op f.rm) then r.memOpnd == f.rm && r.modRM == 0 && !has r.flags F_MODRM_RMF
   else regType (r.op f.rm) && r.memOpnd == NO_MEM && r.modRM == 0xc0 && has r.flags F_MODRM_RMF &&
    (f.rm == if r.opDir == REG_DST then sourceIdx r isV else 0)) &&
  (match f.imm, f.is4 with
   | some (k, n), none => r.immOpnd == k && decide (k < 4) && !has r.vexflags VEX_4OPNDF &&
      (n == if has r.flags IMM8_ONLYF then 1 else r.opSize)
   | none, some k => r.immOpnd == k && decide (k < 4) && has r.vexflags VEX_4OPNDF &&
      has r.flags IMM8_ONLYF && regType (r.op k)
   | none, none => r.immOpnd == NO_IMM
   | some _, some _ => false) &&
  decide (f.rm < 4) &&
  (f.vsib == has r.vexflags VEX_VSIBF) && (!has r.evexflags EVEX_VSIBF || f.vsib)

/-! ## ModRM and the bytes after it -/

/-- The reading of the prefix agrees with the ModRM operand. -/
def RMHead (m64 vsib : Bool) (hd : Head) : RM → Prop
  | .reg n => n % 8 + addIf hd.b 8 + (if hd.kind = .evex then addIf hd.x 16 else 0) = n
  | .mem b i _ _ _ w => HeadFits hd vsib (m64 && w == 4) b i

/-- The displacement multiplier agrees. -/
def RMScale (r : Instr) (x : Opnd) (c : Ctx) (n : Nat) : RM → Prop
  | .reg _ => True
  | .mem b _ _ d _ _ => DispScale r x c b d n

def rmAso (m64 : Bool) : RM → Bool
  | .reg _ => false
  | .mem _ _ _ _ _ w => m64 && w == 4

def rmB : RM → Bool
  | .reg _ => false
  | .mem b _ _ _ _ _ => decide (8 ≤ b.getD 0 ∧ b.getD 0 < 16)

def rmX (r : Instr) : RM → Bool
  | .reg _ => false
  | .mem _ i _ _ _ _ => decide (7 < encIdx r i ∧ encIdx r i < 16)

theorem modrm_reg (m64 : Bool) (h : Head) (vsib : Bool) (n reg m : Nat) (tail : List Nat)
    (hreg : reg < 8) (hm : m < 8) :
    modrm m64 h vsib n ((192 + reg * 8 + m) :: tail) =
      some (reg + h.rAdd, .reg (m + addIf h.b 8 + (if h.kind = .evex then addIf h.x 16 else 0)), tail) := by
  have e1 : (192 + reg * 8 + m) / 64 % 4 = 3 := by omega
  have e2 : (192 + reg * 8 + m) / 8 % 8 = reg := by omega
  have e3 : (192 + reg * 8 + m) % 8 = m := by omega
  unfold modrm
  simp only [e1, e2, e3, if_true]

theorem modrm_c0 : ∀ (a b : Fin 8), 0 ||| (0xc0 ||| 0 ||| (a.1 <<< 3) ||| b.1) = 192 + a.1 * 8 + b.1 := by
  decide +kernel

/-- The number put into ModRM.reg. -/
def regNo (f : Form) (o : Nat → Opnd) : Nat := match f.reg with
  | some k => getRegisterNo (o k).base
  | none => 0

theorem isReg_regType {m64 vsib : Bool} {t : OpType} {x : Opnd} {rm : RM}
    (h : Holds m64 vsib t x rm) (ht : isMem t = false) : ∃ n, rm = .reg n ∧ IsReg t x n := by
  cases rm with
  | reg n => exact ⟨n, rfl, h⟩
  | mem b i s d rip w => exact absurd h.1 (by simp [ht])

theorem memTypes_check : regTable.all (fun g =>
    [matchReg g, (matchReg g).map demoteOperand].all (fun t => match t with
      | none => true
      | some t => !isMem t)) = true := by decide +kernel

theorem isReg_not_mem {t : OpType} {x : Opnd} {n : Nat} (h : IsReg t x n) : isMem t = false := by
  obtain ⟨g, hg, _, _, _, _, hm⟩ := h
  have hc := List.all_eq_true.mp (List.all_eq_true.mp memTypes_check g hg) (some t) (by
    rcases hm with hm | hm <;> simp [hm])
  simpa using hc

theorem buildModRM_reg (r : Instr) (f : Form) (o : Nat → Opnd) (isV : Bool)
    (hrow : rowCommon r f isV = true) (hr : isMem (r.op f.rm) = false) :
    buildModRM r o isV = (0xc0 ||| 0 ||| ((regNo f o % 8) <<< 3) ||| (getRegisterNo (o f.rm).base % 8)) ∧
      r.memOpnd = NO_MEM ∧ has r.flags F_MODRMF = true := by
  unfold rowCommon at hrow
  simp only [Bool.and_eq_true] at hrow
  obtain ⟨⟨⟨⟨⟨⟨⟨⟨⟨h1, h2⟩, h3⟩, h4⟩, h5⟩, h6⟩, h7⟩, h8⟩, h9⟩, h10⟩ := hrow
  rw [hr] at h6
  simp only [Bool.false_eq_true, if_false, Bool.and_eq_true] at h6
  obtain ⟨⟨⟨⟨h61, h62⟩, h63⟩, h64⟩, h65⟩ := h6
  have hext : has r.flags OPCODE_EXTF = false := by simpa using h3
  have hm : r.modRM = 0xc0 := by simpa using h63
  refine ⟨?_, by simpa using h62, h1⟩
  unfold buildModRM regNo
  simp only [h1, if_true, hext, h64, hm, Bool.true_and, Bool.false_eq_true, if_false]
  by_cases hd : (r.opDir == REG_DST) = true
  · have hrm : f.rm = sourceIdx r isV := by simpa [hd] using h65
    simp only [hd, if_true, hrm, Bool.and_true]
    cases hf : f.reg with
    | some k =>
      rw [hf] at h5
      simp only [Bool.and_eq_true, hd, if_true] at h5
      have hk : k = 0 := by simpa using h5.2
      subst hk
      simp only [h5.1.1.1, if_true, and7]
    | none =>
      rw [hf] at h5
      simp only [Bool.and_eq_true] at h5
      have hmr : has r.flags F_MODRM_REGF = false := by simpa using h5.1
      simp [hmr, and7]
  · have hd' : (r.opDir == REG_DST) = false := by simpa using hd
    have hrd : (r.opDir == RM_DST) = true := by
      simp only [Bool.or_eq_true] at h4
      rcases h4 with h | h
      · exact absurd h hd
      · exact h
    have hrm : f.rm = 0 := by simpa [hd'] using h65
    simp only [hd', hrd, if_true, hrm, Bool.and_true, Bool.and_false, Bool.false_eq_true, if_false]
    cases hf : f.reg with
    | some k =>
      rw [hf] at h5
      simp only [Bool.and_eq_true, hd', Bool.false_eq_true, if_false] at h5
      have hk : k = sourceIdx r isV := by simpa using h5.2
      subst hk
      simp only [h5.1.1.1, if_true, and7]
    | none =>
      rw [hf] at h5
      simp only [Bool.and_eq_true] at h5
      have hmr : has r.flags F_MODRM_REGF = false := by simpa using h5.1
      simp [hmr, and7]

theorem buildModRM_mem (r : Instr) (f : Form) (o : Nat → Opnd) (isV : Bool)
    (hrow : rowCommon r f isV = true) (hr : isMem (r.op f.rm) = true) :
    buildModRM r o isV = (regNo f o % 8) <<< 3 ∧ r.memOpnd = f.rm ∧ f.rm < 4 ∧
      has r.flags F_MODRMF = true := by
  unfold rowCommon at hrow
  simp only [Bool.and_eq_true] at hrow
  obtain ⟨⟨⟨⟨⟨⟨⟨⟨⟨h1, h2⟩, h3⟩, h4⟩, h5⟩, h6⟩, h7⟩, h8⟩, h9⟩, h10⟩ := hrow
  rw [hr] at h6
  simp only [if_true, Bool.and_eq_true] at h6
  obtain ⟨⟨h61, h62⟩, h63⟩ := h6
  have hext : has r.flags OPCODE_EXTF = false := by simpa using h3
  have hm : r.modRM = 0 := by simpa using h62
  have hrm : has r.flags F_MODRM_RMF = false := by simpa using h63
  refine ⟨?_, by simpa using h61, by simpa using h8, h1⟩
  unfold buildModRM regNo
  simp only [h1, if_true, hext, hrm, hm, Bool.false_and, Bool.false_eq_true, if_false, Nat.or_zero,
    Nat.zero_or]
  by_cases hd : (r.opDir == REG_DST) = true
  · simp only [hd, Bool.and_true]
    cases hf : f.reg with
    | some k =>
      rw [hf] at h5
      simp only [Bool.and_eq_true, hd, if_true] at h5
      have hk : k = 0 := by simpa using h5.2
      subst hk
      simp only [h5.1.1.1, if_true, and7]
    | none =>
      rw [hf] at h5
      simp only [Bool.and_eq_true] at h5
      have hmr : has r.flags F_MODRM_REGF = false := by simpa using h5.1
      simp [hmr]
  · have hd' : (r.opDir == REG_DST) = false := by simpa using hd
    have hrd : (r.opDir == RM_DST) = true := by
      simp only [Bool.or_eq_true] at h4
      rcases h4 with h | h
      · exact absurd h hd
      · exact h
    simp only [hd', hrd, Bool.and_true, Bool.and_false, Bool.false_eq_true, if_false]
    cases hf : f.reg with
    | some k =>
      rw [hf] at h5
      simp only [Bool.and_eq_true, hd', Bool.false_eq_true, if_false] at h5
      have hk : k = sourceIdx r isV := by simpa using h5.2
      subst hk
      simp only [h5.1.1.1, if_true, and7]
    | none =>
      rw [hf] at h5
      simp only [Bool.and_eq_true] at h5
      have hmr : has r.flags F_MODRM_REGF = false := by simpa using h5.1
      simp [hmr]

/-- ModRM, SIB, displacement: built without error and read back as written. -/
theorem tail_read (r : Instr) (f : Form) (o : Nat → Opnd) (c : Ctx) (k : Kind) (rm : RM) (isV : Bool)
    (hrow : rowCommon r f isV = true)
    (hrm : Holds c.m64 f.vsib (r.op f.rm) (o f.rm) rm) (hfit : RMFits c.m64 k rm)
    (hvs : f.vsib = true → ∀ b s d rip w, rm ≠ .mem b none s d rip w)
    (hev : k ≠ .evex → has r.evexflags EVEX_VSIBF = false)
    (hev2 : k = .evex → f.vsib = has r.evexflags EVEX_VSIBF) :
    ∃ me, memPart r o c = some me ∧ me.aso = rmAso c.m64 rm ∧ me.needB = rmB rm ∧
      me.needX = rmX r rm ∧
      me.rex = (if r.vexflags == 0 then (if rmB rm then 0x41 else 0) ||| (if rmX r rm then 0x42 else 0)
        else 0) ∧
      (me.needModRM || has r.flags F_MODRMF) = true ∧
      ∀ hd n rest, RMHead c.m64 f.vsib hd rm → RMScale r (o f.rm) c n rm →
        modrm c.m64 hd f.vsib n ((me.modRM ||| buildModRM r o isV) ::
          ((if me.needSIB then [me.sib] else []) ++ dispBytes me.dispSize me.lo me.hi ++ rest)) =
        some (regNo f o % 8 + hd.rAdd, rm, rest) := by
  cases hmt : isMem (r.op f.rm) with
  | false =>
    obtain ⟨h1, h2, h3⟩ := buildModRM_reg r f o isV hrow hmt
    obtain ⟨m, rfl, hreg⟩ := isReg_regType hrm hmt
    have hrt : regType (r.op f.rm) = true := by
      unfold rowCommon at hrow
      simp only [Bool.and_eq_true] at hrow
      obtain ⟨⟨⟨⟨⟨⟨⟨⟨⟨_, _⟩, _⟩, _⟩, _⟩, h6⟩, _⟩, _⟩, _⟩, _⟩ := hrow
      rw [hmt] at h6
      simp only [Bool.false_eq_true, if_false, Bool.and_eq_true] at h6
      exact h6.1.1.1.1
    obtain ⟨hno, _, _, _, _⟩ := isReg_no hrt hreg
    refine ⟨⟨false, 0, 0, 0, false, false, 0, 0, 0, false, false, false⟩, ?_, rfl, rfl, rfl, ?_, ?_, ?_⟩
    · unfold memPart; rw [h2]; rfl
    · simp [rmB, rmX]
    · simp [h3]
    · intro hd n rest hh _
      simp only [RMHead] at hh
      rw [h1, hno]
      have := modrm_c0 ⟨regNo f o % 8, by omega⟩ ⟨m % 8, by omega⟩
      simp only at this
      simp only [this, Bool.false_eq_true, if_false, dispBytes, leBytes, List.nil_append]
      rw [modrm_reg _ _ _ _ _ _ _ (by omega) (by omega), hh]
  | true =>
    obtain ⟨h1, h2, h3, h4⟩ := buildModRM_mem r f o isV hrow hmt
    cases rm with
    | reg n =>
      have := isReg_not_mem hrm
      rw [this] at hmt
      simp at hmt
    | mem base index scale d rip width =>
      have hM : IsMem c.m64 f.vsib (o f.rm) base index scale d rip width := hrm.2
      have hv1 : has r.evexflags EVEX_VSIBF = true → f.vsib = true := by
        intro h
        unfold rowCommon at hrow
        simp only [Bool.and_eq_true] at hrow
        have := hrow.2
        rw [h] at this
        simpa using this
      have hv2 : f.vsib = true →
          index ≠ none ∧ (has r.evexflags EVEX_VSIBF = false → index.getD 0 < 16) := by
        intro h
        refine ⟨?_, ?_⟩
        · intro hi; subst hi; exact hvs h base scale d rip width rfl
        · intro hE
          by_cases hk : k = .evex
          · have := hev2 hk
            rw [h, hE] at this
            simp at this
          · exact hfit hk
      obtain ⟨b1, b2, b3, b4, b5, b6⟩ := isMem_base hM
      obtain ⟨i1, i2, i3, i4, i5⟩ := isMem_idx hM
      have hidx : ∀ i, index = some i → encIdx r index < 16 := by
        intro i hi
        have h32 := i2 i hi
        have h32' : i < 32 := by split at h32 <;> omega
        unfold encIdx idxLow
        rw [hi]
        simp only [Option.getD_some]
        cases hE : has r.evexflags EVEX_VSIBF with
        | true => simp only [if_true]; split <;> omega
        | false =>
          simp only [Bool.false_eq_true, if_false]
          cases hv : f.vsib with
          | true => have := (hv2 hv).2 hE; rw [hi] at this; simpa using this
          | false => rw [hv] at h32; simpa using h32
      have hn : index = none → has r.evexflags EVEX_VSIBF = false := by
        intro hi
        cases hE : has r.evexflags EVEX_VSIBF with
        | false => rfl
        | true => exact absurd hi (hv2 (hv1 hE)).1
      have hrb : rip = true → base = none := by
        intro h
        have := hM.hrip
        rw [h] at this
        cases base with
        | none => rfl
        | some b => simp at this
      obtain ⟨e, he, he1, he2, he3, he4⟩ := expMem_some c.m64 r base index rip b2 hidx hn hrb hM.hripi
      obtain ⟨rr, hbm⟩ := buildMem_eq r (o f.rm) c f.vsib base index scale d rip width hM hv1 hv2 e he he1
      have hB : (decide ((if rip then 16 else base.getD 17) > 7 ∧ (if rip then 16 else base.getD 17) < 16))
          = rmB (.mem base index scale d rip width) := by
        unfold rmB
        cases hb : base with
        | none => cases rip <;> simp
        | some b =>
          have hr : rip = false := by
            cases h : rip with
            | false => rfl
            | true => rw [hrb h] at hb; simp at hb
          have := b2 b hb
          rw [hr]
          simp only [Bool.false_eq_true, if_false, Option.getD_some]
          apply decide_eq_decide.mpr
          omega
      refine ⟨memResult r (o f.rm) c e (if rip then 16 else base.getD 17) (encIdx r index)
        (c.m64 && width == 4) rr, ?_, rfl, hB, rfl, ?_, ?_, ?_⟩
      · unfold memPart
        have hm1 : (r.memOpnd == NO_MEM) = false := by
          rw [h2]; simp [NO_MEM]; omega
        have hm2 : r.memOpnd < NO_MEM := by rw [h2]; simp [NO_MEM]; omega
        rw [hm1, if_pos hm2, h2]
        exact hbm
      · unfold memResult
        simp only [hB]
        rfl
      · rw [h4]; simp
      · intro hd n rest hh hs
        have := mem_read r (o f.rm) c f.vsib base index scale d rip width hM hv1 hv2 e he he2 he3 he4 n hs
          hd (c.m64 && width == 4) rr (if rip then 16 else base.getD 17) (encIdx r index) hh
          (regNo f o % 8) (by omega) rest
        rw [h1]
        exact this

end Verif.Cgv2
