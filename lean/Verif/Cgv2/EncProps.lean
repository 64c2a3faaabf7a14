import Verif.Cgv2.EncTable

/-!
# C45, C46, C47: the shipped table emits the instructions of the manual

`r` ranges over the shipped table (the row found by the lookup of C32), `o` over all operands,
`c` over all modes, prefixes and decorators.  `manual r` is the form of the manual
for mnemonic and operand types of the row (Sdm.lean), `readForm` reads bytes as an instruction of
that form, complete and with nothing left over, `Operands` says that the operands are registers and
addresses of the types of the row, `Says` that what is read is what was written.
-/

namespace Verif.Cgv2

open Isa

/-- Every row has a form in the manual, but for the six rows of `noForm`. -/
theorem shipped_covered (r : Instr) (h : r ∈ instrTable) (hn : noForm r = false) :
    ∃ e, manual r = some e := by
  have := row_ok h
  unfold rowMatch at this
  cases hm : manual r with
  | none => rw [hm] at this; simp [hn] at this
  | some e => exact ⟨e, rfl⟩

/-- C46, instructions without operands. -/
theorem shipped_fixed (r : Instr) (h : r ∈ instrTable) (bytes : List Nat)
    (hm : manual r = some (.fixed bytes)) (o : Nat → Opnd) (c : Ctx) (hev : c.evexFlag = false)
    (hp : c.pfx = none) (hs : c.seg = none) : emit r o c = some bytes := by
  have := row_ok h
  unfold rowMatch at this
  rw [hm] at this
  exact fixed_encodes r bytes this o c hev hp hs

/-- C46, register in the opcode. -/
theorem shipped_plusR (r : Instr) (h : r ∈ instrTable) (opcode sz k : Nat)
    (hm : manual r = some (.plusR opcode sz k)) (o : Nat → Opnd) (c : Ctx) (hev : c.evexFlag = false)
    (hp : c.pfx = none) (hs : c.seg = none) (h8 : sz = 8 → c.m64 = true) (n : Nat)
    (hn : IsReg (r.op 0) (o 0) n) (hf : Fits c.m64 .legacy n) :
    ∃ bs rex, emit r o c = some bs ∧
      readPlusR opcode sz k c.m64 bs = some (n, rex, (o 1).data % 256 ^ k) ∧
      (r.op 0 = .R8U → c.m64 = true → rex = true) ∧ (r.op 0 = .R8H → rex = false) := by
  have := row_ok h
  unfold rowMatch at this
  rw [hm] at this
  exact plusR_encodes r opcode sz k this o c hev hp hs h8 n hn hf

/-- C46, accumulator and absolute address `a`. -/
theorem shipped_moffs (r : Instr) (h : r ∈ instrTable) (opcode sz m : Nat)
    (hm : manual r = some (.moffs opcode sz m)) (o : Nat → Opnd) (c : Ctx) (hev : c.evexFlag = false)
    (hp : c.pfx = none) (hseg : c.seg = none ∨ (has r.flags ALLOW_SEGF = true ∧
      (c.m64 = true → has r.flags ALLOW_SEGXF = false →
        c.seg = some .fs ∨ c.seg = some .gs ∨ c.seg = some .ss)))
    (h8 : sz = 8 → c.m64 = true) (a : Nat)
    (ha : if c.m64 then a < 2 ^ 64 ∧ (o m).lo % 2 ^ 32 = (a % 2 ^ 32 : Nat) ∧ (o m).hi = a / 2 ^ 32
      else a < 2 ^ 32 ∧ (o m).lo % 2 ^ 32 = a) :
    ∃ bs, emit r o c = some bs ∧ readMoffs opcode sz c.m64 bs = some (match c.seg with
      | none => 0
      | some s => segOverride s, a) := by
  have := row_ok h
  unfold rowMatch at this
  rw [hm] at this
  exact moffs_encodes r opcode sz m this o c hev hp hseg h8 a ha

/-- C46, legacy encodings: in 32- and 64-bit code, for all registers, addresses, immediates and
segment overrides. -/
theorem shipped_legacy (r : Instr) (h : r ∈ instrTable) (f : Form) (e : Enc)
    (hm : manual r = some (.rm f)) (he : f.legacy = some e) (o : Nat → Opnd)
    (c : Ctx) (rm : RM) (hev : c.evexFlag = false) (ops : Operands r f o c .legacy rm)
    (h64 : f.osz = some 8 ∨ e.w = some true → c.m64 = true)
    (hpm : has r.flags REXP_MEMF = true → (o f.rm).memQword = (r.op f.rm == .M64)) :
    ∃ bs rd, emit r o c = some bs ∧ readForm f c.m64 bs = some rd ∧ rd.kind = .legacy ∧ rd.rm = rm ∧
      Says r f o c rd ∧
      (∀ k, (f.reg = some k ∨ f.rm = k) →
        (r.op k = .R8U → c.m64 = true → rd.rex = true) ∧ (r.op k = .R8H → RMLow rm → rd.rex = false)) := by
  have := row_ok h
  unfold rowMatch at this
  rw [hm] at this
  simp only [he, Bool.and_eq_true] at this
  exact legacy_encodes r f e this.1.1.2 o c rm hev ops h64 hpm

/-- C46, VEX encodings, partial: for the gathers the mask register must be one of the first eight: see
`gather_mask_changes_base`. -/
theorem shipped_vex_partial (r : Instr) (h : r ∈ instrTable) (f : Form) (e : Enc)
    (hm : manual r = some (.rm f)) (he : f.vex = some e) (o : Nat → Opnd)
    (c : Ctx) (rm : RM) (hev : c.evexFlag = false) (ops : Operands r f o c .vex rm)
    (hg : isGather r = true → ∀ n, IsReg (r.op 2) (o 2) n → n < 8) :
    ∃ bs rd, emit r o c = some bs ∧ readForm f c.m64 bs = some rd ∧ rd.kind = .vex ∧ rd.rm = rm ∧
      Says r f o c rd := by
  have := row_ok h
  unfold rowMatch at this
  rw [hm] at this
  simp only [he, Bool.and_eq_true] at this
  obtain ⟨⟨_, hk, hs⟩, _⟩ := this
  refine vex_encodes r f e hk o c rm hev ops ?_
  simp only [Bool.or_eq_true] at hs
  rcases hs with hs | hs
  · exact Or.inl hs
  · right
    unfold srcLowOk at hs
    simp only [Bool.and_eq_true] at hs
    obtain ⟨⟨⟨⟨⟨s1, s2⟩, s3⟩, s4⟩, s5⟩, s6⟩ := hs
    have s5' : r.srcidx = 2 := by simpa using s5
    have hv : f.v = some 2 := by simpa using s6
    obtain ⟨n, hn, _⟩ := ops.v 2 hv
    have hn8 := hg s1 n hn
    have hty : regType (r.op 2) = true := by
      unfold okVex at hk
      simp only [Bool.and_eq_true] at hk
      have hvo := hk.2
      unfold vOk at hvo
      rw [hv] at hvo
      simp only [Bool.and_eq_true] at hvo
      exact hvo.1
    refine ⟨by simpa using s2, by simpa using s3, s4, ?_⟩
    rw [s5', (regAbove_reg (m := 7) hty hn).1]
    simp; omega

/-! ## EVEX -/

/-- The decorators the row allows: mask and zeroing where the row takes them (a gather must have a
mask), a broadcast of as many elements as the row has, rounding where there is no memory operand. -/
structure Allowed (r : Instr) (c : Ctx) : Prop where
  mask : c.deco % 8 ≠ 0 → has r.evexflags EVEX_MASKF = true
  needMask : has r.evexflags EVEX_KF = true → c.deco % 8 ≠ 0
  zero : c.deco / 128 % 2 = 1 → has r.evexflags EVEX_ZF = true
  bcast : c.broad ≠ 0 → has r.evexflags EVEX_BRDF = true ∧
    (r.opElements, c.broad) ∈ [(16, 0x40), (8, 0x30), (4, 0x20), (2, 0x10)]
  sae : c.sae ≠ 0 → (has r.evexflags EVEX_SAEF = true → c.sae ≤ 0x10) ∧
    (has r.evexflags EVEX_SAEF = false → has r.evexflags EVEX_RNDF = true → c.sae ≠ 0x10 ∧ 3 ≤ r.memOpnd)

theorem evexErr_iff (r : Instr) (c : Ctx) (he : r.opElements ∈ [1, 2, 4, 8, 16]) :
    evexErr r c = false ↔ Allowed r c := by
  have ha : c.deco &&& 7 = c.deco % 8 := Nat.and_two_pow_sub_one_eq_mod c.deco 3
  have hb : ((r.opElements == 16 && c.broad != 0x40 && c.broad != 0) ||
      (r.opElements == 8 && c.broad != 0x30 && c.broad != 0) ||
      (r.opElements == 4 && c.broad != 0x20 && c.broad != 0) ||
      (r.opElements == 2 && c.broad != 0x10 && c.broad != 0) ||
      (r.opElements == 1 && c.broad != 0)) = false ↔
      (c.broad ≠ 0 → (r.opElements, c.broad) ∈ [(16, 0x40), (8, 0x30), (4, 0x20), (2, 0x10)]) := by
    simp only [List.mem_cons, List.not_mem_nil, or_false] at he
    rcases he with h | h | h | h | h <;> rw [h] <;> simp
    all_goals (constructor <;> (intro h; omega))
  constructor
  · intro h
    have f := evexErr_facts h
    unfold evexErr at h
    simp only [Bool.or_eq_false_iff] at h
    obtain ⟨⟨⟨⟨⟨⟨⟨⟨⟨h1, h2⟩, h3⟩, h4⟩, h5⟩, h6⟩, h7⟩, h8⟩, h9⟩, h10⟩ := h
    refine ⟨f.2.1, f.2.2.1, f.2.2.2.1, ?_, ?_⟩
    · intro hn
      refine ⟨f.1 hn, hb.mp ?_ hn⟩
      simp only [h2, h3, h4, h5, h6, Bool.or_self]
    · intro hn
      refine ⟨?_, ?_⟩
      · intro hs
        rw [hs] at h10
        simp [hn] at h10
        exact h10
      · intro hs hr
        rw [hs, hr] at h10
        simp [hn] at h10
        exact h10
  · intro ⟨a1, a2, a3, a4, a5⟩
    have hb' := hb.mpr (fun h => (a4 h).2)
    simp only [Bool.or_eq_false_iff] at hb'
    obtain ⟨⟨⟨⟨h2, h3⟩, h4⟩, h5⟩, h6⟩ := hb'
    unfold evexErr
    simp only [z_eq, ha, h2, h3, h4, h5, h6, Bool.or_false, Bool.or_eq_false_iff, Bool.and_eq_false_iff]
    refine ⟨⟨⟨⟨?_, ?_⟩, ?_⟩, ?_⟩, ?_⟩
    · cases hk : has r.evexflags EVEX_KF with
      | false => exact Or.inl rfl
      | true => right; simpa using a2 hk
    · by_cases h : c.broad = 0
      · left; simp [h]
      · right; simp [(a4 h).1]
    · by_cases h : c.deco % 8 = 0
      · right; simp [h]
      · left; simp [a1 h]
    · by_cases h : c.deco / 128 % 2 = 1
      · left; simp [a3 h]
      · right; simpa using h
    · by_cases h : c.sae = 0
      · left; simp [h]
      · right
        obtain ⟨s1, s2⟩ := a5 h
        split
        · next hs => have := s1 hs; simpa using this
        · next hs =>
          split
          · next hr =>
            have := s2 (by simpa using hs) hr
            simp [this]
          · rfl

/-- Decorators the row does not allow are an error, and so are any on a row without EVEX form. -/
theorem shipped_rejects (r : Instr) (h : r ∈ instrTable) (o : Nat → Opnd) (c : Ctx)
    (hev : c.evexFlag = true) :
    (r.evexflags = 0 → emit r o c = none) ∧
    (has r.vexflags EVEXF = true → ¬ Allowed r (promoted r c) → emit r o c = none) := by
  constructor
  · intro h0
    have he : (c.evexFlag && r.evexflags == 0) = true := by rw [hev, h0]; rfl
    cases hme : memPart r o { c with broad := promoteBroadcast r c.broad } with
    | none => unfold emit front; simp only [hme]
    | some me =>
      cases hvx : vexPart r o { c with broad := promoteBroadcast r c.broad } me with
      | none => unfold emit front; simp only [hme, hvx]
      | some vx => unfold emit front; simp only [hme, hvx, he, if_true]
  · intro hE ha
    have hel : r.opElements ∈ [1, 2, 4, 8, 16] := row_elements h hE
    have herr : evexErr r (promoted r c) = true := by
      cases hx : evexErr r (promoted r c) with
      | true => rfl
      | false => exact absurd ((evexErr_iff r _ hel).mp hx) ha
    cases hme : memPart r o { c with broad := promoteBroadcast r c.broad } with
    | none => unfold emit front; simp only [hme]
    | some me =>
      have hvp : vexPart r o (promoted r c) me =
          buildEVEX r o me.needB me.needX me.needRR (promoted r c) := by
        unfold vexPart
        rw [show (promoted r c).evexFlag = c.evexFlag from rfl]
        simp [hev, hE]
      have : vexPart r o { c with broad := promoteBroadcast r c.broad } me = none := by
        show vexPart r o (promoted r c) me = none
        rw [hvp]
        unfold buildEVEX
        rw [herr]; rfl
      unfold emit front; simp only [hme, this]

/-- Size of a vector register. -/
def vecBytes : OpType → Nat
  | .R_XMM => 16 | .R_YMM => 32 | .R_ZMM => 64 | _ => 0

/-- What the tokenizer makes of `xmmN, dword bcst [..]`: the decorator `{1toN}` with as many elements of the
size broadcast as fit into the destination register (tokenize.c:1290-1330). -/
def bcstFlags (n : Nat) : Nat :=
  if n = 2 then 0x10 else if n = 4 then 0x20 else if n = 8 then 0x30 else if n = 16 then 0x40 else 0

/-- C47: the `bcst` notation is accepted on every row that can broadcast: the number of elements
estimated from the destination register and the size of the memory element (`f.nb`, manual) is, after correction, the
number the row has. -/
theorem shipped_bcst (r : Instr) (h : r ∈ instrTable) (hb : has r.evexflags EVEX_BRDF = true) (f : Form)
    (hm : manual r = some (.rm f)) (c : Ctx) (hk : c.deco = 0) (hs : c.sae = 0)
    (hc : c.broad = bcstFlags (vecBytes (r.op 0) / f.nb)) :
    (promoted r c).broad ≠ 0 ∧ Allowed r (promoted r c) := by
  have hall : instrTable.all (fun r => !has r.evexflags EVEX_BRDF || (!has r.evexflags EVEX_KF && match manual r with
      | some (.rm f) =>
        let b := promoteBroadcast r (bcstFlags (vecBytes (r.op 0) / f.nb))
        b != 0 && decide ((r.opElements, b) ∈ [(16, 0x40), (8, 0x30), (4, 0x20), (2, 0x10)])
      | _ => true)) = true := by decide +kernel
  have hr := List.all_eq_true.mp hall r h
  rw [hb, hm] at hr
  simp only [Bool.not_true, Bool.false_or, Bool.and_eq_true, decide_eq_true_eq, bne_iff_ne,
    Bool.not_eq_true'] at hr
  have hp : (promoted r c).broad = promoteBroadcast r (bcstFlags (vecBytes (r.op 0) / f.nb)) := by
    show promoteBroadcast r c.broad = _
    rw [hc]
  refine ⟨by rw [hp]; exact hr.2.1, ?_⟩
  constructor
  · intro hx
    exact absurd (show c.deco % 8 = 0 by rw [hk]) hx
  · intro hx; rw [hr.1] at hx; exact absurd hx (by simp)
  · intro hx
    have : c.deco / 128 % 2 = 1 := hx
    rw [hk] at this; simp at this
  · intro _
    rw [hp]
    exact ⟨hb, hr.2.2⟩
  · intro hx
    exact absurd hs hx

/-- How far a displacement may be written on an EVEX row: with a decorator (or in EVEX form by
choice) the assembler divides the displacement by the element size, which is right where the
processor multiplies it; without, it leaves it alone. -/
def DispFits (r : Instr) (x : Opnd) (c : Ctx) : RM → Prop
  | .reg _ => True
  | .mem b _ _ d _ _ => d = 0 ∨
    (c.evexFlag = true ∧ badDisp r = false ∧ b ≠ none ∧ x.sym ≠ some false) ∨
    (c.evexFlag = false ∧ (d < -128 ∨ 127 < d ∨ b = none ∨ x.sym = some false))

/-- C47, partial (missing: displacements outside `DispFits`, stores to plain variables, rounding on rows
shorter than 512 bits; EncCex.lean shows what goes wrong): with decorators the row allows, the instruction is accepted, and what is emitted is exactly
the EVEX instruction of its form with the registers, address, immediate, mask, zeroing, broadcast and
rounding that were written. -/
theorem shipped_evex_partial (r : Instr) (h : r ∈ instrTable) (f : Form) (e : Enc)
    (hm : manual r = some (.rm f)) (he : f.evex = some e) (o : Nat → Opnd)
    (c : Ctx) (rm : RM) (hd : Deco r e c) (ha : Allowed r (promoted r c))
    (ops : Operands r f o c .evex rm) (hind : Indirect r f o) (hs : DispFits r (o f.rm) c rm) :
    ∃ bs rd, emit r o c = some bs ∧ readForm f c.m64 bs = some rd ∧ rd.kind = .evex ∧ rd.rm = rm ∧
      Says r f o c rd ∧ rd.aaa = c.deco % 8 ∧ rd.z = (c.deco / 128 % 2 == 1) ∧
      rd.bcast = ((promoted r c).broad != 0) ∧ rd.rounding = rounding c.sae := by
  have hrow := row_ok h
  unfold rowMatch at hrow
  rw [hm] at hrow
  simp only [he, Bool.and_eq_true] at hrow
  obtain ⟨_, hk, hdisp⟩ := hrow
  have hE : has r.vexflags EVEXF = true := okEvex_evex hk
  have herr := (evexErr_iff r _ (row_elements h hE)).mpr ha
  obtain ⟨bs, hbs⟩ := evex_accepts r f e hk o c rm hd ops hind herr
  have hsc : RMScale r (o f.rm) (promoted r c) (if (promoted r c).broad ≠ 0 then f.nb else f.n) rm := by
    cases hrm : rm with
    | reg n => exact trivial
    | mem b i s d rip w =>
      rw [hrm] at hs
      have hM := ops.hrm
      rw [hrm] at hM
      show DispScale r (o f.rm) (promoted r c) b d _
      unfold DispScale
      rcases hs with hs | ⟨h1, h2, h3, h4⟩ | ⟨h1, h2⟩
      · cases hev : c.evexFlag with
        | false => exact Or.inl ⟨hev, Or.inr (Or.inl hs)⟩
        | true => exact Or.inr ⟨hev, Or.inl hs⟩
      · refine Or.inr ⟨h1, Or.inr ⟨?_, ?_, h3, h4⟩⟩
        all_goals
          rw [hM.1, h2] at hdisp
          simp only [Bool.not_true, Bool.false_or] at hdisp
          unfold dispOk at hdisp
          simp only [Bool.and_eq_true, Bool.or_eq_true] at hdisp
          obtain ⟨⟨q1, q2⟩, q3⟩ := hdisp
        · unfold elemSize
          by_cases hb : (promoted r c).broad = 0
          · rw [if_neg (by simp [hb])]
            simp only [hb]
            simpa using q1
          · rw [if_pos hb]
            have hB := (ha.bcast hb).1
            rw [hB] at q3
            simp only [Bool.not_true, Bool.false_eq_true, false_or] at q3
            simp only [show ((promoted r c).broad == 0) = false by simpa using hb, Bool.false_and]
            simpa using q3.1
        · by_cases hb : (promoted r c).broad = 0
          · rw [if_neg (by simp [hb])]; simpa using q2
          · rw [if_pos hb]
            have hB := (ha.bcast hb).1
            rw [hB] at q3
            simp only [Bool.not_true, Bool.false_eq_true, false_or] at q3
            simpa using q3.2
      · exact Or.inl ⟨h1, Or.inr (Or.inr h2)⟩
  obtain ⟨rd, h1, h2, h3, h4, h5, h6, h7, h8⟩ := evex_encodes r f e hk o c rm hd ops hind hsc bs hbs
  exact ⟨bs, rd, hbs, h1, h2, h3, h4, h5, h6, h7, h8⟩

/-! ## Addresses, prefixes, lookup -/

/-- C45, partial (missing: 16-bit registers in 32-bit code, and in 64-bit code a 32-bit index without base
or a 32-bit base with a variable: see EncCex.lean for what goes wrong there).  Every address
`base + index * scale + disp` with registers the mode has is accepted, for
every row (shipped or not) and every size of the displacement, and the processor, given prefix bits
that say what `BuildMemoryEncoding` reports (`needB`, `needX`, `aso`), computes exactly that
address. -/
theorem address_roundtrip_partial (r : Instr) (x : Opnd) (c : Ctx) (vsib : Bool) (base index : Option Nat)
    (scale : Nat) (d : Int) (rip : Bool) (width : Nat)
    (h : IsMem c.m64 vsib x base index scale d rip width)
    (hv1 : has r.evexflags EVEX_VSIBF = true → vsib = true)
    (hv2 : vsib = true → index ≠ none ∧ (has r.evexflags EVEX_VSIBF = false → index.getD 0 < 16)) :
    ∃ me, buildMem r x c = some me ∧ me.aso = (c.m64 && width == 4) ∧ me.needModRM = true ∧
      (me.needB = true ↔ ∃ b, base = some b ∧ 8 ≤ b) ∧
      (me.needX = true ↔ ∃ i, index = some i ∧ 8 ≤ i % 16 ∧ i < 16) ∧
      ∀ n, DispScale r x c base d n → ∀ hd, HeadFits hd vsib me.aso base index → ∀ reg, reg < 8 → ∀ rest,
        modrm c.m64 hd vsib n ((me.modRM ||| (reg <<< 3)) :: ((if me.needSIB then [me.sib] else []) ++
          dispBytes me.dispSize me.lo me.hi ++ rest)) =
        some (reg + hd.rAdd, .mem base index scale d rip width, rest) := by
  obtain ⟨b1, b2, b3, b4, b5, b6⟩ := isMem_base h
  obtain ⟨i1, i2, i3, i4, i5⟩ := isMem_idx h
  have hi32 : ∀ i, index = some i → i < 32 := by
    intro i hi; have := i2 i hi; split at this <;> omega
  have hidx : ∀ i, index = some i → encIdx r index < 16 := by
    intro i hi
    unfold encIdx idxLow
    have := hi32 i hi
    rw [hi]
    simp only [Option.getD_some]
    cases he : has r.evexflags EVEX_VSIBF with
    | true => simp only [if_true]; split <;> omega
    | false =>
      simp only [Bool.false_eq_true, if_false]
      cases hv : vsib with
      | true => have := (hv2 hv).2 he; rw [hi] at this; simpa using this
      | false =>
        have := i2 i hi
        rw [hv] at this
        simpa using this
  obtain ⟨e, he, hne, hmf, h32, hem⟩ := expMem_some c.m64 r base index rip b2 hidx
    (fun hn => by
      cases hx : has r.evexflags EVEX_VSIBF with
      | false => rfl
      | true => exact absurd hn (hv2 (hv1 hx)).1)
    (fun hr => by
      have := h.hrip
      rw [hr] at this
      cases hb : base with
      | none => rfl
      | some b => rw [hb] at this; simp at this)
    h.hripi
  obtain ⟨rr, hb⟩ := buildMem_eq r x c vsib base index scale d rip width h hv1 hv2 e he hne
  refine ⟨_, hb, rfl, hmf, ?_, ?_, ?_⟩
  · show decide ((if rip then 16 else base.getD 17) > 7 ∧ (if rip then 16 else base.getD 17) < 16) = true ↔ _
    cases hrip : rip with
    | true =>
      have hbn : base = none := by
        have := h.hrip
        rw [hrip] at this
        cases hb : base with
        | none => rfl
        | some b => rw [hb] at this; simp at this
      simp [hbn]
    | false =>
      cases hbs : base with
      | none => simp
      | some b =>
        have := b2 b hbs
        simp only [Bool.false_eq_true, if_false, Option.getD_some, Option.some.injEq, exists_eq_left',
          decide_eq_true_eq]
        omega
  · show decide (encIdx r index > 7 ∧ encIdx r index < 16) = true ↔ _
    cases hi : index with
    | none =>
      unfold encIdx idxLow
      simp only [Option.getD_none]
      cases hx : has r.evexflags EVEX_VSIBF with
      | false => simp
      | true => exact absurd hi (hv2 (hv1 hx)).1
    | some i =>
      have h2 := hi32 i hi
      have h3 := hidx i hi
      rw [hi] at h3
      simp only [Option.some.injEq, exists_eq_left', decide_eq_true_eq]
      unfold encIdx idxLow at h3 ⊢
      simp only [Option.getD_some] at h3 ⊢
      repeat' split
      all_goals omega
  · intro n hs hd hf reg hreg rest
    exact mem_read r x c vsib base index scale d rip width h hv1 hv2 e he hmf h32 hem n hs hd _ rr _ _
      hf reg hreg rest

/-- No row of the shipped table may be prefixed with LOCK, REP or BND: such a prefix is an error. -/
theorem shipped_prefix_rejected (r : Instr) (h : r ∈ instrTable) (o : Nat → Opnd) (c : Ctx)
    (hp : c.pfx ≠ none) : emit r o c = none := by
  have hall : instrTable.all (fun r => !has r.flags ALLOW_BNDF && !has r.flags ALLOW_LOCKF &&
    !has r.flags ALLOW_REPF) = true := by decide +kernel
  have hr := List.all_eq_true.mp hall r h
  simp only [Bool.and_eq_true, Bool.not_eq_true'] at hr
  obtain ⟨⟨h1, h2⟩, h3⟩ := hr
  have hi : insPrefix r c.pfx = none := by
    unfold insPrefix
    cases hc : c.pfx with
    | none => exact absurd hc hp
    | some p => cases p <;> simp [h1, h2, h3]
  cases hme : memPart r o { c with broad := promoteBroadcast r c.broad } with
  | none => unfold emit front; simp only [hme]
  | some me =>
    cases hvx : vexPart r o { c with broad := promoteBroadcast r c.broad } me with
    | none => unfold emit front; simp only [hme, hvx]
    | some vx =>
      unfold emit front
      simp only [hme, hvx, hi]
      by_cases he : (c.evexFlag && r.evexflags == 0) = true
      · rw [if_pos he]
      · rw [if_neg he]

/-- A segment override where the row has no memory operand, or on the rows that do not allow it, is an
error. -/
theorem segment_rejected (r : Instr) (o : Nat → Opnd) (c : Ctx) (hs : c.seg ≠ none)
    (ha : has r.flags ALLOW_SEGF = false) : emit r o c = none := by
  have hi : segPrefix r { c with broad := promoteBroadcast r c.broad } = none := by
    unfold segPrefix
    show (match c.seg with | none => some [] | some s => _) = none
    cases hc : c.seg with
    | none => exact absurd hc hs
    | some p => simp [ha]
  cases hme : memPart r o { c with broad := promoteBroadcast r c.broad } with
  | none => unfold emit front; simp only [hme]
  | some me =>
    cases hvx : vexPart r o { c with broad := promoteBroadcast r c.broad } me with
    | none => unfold emit front; simp only [hme, hvx]
    | some vx =>
      unfold emit front
      cases hx : insPrefix r c.pfx <;> simp only [hme, hvx, hi, hx]
      all_goals
        by_cases he : (c.evexFlag && r.evexflags == 0) = true
        · rw [if_pos he]
        · rw [if_neg he]

/-- What the lookup delivers is a row of the table, and its operand types are those of the operands, or
their generic types: a register operand of the request is a register operand of the row. -/
theorem lookup_operand (q : Query) (r : Instr) (h : findForm (buildInstructionTable instrTable) q = some r) :
    r ∈ instrTable ∧ ∀ k, k < 4 → ∀ g ∈ regTable, matchReg g = some (q.op k) → ∀ x : Opnd,
      x.base = some g.tok → x.indirect = false → x.idx = none → IsReg (r.op k) x g.hw := by
  have key : ∀ q' : Query, lookupInstruction (buildInstructionTable instrTable) q' = some r →
      r ∈ instrTable ∧ ∀ k, k < 4 → r.op k = q'.op k := by
    intro q' hq
    rw [lookup_eq_find] at hq
    refine ⟨List.mem_of_find?_eq_some hq, ?_⟩
    have := List.find?_some hq
    unfold tryEntry at this
    split at this
    · next hc =>
      simp only [Bool.and_eq_true, beq_iff_eq] at hc
      obtain ⟨⟨⟨⟨⟨_, c0⟩, c1⟩, c2⟩, c3⟩, _⟩ := hc
      intro k hk
      rcases (by omega : k = 0 ∨ k = 1 ∨ k = 2 ∨ k = 3) with h | h | h | h <;> subst h <;> assumption
    · exact absurd this (by simp)
  unfold findForm at h
  split at h
  · next p hp =>
    injection h with h
    subst h
    obtain ⟨h1, h2⟩ := key q hp
    refine ⟨h1, fun k hk g hg hm x x1 x2 x3 => ⟨g, hg, x1, rfl, x2, x3, Or.inl ?_⟩⟩
    rw [h2 k hk]; exact hm
  · obtain ⟨h1, h2⟩ := key _ h
    refine ⟨h1, fun k hk g hg hm x x1 x2 x3 => ⟨g, hg, x1, rfl, x2, x3, Or.inr ?_⟩⟩
    rw [h2 k hk, hm]; rfl

end Verif.Cgv2
