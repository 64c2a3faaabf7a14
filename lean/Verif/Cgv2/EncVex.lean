import Verif.Cgv2.EncRead

/-!
# VEX encoded instructions
-/

namespace Verif.Cgv2

open Isa

theorem vex_head (m64 aso : Bool) (sp : List Nat) (hsp : SegBytes sp) (vr vx vb mm w l pp v : Nat)
    (hvr : vr < 2) (hvx : vx < 2) (hvb : vb < 2) (hmm : mm < 4) (hw : w < 2) (hl : l < 2) (hpp : pp < 4)
    (hv : v < 16) (two : Bool) (htwo : two = true → vx = 1 ∧ vb = 1 ∧ mm = 1)
    (h32 : m64 = false → vr = 1 ∧ vx = 1 ∧ v < 8) (op : Nat) (rest : List Nat) :
    head m64 ((if aso then [0x67] else []) ++ (if false then [0x66] else []) ++ sp ++
      ((if two then [0xc5, pp ||| (l <<< 2) ||| ((15 - v) <<< 3) ||| (vr <<< 7)]
        else [0xc4, (vr <<< 7) ||| (vx <<< 6) ||| (vb <<< 5) ||| mm,
        (w <<< 7) ||| ((15 - v) <<< 3) ||| (l <<< 2) ||| pp]) ++ op :: rest)) =
    some (⟨.vex, ⟨false, aso, false, 0, sp.headD 0⟩, false, if two then false else decide (w = 1),
      addIf (decide (vr = 0)) 8, decide (vx = 0), decide (vb = 0), v, false, l, pp, mm, op, 0, false,
      false⟩, rest) := by
  have e1 : (!decide (vr = 1)) = decide (vr = 0) := by
    rcases (by omega : vr = 0 ∨ vr = 1) with h | h <;> subst h <;> rfl
  have e2 : (!decide (vx = 1)) = decide (vx = 0) := by
    rcases (by omega : vx = 0 ∨ vx = 1) with h | h <;> subst h <;> rfl
  have e3 : (!decide (vb = 1)) = decide (vb = 0) := by
    rcases (by omega : vb = 0 ∨ vb = 1) with h | h <;> subst h <;> rfl
  have e4 : addIf (decide (l = 1)) 1 = l := by
    rcases (by omega : l = 0 ∨ l = 1) with h | h <;> subst h <;> rfl
  cases two with
  | true =>
    obtain ⟨rfl, rfl, rfl⟩ := htwo rfl
    obtain ⟨f1, f2, f3, f4, f5⟩ := vex2_fields ⟨pp, hpp⟩ ⟨l, hl⟩ ⟨v, hv⟩ ⟨vr, hvr⟩
    simp only [if_true]
    simp only at f1 f2 f3 f4 f5
    generalize (pp ||| (l <<< 2) ||| ((15 - v) <<< 3) ||| (vr <<< 7)) = b at *
    have hp := prefixes_eq aso false sp [] hsp (Or.inl rfl) 0xc5 (b :: op :: rest) (by decide)
    have hall : vexAllowed m64 (b :: op :: rest) = true := by
      unfold vexAllowed
      cases hm : m64 with
      | true => rfl
      | false =>
        obtain ⟨h1, h2, h3⟩ := h32 hm
        simpa using f5 h1 h3
    simp only [List.nil_append, List.cons_append] at hp ⊢
    unfold head
    rw [hp]
    simp only [hall]
    simp [vex2, plain, f1, f2, f3, f4, e1, e4]
  | false =>
    obtain ⟨f1, f2, f3, f4, f5⟩ := vex3_fields1 ⟨vr, hvr⟩ ⟨vx, hvx⟩ ⟨vb, hvb⟩ ⟨mm, hmm⟩
    obtain ⟨g1, g2, g3, g4⟩ := vex3_fields2 ⟨w, hw⟩ ⟨v, hv⟩ ⟨l, hl⟩ ⟨pp, hpp⟩
    simp only at f1 f2 f3 f4 f5 g1 g2 g3 g4
    simp only [Bool.false_eq_true, if_false]
    generalize ((vr <<< 7) ||| (vx <<< 6) ||| (vb <<< 5) ||| mm) = b at *
    generalize ((w <<< 7) ||| ((15 - v) <<< 3) ||| (l <<< 2) ||| pp) = b2 at *
    have hp := prefixes_eq aso false sp [] hsp (Or.inl rfl) 0xc4 (b :: b2 :: op :: rest) (by decide)
    have hall : vexAllowed m64 (b :: b2 :: op :: rest) = true := by
      unfold vexAllowed
      cases hm : m64 with
      | true => rfl
      | false =>
        obtain ⟨h1, h2, h3⟩ := h32 hm
        simpa using f5 h1 h2
    simp only [List.nil_append, List.cons_append, Bool.false_eq_true, if_false, List.append_nil] at hp ⊢
    unfold head
    rw [hp]
    simp only [hall]
    simp [vex3, plain, f1, f2, f3, f4, g1, g2, g3, g4, e1, e2, e3, e4]

/-! ## Row check -/

/-- The operand in vvvv. -/
def vOk (r : Instr) (f : Form) : Bool :=
  let dup := has r.vexflags VEX_DUP_NDSF
  let trd := has r.vexflags VEX_3RD_OPF
  let nds := has r.vexflags VEX_NDSF
  let dds := has r.vexflags VEX_DDSF
  match f.v with
  | some k => regType (r.op k) &&
    ((k == 0 && dup) || (k == 1 && !dup && !trd && nds) ||
      (k == 2 && !dup && (trd || (!nds && dds))))
  | none => !dup && !trd && !nds && !dds

/-- Vector length column. -/
def vecLen (r : Instr) : Nat := if r.opSize == 16 then 0 else if r.opSize == 32 then 1 else 0

/-- VEX.W column. -/
def vexW (r : Instr) : Nat :=
  if has r.vexflags VEX_W0F then 0 else if has r.vexflags VEX_W1F then 1 else 0

/-- No legacy prefix columns. -/
def noLegacy (r : Instr) : Bool :=
  !has r.flags REXF && !has r.flags EREXF && !has r.flags REXP_MEMF && (mandatory1 r.mandatoryPrefix == [] && mandatory2 r.mandatoryPrefix == []) &&
  !needOSO r && r.opcodeBytes == 1 && decide (0 < r.opcode.length)

/-- The operand whose number `BuildVEX` looks at is the one in ModRM.rm or ModRM.reg. -/
def srcOk (r : Instr) (f : Form) : Bool :=
  match f.reg with
  | none => false
  | some k => if r.opDir == REG_DST then k == 0 && r.srcidx == f.rm else f.rm == 0 && r.srcidx == k

/-- `BuildVEX` looks at an operand that is in neither place, and it is a low register (the
gathers: it looks at the mask). -/
def SrcLow (r : Instr) (f : Form) (o : Nat → Opnd) : Prop :=
  f.reg = some 0 ∧ r.opDir = REG_DST ∧ isMem (r.op f.rm) = true ∧ regAbove (o r.srcidx) 7 = false

/-- A row is a VEX encoding of a form. -/
def okVex (r : Instr) (f : Form) (e : Enc) : Bool :=
  rowCommon r f true && f.vex == some e && f.legacy.isNone && f.osz.isNone &&
  has r.vexflags VEXF && !has r.evexflags EVEX_ONLYF && !has r.evexflags EVEX_VSIBF &&
  noLegacy r && (r.opcode.getD 0 0 == e.opcode) &&
  !has r.vexflags VEX_RF && !has r.vexflags VEX_XF && !has r.vexflags VEX_BF &&
  vexMap r == e.map && decide (1 ≤ e.map) && decide (e.map < 4) && e.pp == some (vexPP r) &&
  (e.w.isNone || (e.w == some (vexW r == 1) && !has r.vexflags VEX_WIGF)) &&
  agrees e.l (vecLen r) && vOk r f

theorem vexPP_lt (r : Instr) : vexPP r < 4 := by
  unfold vexPP; repeat' split
  all_goals omega

theorem vecLen_lt (r : Instr) : vecLen r < 2 := by 
  unfold vecLen; repeat' split
  all_goals omega

theorem vexW_lt (r : Instr) : vexW r < 2 := by 
  unfold vexW; repeat' split
  all_goals omega

/-- Whether an operand that is a register needs the fourth bit; addresses do not count. -/
theorem regAbove_reg {t : OpType} {x : Opnd} {n m : Nat} (ht : regType t = true) (h : IsReg t x n) :
    regAbove x m = decide (n > m) ∧ x.indirect = false := by
  obtain ⟨h1, _, _, h4, h5⟩ := isReg_no ht h
  unfold regAbove
  rw [h1, h4]
  exact ⟨by simp, h5⟩

theorem regAbove_mem {m64 vsib : Bool} {x : Opnd} {b i : Option Nat} {s : Nat} {d : Int} {rip : Bool}
    {w m : Nat} (h : IsMem m64 vsib x b i s d rip w) : (regAbove x m && !x.indirect) = false := by
  have := h.hbase
  unfold regAbove
  cases b with
  | none => simp only at this; simp [this]
  | some b =>
    simp only at this
    obtain ⟨g, _, _, hi⟩ := this
    simp [hi]

/-- The ModRM operand needs the fourth bit in its B place. -/
def rmHigh : RM → Bool
  | .reg n => decide (n > 7)
  | .mem b i s d rip w => rmB (.mem b i s d rip w)

/-- The two-byte form is chosen. -/
def vexTwo (r : Instr) (b x : Bool) : Bool :=
  !x && !b && ((has r.vexflags VEX_WIGF && vexMap r == 1) ||
    !((!has r.vexflags VEX_W0F && has r.vexflags VEX_W1F) ||
      has r.vexflags VEX_0F38F || has r.vexflags VEX_0F3AF))

theorem holds_high {m64 vsib : Bool} {t : OpType} {x : Opnd} {rm : RM} (ht : regType t = true ∨ isMem t = true)
    (h : Holds m64 vsib t x rm) :
    ((regAbove x 7 && !x.indirect) || rmB rm) = rmHigh rm := by
  cases rm with
  | reg n =>
    have hnm := isReg_not_mem h
    rcases ht with ht | ht
    · obtain ⟨h1, h2⟩ := regAbove_reg (m := 7) ht h
      rw [h1, h2]; simp [rmB, rmHigh]
    · rw [hnm] at ht; simp at ht
  | mem b i s d rip w =>
    rw [regAbove_mem h.2]; rfl

theorem rowCommon_types {r : Instr} {f : Form} {isV : Bool} (h : rowCommon r f isV = true) :
    (regType (r.op f.rm) = true ∨ isMem (r.op f.rm) = true) ∧
    (∀ k, f.reg = some k → regType (r.op k) = true) ∧
    (∀ k, f.is4 = some k → regType (r.op k) = true) ∧
    (r.opDir = REG_DST ∨ r.opDir = RM_DST) ∧ has r.flags F_OPCODE_REGF = false ∧
    has r.flags OPCODE_EXTF = false ∧ has r.flags F_MODRMF = true ∧
    f.vsib = has r.vexflags VEX_VSIBF ∧ (has r.evexflags EVEX_VSIBF = true → f.vsib = true) ∧
    (isMem (r.op f.rm) = true → r.memOpnd = f.rm) := by
  unfold rowCommon at h
  simp only [Bool.and_eq_true] at h
  obtain ⟨⟨⟨⟨⟨⟨⟨⟨⟨h1, h2⟩, h3⟩, h4⟩, h5⟩, h6⟩, h7⟩, h8⟩, h9⟩, h10⟩ := h
  refine ⟨?_, ?_, ?_, ?_, by simpa using h2, by simpa using h3, h1, by simpa using h9, ?_, ?_⟩
  · cases hm : isMem (r.op f.rm) with
    | true => exact Or.inr rfl
    | false =>
      rw [hm] at h6
      simp only [Bool.false_eq_true, if_false, Bool.and_eq_true] at h6
      exact Or.inl h6.1.1.1.1
  · intro k hk
    rw [hk] at h5
    simp only [Bool.and_eq_true] at h5
    exact h5.1.1.2
  · intro k hk
    rw [hk] at h7
    cases hi : f.imm with
    | some p => rw [hi] at h7; simp at h7
    | none => rw [hi] at h7; simp only [Bool.and_eq_true] at h7; exact h7.2
  · simpa using h4
  · intro h; rw [h] at h10; simpa using h10
  · intro h
    rw [h] at h6
    simp only [if_true, Bool.and_eq_true] at h6
    simpa using h6.1.1

theorem buildVEX_eq (r : Instr) (f : Form) (o : Nat → Opnd) (m64 : Bool) (rm : RM) (k n : Nat)
    (hrow : rowCommon r f true = true) (hsrc : srcOk r f = true ∨ SrcLow r f o)
    (hR : has r.vexflags VEX_RF = false) (hX : has r.vexflags VEX_XF = false)
    (hB : has r.vexflags VEX_BF = false) (hk : f.reg = some k) (hn : IsReg (r.op k) (o k) n)
    (hrm : Holds m64 f.vsib (r.op f.rm) (o f.rm) rm) (x : Bool) :
    buildVEX r o (rmB rm) x =
      let vr := if decide (n > 7) then 0 else 1
      let vx := if x then 0 else 1
      let vb := if rmHigh rm then 0 else 1
      if vexTwo r (rmHigh rm) x then
        [0xc5, vexPP r ||| (vecLen r <<< 2) ||| ((15 - vexV r o % 16) <<< 3) ||| (vr <<< 7)]
      else [0xc4, (vr <<< 7) ||| (vx <<< 6) ||| (vb <<< 5) ||| vexMap r,
        (vexW r <<< 7) ||| ((15 - vexV r o % 16) <<< 3) ||| (vecLen r <<< 2) ||| vexPP r] := by
  obtain ⟨t1, t2, t3, t4, _⟩ := rowCommon_types hrow
  have hh := holds_high t1 hrm
  obtain ⟨hra, hri⟩ := regAbove_reg (m := 7) (t2 k hk) hn
  unfold buildVEX
  simp only [hR, hX, hB, Bool.false_or, Bool.false_eq_true, if_false]
  have hpair : (if (r.opDir == REG_DST) = true then
        ((if regAbove (o 0) 7 = true then 0 else 1 : Nat),
          (if (regAbove (o r.srcidx) 7 && !(o r.srcidx).indirect) = true then 0
            else if rmB rm = true then 0 else 1 : Nat))
      else if (r.opDir == RM_DST) = true then
        (if regAbove (o r.srcidx) 7 = true then 0 else 1,
          if (regAbove (o 0) 7 && !(o 0).indirect) = true then 0 else if rmB rm = true then 0 else 1)
      else (1, if rmB rm = true then 0 else 1)) =
      ((if decide (n > 7) then 0 else 1), (if rmHigh rm then 0 else 1)) := by
    rcases hsrc with hsrc | ⟨s1, s2, s3, s4⟩
    case inr =>
      have hd' : (r.opDir == REG_DST) = true := by simp [s2]
      have : k = 0 := by rw [hk] at s1; simpa using s1
      subst this
      rw [hd', hra, s4]
      have : rmHigh rm = rmB rm := by
        cases rm with
        | reg m => have := isReg_not_mem hrm; rw [s3] at this; simp at this
        | mem b i s d rip w => rfl
      rw [this]
      simp
    unfold srcOk at hsrc
    rw [hk] at hsrc
    rw [← hh]
    rcases t4 with hd | hd
    · have hd' : (r.opDir == REG_DST) = true := by simp [hd]
      rw [hd'] at hsrc ⊢
      simp only [if_true, Bool.and_eq_true] at hsrc ⊢
      have h0 : k = 0 := by simpa using hsrc.1
      have hs : r.srcidx = f.rm := by simpa using hsrc.2
      subst h0
      rw [hs, hra]
      congr 1
      cases regAbove (o f.rm) 7 <;> cases (o f.rm).indirect <;> cases rmB rm <;> rfl
    · have hd' : (r.opDir == REG_DST) = false := by rw [hd]; rfl
      have hd2 : (r.opDir == RM_DST) = true := by simp [hd]
      rw [hd'] at hsrc
      rw [hd', hd2]
      simp only [if_true, Bool.false_eq_true, if_false, Bool.and_eq_true] at hsrc ⊢
      have h0 : f.rm = 0 := by simpa using hsrc.1
      have hs : r.srcidx = k := by simpa using hsrc.2
      rw [hs, h0, hra]
      congr 1
      cases regAbove (o 0) 7 <;> cases (o 0).indirect <;> cases rmB rm <;> rfl
  rw [hpair]
  unfold vexTwo vecLen vexW
  simp only
  generalize has r.vexflags VEX_WIGF = wig
  generalize ((!has r.vexflags VEX_W0F && has r.vexflags VEX_W1F) || has r.vexflags VEX_0F38F ||
    has r.vexflags VEX_0F3AF) = three
  generalize hmm : (vexMap r == 1) = m1
  cases x <;> cases rmHigh rm <;> cases wig <;> cases three <;> cases m1 <;> rfl

theorem vexV_ok (r : Instr) (f : Form) (o : Nat → Opnd) (m64 : Bool) (h : vOk r f = true)
    (hv : ∀ i, f.v = some i → ∃ n, IsReg (r.op i) (o i) n ∧ Fits m64 .vex n) :
    vexV r o < 16 ∧ (m64 = false → vexV r o < 8) ∧
    (∀ i, f.v = some i → IsReg (r.op i) (o i) (vexV r o)) ∧ (f.v = none → vexV r o = 0) := by
  unfold vOk at h
  cases hf : f.v with
  | none =>
    rw [hf] at h
    simp only [Bool.and_eq_true, Bool.not_eq_true'] at h
    obtain ⟨⟨⟨h1, h2⟩, h3⟩, h4⟩ := h
    have : vexV r o = 0 := by unfold vexV; simp [h1, h2, h3, h4]
    rw [this]
    exact ⟨by omega, fun _ => by omega, by intro i h; simp at h, fun _ => rfl⟩
  | some k =>
    rw [hf] at h
    simp only [Bool.and_eq_true] at h
    obtain ⟨n, hn, hfit⟩ := hv k hf
    obtain ⟨hno, _⟩ := isReg_no h.1 hn
    have hV : vexV r o = n := by
      rw [← hno]
      have h2 := h.2
      unfold vexV
      simp only [Bool.or_eq_true, Bool.and_eq_true, Bool.not_eq_true'] at h2
      rcases h2 with (⟨h1, h2⟩ | ⟨⟨⟨h1, h2⟩, h3⟩, h4⟩) | ⟨⟨h1, h2⟩, h3⟩
      · have : k = 0 := by simpa using h1
        simp [h2, this]
      · have : k = 1 := by simpa using h1
        simp [h2, h3, h4, this]
      · have : k = 2 := by simpa using h1
        rcases h3 with h3 | ⟨h3, h4⟩
        · simp [h2, h3, this]
        · by_cases h5 : has r.vexflags VEX_3RD_OPF = true
          · simp [h2, h5, this]
          · simp [h2, h3, h4, h5, this]
    rw [hV]
    unfold Fits at hfit
    refine ⟨?_, ?_, ?_, by intro h; simp at h⟩
    · cases hm : m64 <;> rw [hm] at hfit <;> simp at hfit <;> omega
    · intro hm; rw [hm] at hfit; simpa using hfit
    · intro i hi
      simp only [Option.some.injEq] at hi
      subst hi; exact hn

theorem rexBytes_none (r : Instr) (o : Nat → Opnd) (c : Ctx) (me : MemEnc) (hme : me.rex = 0)
    (h1 : has r.flags REXF = false) (h2 : has r.flags EREXF = false)
    (h3 : has r.flags REXP_MEMF = false) : rexBytes r o c me = [] := by
  unfold rexBytes buildREX
  simp [hme, h1, h2, h3]

theorem has_ne_zero {v f : Nat} (h : has v f = true) : (v == 0) = false := by
  cases hv : (v == 0) with
  | false => rfl
  | true =>
    have : v = 0 := by simpa using hv
    subst this
    simp [has] at h

theorem opcodeBytes_one (r : Instr) (o : Nat → Opnd) (h1 : has r.flags F_OPCODE_REGF = false)
    (h2 : r.opcodeBytes = 1) (h3 : 0 < r.opcode.length) : opcodeBytes r o = [r.opcode.getD 0 0] := by
  unfold opcodeBytes
  simp only [h1, h2, Bool.false_eq_true, if_false]
  cases ho : r.opcode with
  | nil => rw [ho] at h3; simp at h3
  | cons a l => rfl

/-- C46 (VEX): every row that passes `okVex` emits exactly the VEX instruction of its form. -/
theorem vex_encodes (r : Instr) (f : Form) (e : Enc) (hok : okVex r f e = true) (o : Nat → Opnd)
    (c : Ctx) (rm : RM) (hev : c.evexFlag = false) (ops : Operands r f o c .vex rm)
    (k20 : srcOk r f = true ∨ SrcLow r f o) :
    ∃ bs rd, emit r o c = some bs ∧ readForm f c.m64 bs = some rd ∧ rd.kind = .vex ∧ rd.rm = rm ∧
      Says r f o c rd := by
  unfold okVex noLegacy at hok
  simp only [Bool.and_eq_true, Bool.not_eq_true'] at hok
  obtain ⟨⟨⟨⟨⟨⟨⟨⟨⟨⟨⟨⟨⟨⟨⟨⟨⟨⟨k1, k2⟩, k3⟩, k4⟩, k5⟩, k6⟩, k7⟩, k8⟩, k9⟩, k10⟩, k11⟩, k12⟩, k13⟩, k14⟩, k15⟩,
    k16⟩, k17⟩, k18⟩, k19⟩ := hok
  obtain ⟨⟨⟨⟨⟨⟨l1, l2⟩, l3⟩, l4⟩, l5⟩, l6⟩, l7⟩ := k8
  obtain ⟨t1, t2, t3, t4, t5, t6, t7, t8, t9, t10⟩ := rowCommon_types k1
  have hreg : ∃ k, f.reg = some k := by
    rcases k20 with k20 | k20
    · unfold srcOk at k20
      cases hf : f.reg with
      | none => rw [hf] at k20; simp at k20
      | some k => exact ⟨k, rfl⟩
    · exact ⟨0, k20.1⟩
  obtain ⟨k, hk⟩ := hreg
  obtain ⟨n, hn, hnf⟩ := ops.reg k hk
  obtain ⟨sp, hsp, hsb, hseg⟩ := segPrefix_ok r c ops.seg
  let c' : Ctx := { c with broad := promoteBroadcast r c.broad }
  obtain ⟨me, hme, a1, a2, a3, a4, a5, a6⟩ := tail_read r f o c' .vex rm true k1 ops.hrm ops.rmFits ops.vsib
    (fun _ => k7) (by simp)
  obtain ⟨v1, v2, v3, v4⟩ := vexV_ok r f o c.m64 k19 ops.v
  have hvp : vexPart r o c' me = some (buildVEX r o me.needB me.needX) := by
    unfold vexPart
    have : c'.evexFlag = false := hev
    simp [k5, k6, this]
  have hsh := emit_shape r o c me _ sp hme hvp (Or.inl hev) ops.pfx hsp a5
  have hrv : rowV r = true := by unfold rowV; simp [k5]
  have hrex : me.rex = 0 := by rw [a4, has_ne_zero k5]; rfl
  have hmp : mandatory1 r.mandatoryPrefix = [] ∧ mandatory2 r.mandatoryPrefix = [] := by simpa using l4
  rw [rexBytes_none r o c me hrex l1 l2 l3, hmp.1, hmp.2, hrv,
    opcodeBytes_one r o t5 (by simpa using l6) (by simpa using l7), a1, l5, a2, a3] at hsh
  have hbv := buildVEX_eq r f o c.m64 rm k n k1 k20 k10 k11 k12 hk hn ops.hrm (rmX r rm)
  rw [hbv] at hsh
  simp only [List.nil_append, List.singleton_append] at hsh
  have hmap : vexMap r = e.map := by simpa using k13
  have hmap1 : 1 ≤ e.map := by simpa using k14
  have hmap4 : e.map < 4 := by simpa using k15
  have hx32 : c.m64 = false → rmX r rm = false := by
    intro hm
    cases hrmv : rm with
    | reg n => rfl
    | mem b i s d rip w =>
      have hM := ops.hrm
      rw [hrmv] at hM
      have := (hM.2.h32 hm).2
      unfold rmX encIdx
      cases i with
      | none => simp [k7]
      | some i => have := this i rfl; simp [k7]; omega
  have hn32 : c.m64 = false → n < 8 := by
    intro hm; unfold Fits at hnf; rw [hm] at hnf; simpa using hnf
  have hn16 : n < 16 := by
    unfold Fits at hnf
    cases hm : c.m64 <;> rw [hm] at hnf <;> simp at hnf <;> omega
  have htwo : vexTwo r (rmHigh rm) (rmX r rm) = true →
      rmX r rm = false ∧ rmHigh rm = false ∧ vexMap r = 1 := by
    intro h
    unfold vexTwo at h
    simp only [Bool.and_eq_true, Bool.not_eq_true', Bool.or_eq_true, Bool.or_eq_false_iff] at h
    refine ⟨h.1.1, h.1.2, ?_⟩
    rcases h.2 with ⟨_, h⟩ | ⟨⟨_, h1⟩, h2⟩
    · simpa using h
    · have : vexMap r ≠ 0 := by omega
      unfold vexMap at this ⊢
      simp only [h1, h2] at this ⊢
      split
      · rfl
      · next h => simp [h] at this
  have hhead := vex_head c.m64 (rmAso c.m64 rm) sp hsb (if decide (n > 7) then 0 else 1)
    (if rmX r rm then 0 else 1) (if rmHigh rm then 0 else 1) (vexMap r) (vexW r) (vecLen r) (vexPP r)
    (vexV r o) (by split <;> omega) (by split <;> omega) (by split <;> omega) (by omega) (vexW_lt r)
    (vecLen_lt r) (vexPP_lt r) v1 (vexTwo r (rmHigh rm) (rmX r rm))
    (by intro h; obtain ⟨h1, h2, h3⟩ := htwo h; simp [h1, h2, h3])
    (by
      intro h
      have := hn32 h
      refine ⟨?_, by simp [hx32 h], v2 h⟩
      have : ¬ (n > 7) := by omega
      simp [this])
    (r.opcode.getD 0 0) (tailBytes r o me true)
  rw [Nat.mod_eq_of_lt v1] at hsh
  refine Exists.elim (finish r f o c' e rm _ true k1
    ⟨?_, ?_, ?_, ?_, ?_, ?_, ⟨rfl, fun _ => rfl⟩, ?_, ?_, ?_, ?_, ?_, ?_, ?_, ?_⟩ ops.hrm ?_ me _ a6 hhead) ?_
  rotate_right
  · rintro rd ⟨h1, h2, h3, _, _, h4, _⟩
    exact ⟨_, rd, hsh, h1, h3, h4, ⟨h2.reg, h2.rm, h2.v, h2.imm, h2.is4, h2.seg⟩⟩
  · simpa [Form.enc] using k2
  · exact hmap
  · simpa using k9
  · have : e.pp = some (vexPP r) := by simpa using k16
    rw [this]; simp [agrees]
  · simp only [Bool.or_eq_true, Bool.and_eq_true, Bool.not_eq_true'] at k17
    rcases k17 with h | ⟨h1, h2⟩
    · unfold agrees; rw [h]; rfl
    · have h1' : e.w = some (vexW r == 1) := by simpa using h1
      cases htw : vexTwo r (rmHigh rm) (rmX r rm) with
      | false => rw [h1']; by_cases hq : vexW r = 1 <;> simp [agrees, hq]
      | true =>
        have hw0 : vexW r = 0 := by
          unfold vexTwo at htw
          rw [h2] at htw
          simp only [Bool.false_and, Bool.false_or, Bool.and_eq_true, Bool.not_eq_true',
            Bool.or_eq_false_iff] at htw
          have := htw.2.1.1
          unfold vexW
          cases hw0 : has r.vexflags VEX_W0F with
          | true => rfl
          | false => rw [hw0] at this; simp at this; simp [this]
        rw [h1', hw0]; simp [agrees]
  · have : f.osz = none := by simpa using k4
    rw [this]; rfl
  · simpa using k18
  · intro i hi
    have : i = k := by rw [hk] at hi; simpa using hi.symm
    subst this
    refine ⟨n, hn, ?_⟩
    by_cases h : n > 7
    · simp [h, addIf]; omega
    · simp [h, addIf]; omega
  · intro h; rw [hk] at h; simp at h
  · exact v3
  · intro h; rw [v4 h]; exact ⟨rfl, Or.inr rfl⟩
  · cases hrmv : rm with
    | reg m =>
      have hmf := ops.rmFits
      rw [hrmv] at hmf
      have hm16 : m < 16 := by
        unfold RMFits Fits at hmf
        cases hm : c.m64 <;> rw [hm] at hmf <;> simp at hmf <;> omega
      simp only [RMHead, rmHigh]
      by_cases h : m > 7
      · simp [h, addIf]; omega
      · simp [h, addIf]; omega
    | mem b i s d rip w =>
      have hmf := ops.rmFits
      rw [hrmv] at hmf
      have hi16 : i.getD 0 < 16 := hmf (by simp)
      refine ⟨rfl, ?_, ?_, ?_⟩
      · simp only [rmHigh, rmB]
        by_cases h : 8 ≤ b.getD 0 ∧ b.getD 0 < 16
        · simp [h]
        · simp only [h, decide_false]; simp
      · simp only [rmX, encIdx, k7]
        cases i with
        | none => rfl
        | some i =>
          simp only [Option.getD_some] at hi16
          simp only [Option.getD_some, Bool.false_eq_true, if_false]
          by_cases h : 7 < i ∧ i < 16
          · have : 8 ≤ i % 16 := by omega
            simp [h, this]
          · have : ¬ 8 ≤ i % 16 := by omega
            simp only [h, this, decide_false]; simp
      · intro _
        have : ¬ 16 ≤ i.getD 0 := by omega
        simp [this]
  · cases hrmv : rm with
    | reg m => trivial
    | mem b i s d rip w => exact Or.inl ⟨hev, Or.inl (by simp)⟩
  · exact hseg
  · intro i hi
    obtain ⟨m, h1, h2, h3⟩ := ops.is4 i hi
    refine ⟨m, h1, ?_, h3⟩
    unfold Fits at h2
    cases hm : c.m64 <;> rw [hm] at h2 <;> simp at h2 <;> omega

end Verif.Cgv2
