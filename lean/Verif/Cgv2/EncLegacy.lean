import Verif.Cgv2.EncVex

/-!
# Legacy (REX) encoded instructions
-/

namespace Verif.Cgv2

open Isa

/-- The bytes are the opcode `op` of `map`, and do not start with a byte that means something
else. -/
def opcOk (l : List Nat) (map op : Nat) : Bool :=
  match map with
  | 0 => l == [op] && noPrefix op && decide (op ∉ [0x0f, 0xc4, 0xc5, 0x62]) &&
      !(decide (0x40 ≤ op) && decide (op < 0x50))
  | 1 => l == [0x0f, op] && decide (op ≠ 0x38) && decide (op ≠ 0x3a)
  | 2 => l == [0x0f, 0x38, op]
  | 3 => l == [0x0f, 0x3a, op]
  | _ => false

theorem opcOk_read {l : List Nat} {map op : Nat} (h : opcOk l map op = true) (rest : List Nat) :
    legacyOpcode (l ++ rest) = some (map, op, rest) ∧ ∃ b t, l = b :: t ∧ noPrefix b = true ∧
      b ≠ 0xc4 ∧ b ≠ 0xc5 ∧ b ≠ 0x62 ∧ ¬ (0x40 ≤ b ∧ b < 0x50) := by
  unfold opcOk at h
  split at h
  · simp only [Bool.and_eq_true, Bool.not_eq_true', decide_eq_true_eq] at h
    obtain ⟨⟨⟨h1, h2⟩, h3⟩, h4⟩ := h
    have hl : l = [op] := by simpa using h1
    subst hl
    simp at h3
    refine ⟨?_, op, [], rfl, h2, h3.2.1, h3.2.2.1, h3.2.2.2, ?_⟩
    · unfold legacyOpcode
      simp only [List.cons_append, List.nil_append]
      split <;> simp_all
    · simpa using h4
  · simp only [Bool.and_eq_true, decide_eq_true_eq] at h
    obtain ⟨⟨h1, h2⟩, h3⟩ := h
    have hl : l = [0x0f, op] := by simpa using h1
    subst hl
    refine ⟨?_, 0x0f, [op], rfl, by decide, by decide, by decide, by decide, by decide⟩
    simp only [List.cons_append, List.nil_append]
    rw [legacyOpcode.eq_3]
    · intro op' r' h hh; exact h2 h
    · intro op' r' h hh; exact h3 h
  · have hl : l = [0x0f, 0x38, op] := by simpa using h
    subst hl
    exact ⟨rfl, 0x0f, _, rfl, by decide, by decide, by decide, by decide, by decide⟩
  · have hl : l = [0x0f, 0x3a, op] := by simpa using h
    subst hl
    exact ⟨rfl, 0x0f, _, rfl, by decide, by decide, by decide, by decide, by decide⟩
  · simp at h

/-- The legacy prefixes before an instruction. -/
def legPfx (aso oso : Bool) (sp m : List Nat) : Legacy :=
  ⟨oso || m == [0x66], aso, false, if m = [0xf2] then 0xf2 else if m = [0xf3] then 0xf3 else 0, sp.headD 0⟩

theorem legacy_head (m64 aso oso : Bool) (sp m : List Nat) (hsp : SegBytes sp)
    (hm : m = [] ∨ m = [0x66] ∨ m = [0xf2] ∨ m = [0xf3]) (rex : Nat)
    (hrex : rex ≠ 0 → m64 = true ∧ 0x40 ≤ rex ∧ rex < 0x50) (l : List Nat) (map op : Nat)
    (hl : opcOk l map op = true) (rest : List Nat) :
    head m64 ((if aso then [0x67] else []) ++ (if oso then [0x66] else []) ++ sp ++
      (m ++ ((if rex ≠ 0 then [rex] else []) ++ (l ++ rest)))) =
    some (⟨.legacy, legPfx aso oso sp m, decide (rex ≠ 0), bit rex 3, addIf (bit rex 2) 8, bit rex 1,
      bit rex 0, 0, false, 0, legacyPP (legPfx aso oso sp m), map, op, 0, false, false⟩, rest) := by
  obtain ⟨h1, b, t, hb, hnp, n1, n2, n3, n4⟩ := opcOk_read hl rest
  by_cases hr : rex = 0
  · subst hr
    have hp := prefixes_eq aso oso sp m hsp hm b (t ++ rest) hnp
    rw [hb] at h1 ⊢
    simp only [ne_eq, not_true_eq_false, if_false, List.nil_append, List.cons_append] at h1 ⊢
    unfold head
    rw [hp]
    have : ¬ (m64 = true ∧ 0x40 ≤ b ∧ b < 0x50) := fun h => n4 h.2
    simp only [n1, n2, n3, false_and, if_false, this]
    unfold legacyHead
    rw [h1]
    rfl
  · obtain ⟨r1, r2, r3⟩ := hrex hr
    have hnp' : noPrefix rex = true := by simp [noPrefix]; omega
    have hp := prefixes_eq aso oso sp m hsp hm rex (l ++ rest) hnp'
    simp only [ne_eq, hr, not_false_eq_true, if_true, List.singleton_append]
    unfold head
    rw [hp]
    have c1 : rex ≠ 0xc4 := by omega
    have c2 : rex ≠ 0xc5 := by omega
    have c3 : rex ≠ 0x62 := by omega
    simp only [c1, c2, c3, false_and, if_false, r1, r2, r3, true_and, and_self, if_true]
    unfold legacyHead
    rw [h1]
    simp [legPfx]

/-! ## Row check -/

/-- A fixed extension bit agrees with the numbers of the register type. -/
def extConst (bit : Bool) (t : OpType) : Bool :=
  if bit then decide (8 ≤ (typeRange t).1) else decide ((typeRange t).2 < 8)

/-- The row's REX.W. -/
def rowW (r : Instr) : Bool := has r.flags REXF && has r.flags REXWF
def rowR (r : Instr) : Bool := has r.flags REXF && has r.flags REXRF
def rowB (r : Instr) : Bool := has r.flags REXF && has r.flags REXBF

/-- The row takes REX.W from the size of the memory operand, which is 8 bytes. -/
def rowPM (r : Instr) (f : Form) : Bool := has r.flags REXP_MEMF && r.op f.rm == .M64

/-- REX.R and REX.B. -/
def extOk (r : Instr) (f : Form) : Bool :=
  if has r.flags EREXF then srcOk r f && !rowR r && !rowB r
  else
    (match f.reg with
     | some k => extConst (rowR r) (r.op k)
     | none => !rowR r) &&
    (if isMem (r.op f.rm) then !rowB r else extConst (rowB r) (r.op f.rm))

/-- Legacy prefix selecting the instruction. -/
def ppOk (r : Instr) (e : Enc) : Bool :=
  match e.pp with
  | none => mandatory1 r.mandatoryPrefix == []
  | some p => p == (match mandatory1 r.mandatoryPrefix with
      | [0xf3] => 2
      | [0xf2] => 3
      | [0x66] => 1
      | _ => if needOSO r then 1 else 0)

/-- Operand size. -/
def oszOk (r : Instr) (f : Form) : Bool :=
  match f.osz with
  | none => true
  | some 8 => rowW r || rowPM r f
  | some 2 => needOSO r && !rowW r && !rowPM r f
  | some 4 => !needOSO r && !(mandatory1 r.mandatoryPrefix == [0x66]) && !rowW r && !rowPM r f
  | some _ => false

/-- Byte registers that exist only with or only without REX. -/
def byteOk (r : Instr) (t : OpType) : Bool :=
  (t != .R8U || has r.flags REXF) &&
  (t != .R8H || (!has r.flags REXF && !has r.flags EREXF && !has r.flags REXP_MEMF))

/-- A row is a legacy encoding of a form. -/
def okLegacy (r : Instr) (f : Form) (e : Enc) : Bool :=
  rowCommon r f false && f.legacy == some e && r.vexflags == 0 && r.evexflags == 0 && e.l.isNone &&
  f.v.isNone && f.is4.isNone && !has r.flags REXXF &&
  opcOk (mandatory2 r.mandatoryPrefix ++ r.opcode.take r.opcodeBytes) e.map e.opcode &&
  ppOk r e && (e.w.isNone || (e.w == some (rowW r) && !has r.flags REXP_MEMF)) && oszOk r f &&
  extOk r f && (!has r.flags REXP_MEMF || isMem (r.op f.rm)) && byteOk r (r.op f.rm) && (match f.reg with
    | some k => byteOk r (r.op k)
    | none => true)

/-! ## The theorem -/

theorem mandatory1_cases (p : Nat) : mandatory1 p = [] ∨ mandatory1 p = [0x66] ∨ mandatory1 p = [0xf2] ∨
    mandatory1 p = [0xf3] := by
  unfold mandatory1
  repeat' split
  all_goals simp

/-- The REX byte of a row, 0 if there is none. -/
def rexNat (r : Instr) (o : Nat → Opnd) (c : Ctx) (me : MemEnc) : Nat :=
  if c.m64 then buildREX me.rex r o else me.rex

theorem buildREX_eq (r : Instr) (o : Nat → Opnd) (nb nx : Bool) (hX : has r.flags REXXF = false) :
    buildREX ((if nb then 0x41 else 0) ||| (if nx then 0x42 else 0)) r o =
      rexVal nb nx (has r.flags REXF) (has r.flags REXBF) (has r.flags REXRF) (has r.flags REXWF)
        (has r.flags EREXF) (regAbove (o 0) 7) (regAbove (o r.srcidx) 7) (r.opDir == REG_DST)
        (has r.flags REXP_MEMF && (o r.memOpnd).memQword) := by
  unfold buildREX rexVal
  simp only [hX]

/-- Every register of the ModRM operand is one of the first eight. -/
def RMLow : RM → Prop
  | .reg n => n < 8
  | .mem b i _ _ _ _ => b.getD 0 < 8 ∧ i.getD 0 < 8

theorem mem_above {m64 vsib : Bool} {x : Opnd} {b i : Option Nat} {s : Nat} {d : Int} {rip : Bool}
    {w : Nat} (h : IsMem m64 vsib x b i s d rip w) :
    regAbove x 7 = decide (8 ≤ b.getD 0 ∧ b.getD 0 < 16) := by
  obtain ⟨h1, h2, _, _, h5, _⟩ := isMem_base h
  unfold regAbove
  rw [h1, h5]
  cases b with
  | none => simp
  | some n =>
    have := h2 n rfl
    simp [this]
    omega

/-- The fourth bit of the register or base in the ModRM operand. -/
def RMBit : RM → Bool → Prop
  | .reg n, x => n % 8 + addIf x 8 = n
  | .mem b i s d rip w, x => x = rmB (.mem b i s d rip w)

/-- The REX byte read back. -/
structure RexRead (r : Instr) (f : Form) (o : Nat → Opnd) (m64 : Bool) (rm : RM) (v : Nat) : Prop where
  range : v ≠ 0 → m64 = true ∧ 0x40 ≤ v ∧ v < 0x50
  fw : bit v 3 = (m64 && (rowW r || rowPM r f))
  fr : ∀ k, f.reg = some k → ∀ n, IsReg (r.op k) (o k) n → Fits m64 .legacy n →
    n % 8 + addIf (bit v 2) 8 = n
  fr0 : f.reg = none → bit v 2 = false
  fx : bit v 1 = rmX r rm
  fb : RMFits m64 .legacy rm → RMBit rm (bit v 0)
  present : m64 = true → has r.flags REXF = true → v ≠ 0
  absent : has r.flags REXF = false → has r.flags EREXF = false → has r.flags REXP_MEMF = false →
    rmB rm = false → rmX r rm = false → v = 0

theorem ext_arith {n : Nat} {b : Bool} (hn : n < 16) (hb : b = decide (n > 7)) :
    n % 8 + addIf b 8 = n := by
  subst hb
  by_cases h : n > 7
  · simp [h, addIf]; omega
  · simp [h, addIf]; omega

theorem extConst_ok {b : Bool} {t : OpType} {x : Opnd} {n : Nat} (ht : regType t = true)
    (h : extConst b t = true) (hr : IsReg t x n) : b = decide (n > 7) := by
  obtain ⟨_, h1, h2, _⟩ := isReg_no ht hr
  unfold extConst at h
  cases b with
  | true => simp at h; have : n > 7 := by omega
            simp [this]
  | false => simp at h; have : ¬ n > 7 := by omega
             simp [this]

theorem rex_read (r : Instr) (f : Form) (o : Nat → Opnd) (c : Ctx) (rm : RM) (me : MemEnc)
    (hrow : rowCommon r f false = true) (hX : has r.flags REXXF = false) (hE : extOk r f = true)
    (hev : has r.evexflags EVEX_VSIBF = false)
    (hme : me.rex = (if rmB rm then 0x41 else 0) ||| (if rmX r rm then 0x42 else 0))
    (hrm : Holds c.m64 f.vsib (r.op f.rm) (o f.rm) rm)
    (hpm : has r.flags REXP_MEMF = true → isMem (r.op f.rm) = true ∧
      (o f.rm).memQword = (r.op f.rm == .M64)) :
    RexRead r f o c.m64 rm (rexNat r o c me) := by
  obtain ⟨t1, t2, t3, t4, t5, t6, t7, t8, t9, t10⟩ := rowCommon_types hrow
  cases hm : c.m64 with
  | false =>
    have hB : rmB rm = false ∧ rmX r rm = false := by
      cases rm with
      | reg n => exact ⟨rfl, rfl⟩
      | mem b i s d rip w =>
        have h32 := hrm.2.h32 hm
        constructor
        · unfold rmB
          cases b with
          | none => rfl
          | some b => have := h32.1 b rfl; simp; omega
        · unfold rmX encIdx
          cases i with
          | none => simp [hev]
          | some i => have := h32.2 i rfl; simp [hev]; omega
    have hv : rexNat r o c me = 0 := by
      unfold rexNat; rw [hm, hme, hB.1, hB.2]; rfl
    rw [hv]
    refine ⟨by simp, by simp [bit], ?_, by simp [bit], by simp [bit, hB.2], ?_, by simp, by simp⟩
    · intro k hk n hn hf
      have : n < 8 := by simpa [Fits] using hf
      simp [bit, addIf]; omega
    · intro hf
      cases rm with
      | reg n => have : n < 8 := by simpa [RMFits, Fits] using hf
                 simp [RMBit, bit, addIf]; omega
      | mem b i s d rip w => show bit 0 0 = rmB _; rw [hB.1]; rfl
  | true =>
    unfold rexNat
    rw [hm, if_pos rfl, hme, buildREX_eq r o _ _ hX]
    obtain ⟨f1, f2, f3, f4, f5, f6⟩ := rexVal_fields (rmB rm) (rmX r rm) (has r.flags REXF)
      (has r.flags REXBF) (has r.flags REXRF) (has r.flags REXWF) (has r.flags EREXF)
      (regAbove (o 0) 7) (regAbove (o r.srcidx) 7) (r.opDir == REG_DST)
      (has r.flags REXP_MEMF && (o r.memOpnd).memQword)
    generalize rexVal (rmB rm) (rmX r rm) (has r.flags REXF)
      (has r.flags REXBF) (has r.flags REXRF) (has r.flags REXWF) (has r.flags EREXF)
      (regAbove (o 0) 7) (regAbove (o r.srcidx) 7) (r.opDir == REG_DST)
      (has r.flags REXP_MEMF && (o r.memOpnd).memQword) = v at *
    have hn16 : ∀ n, Fits true .legacy n → n < 16 := by intro n h; simpa [Fits] using h
    refine ⟨fun h => ⟨rfl, f5 h⟩, ?_, ?_, ?_, f3, ?_, ?_, ?_⟩
    · rw [f1]
      unfold rowW rowPM
      cases hp : has r.flags REXP_MEMF with
      | false => simp
      | true =>
        obtain ⟨p1, p2⟩ := hpm hp
        rw [t10 p1, p2]; simp
    · intro k hk n hn hf
      refine ext_arith (hn16 n hf) ?_
      rw [f2]
      unfold extOk at hE
      have hra := (regAbove_reg (m := 7) (t2 k hk) hn).1
      cases he : has r.flags EREXF with
      | true =>
        rw [he] at hE
        simp only [if_true, Bool.and_eq_true, Bool.not_eq_true'] at hE
        obtain ⟨⟨e1, e2⟩, e3⟩ := hE
        unfold rowR at e2
        rw [e2]
        unfold srcOk at e1
        rw [hk] at e1
        simp only at e1
        cases hd : (r.opDir == REG_DST) with
        | true =>
          rw [hd] at e1
          simp only [if_true, Bool.and_eq_true] at e1
          have : k = 0 := by simpa using e1.1
          subst this
          simp [hra]
        | false =>
          rw [hd] at e1
          simp only [Bool.false_eq_true, if_false, Bool.and_eq_true] at e1
          have : r.srcidx = k := by simpa using e1.2
          rw [this]
          simp [hra]
      | false =>
        rw [he] at hE
        simp only [Bool.false_eq_true, if_false, Bool.and_eq_true, hk] at hE
        have := extConst_ok (t2 k hk) hE.1 hn
        unfold rowR at this
        simpa using this
    · intro hk
      rw [f2]
      unfold extOk at hE
      cases he : has r.flags EREXF with
      | true =>
        rw [he] at hE
        simp only [if_true, Bool.and_eq_true] at hE
        have e1 := hE.1.1
        unfold srcOk at e1
        rw [hk] at e1
        simp at e1
      | false =>
        rw [he] at hE
        simp only [Bool.false_eq_true, if_false, Bool.and_eq_true, hk] at hE
        have := hE.1
        unfold rowR at this
        rw [Bool.not_eq_true'] at this
        rw [this]; rfl
    · intro hf
      rw [f4]
      unfold extOk at hE
      have hpos : has r.flags EREXF = true → (if (r.opDir == REG_DST) = true then regAbove (o r.srcidx) 7
          else regAbove (o 0) 7) = regAbove (o f.rm) 7 := by
        intro he
        rw [he] at hE
        simp only [if_true, Bool.and_eq_true] at hE
        have e1 := hE.1.1
        unfold srcOk at e1
        cases hk : f.reg with
        | none => rw [hk] at e1; simp at e1
        | some k =>
          rw [hk] at e1
          simp only at e1
          cases hd : (r.opDir == REG_DST) with
          | true =>
            rw [hd] at e1
            simp only [if_true, Bool.and_eq_true] at e1
            have : r.srcidx = f.rm := by simpa using e1.2
            simp [this]
          | false =>
            rw [hd] at e1
            simp only [Bool.false_eq_true, if_false, Bool.and_eq_true] at e1
            have : f.rm = 0 := by simpa using e1.1
            simp [this]
      cases rm with
      | reg n =>
        refine ext_arith (hn16 n hf) ?_
        have hrt : regType (r.op f.rm) = true := by
          rcases t1 with h | h
          · exact h
          · have := isReg_not_mem hrm; rw [this] at h; simp at h
        have hra := (regAbove_reg (m := 7) hrt hrm).1
        cases he : has r.flags EREXF with
        | true =>
          rw [hpos he, hra]
          rw [he] at hE
          simp only [if_true, Bool.and_eq_true, Bool.not_eq_true'] at hE
          have := hE.2
          unfold rowB at this
          simp [this, rmB]
        | false =>
          rw [he] at hE
          simp only [Bool.false_eq_true, if_false, Bool.and_eq_true, isReg_not_mem hrm] at hE
          have := extConst_ok hrt hE.2 hrm
          unfold rowB at this
          simpa [rmB] using this
      | mem b i s d rip w =>
        have ha := mem_above hrm.2
        have hb : rowB r = false := by
          cases he : has r.flags EREXF with
          | true =>
            rw [he] at hE
            simp only [if_true, Bool.and_eq_true, Bool.not_eq_true'] at hE
            exact hE.2
          | false =>
            rw [he] at hE
            simp only [Bool.false_eq_true, if_false, Bool.and_eq_true, hrm.1, if_true,
              Bool.not_eq_true'] at hE
            exact hE.2
        unfold rowB at hb
        rw [hb]
        cases he : has r.flags EREXF with
        | true => rw [hpos he, ha]; simp [rmB, RMBit]
        | false => simp [RMBit]
    · intro _ h
      rw [h] at f6
      simp at f6
      exact f6
    · intro h1 h2 h3 h4 h5
      rw [h1, h2, h3, h4, h5] at f6
      simpa using f6

/-- C46 (legacy): every row that passes `okLegacy` emits exactly the legacy instruction of its
form, with the REX prefix where a byte register demands it and without where one forbids it. -/
theorem legacy_encodes (r : Instr) (f : Form) (e : Enc) (hok : okLegacy r f e = true) (o : Nat → Opnd)
    (c : Ctx) (rm : RM) (hev : c.evexFlag = false) (ops : Operands r f o c .legacy rm)
    (h64 : f.osz = some 8 ∨ e.w = some true → c.m64 = true)
    (hpm : has r.flags REXP_MEMF = true → (o f.rm).memQword = (r.op f.rm == .M64)) :
    ∃ bs rd, emit r o c = some bs ∧ readForm f c.m64 bs = some rd ∧ rd.kind = .legacy ∧ rd.rm = rm ∧
      Says r f o c rd ∧
      (∀ k, (f.reg = some k ∨ f.rm = k) →
        (r.op k = .R8U → c.m64 = true → rd.rex = true) ∧ (r.op k = .R8H → RMLow rm → rd.rex = false)) := by
  unfold okLegacy at hok
  simp only [Bool.and_eq_true, Bool.not_eq_true'] at hok
  obtain ⟨⟨⟨⟨⟨⟨⟨⟨⟨⟨⟨⟨⟨⟨⟨k1, k2⟩, k3⟩, k4⟩, k5⟩, k6⟩, k7⟩, k8⟩, k9⟩, k10⟩, k11⟩, k12⟩, k13⟩, k16⟩, k14⟩, k15⟩ := hok
  obtain ⟨t1, t2, t3, t4, t5, t6, t7, t8, t9, t10⟩ := rowCommon_types k1
  have hvf : r.vexflags = 0 := by simpa using k3
  have hef : r.evexflags = 0 := by simpa using k4
  have hvs : f.vsib = false := by rw [t8, hvf]; rfl
  have hnv : has r.evexflags EVEX_VSIBF = false := by rw [hef]; rfl
  obtain ⟨sp, hsp, hsb, hseg⟩ := segPrefix_ok r c ops.seg
  let c' : Ctx := { c with broad := promoteBroadcast r c.broad }
  obtain ⟨me, hme, a1, a2, a3, a4, a5, a6⟩ := tail_read r f o c' .legacy rm false k1 ops.hrm ops.rmFits
    ops.vsib (fun _ => hnv) (by simp)
  have hvp : vexPart r o c' me = some [] := by
    unfold vexPart
    have : c'.evexFlag = false := hev
    rw [this, hvf, hef]; rfl
  have hsh := emit_shape r o c me _ sp hme hvp (Or.inl hev) ops.pfx hsp a5
  have hrv : rowV r = false := by unfold rowV; rw [hvf]; rfl
  have hop : opcodeBytes r o = r.opcode.take r.opcodeBytes := by unfold opcodeBytes; simp [t5]
  have hmr : me.rex = (if rmB rm then 0x41 else 0) ||| (if rmX r rm then 0x42 else 0) := by
    rw [a4, hvf]; rfl
  have hpmm : has r.flags REXP_MEMF = true → isMem (r.op f.rm) = true := by
    intro h; rw [h] at k16; simpa using k16
  have R := rex_read r f o c rm me k1 k8 k13 hnv hmr ops.hrm
    (fun h => ⟨hpmm h, hpm h⟩)
  have hrb : rexBytes r o c me = if rexNat r o c me ≠ 0 then [rexNat r o c me] else [] := rfl
  rw [hrb, hrv, hop, a1] at hsh
  generalize rexNat r o c me = v at *
  have hhead := legacy_head c.m64 (rmAso c.m64 rm) (needOSO r) sp _ hsb (mandatory1_cases r.mandatoryPrefix)
    v R.range _ e.map e.opcode k9 (tailBytes r o me false)
  simp only [List.nil_append] at hsh
  rw [← List.append_assoc (mandatory2 _) (List.take _ _) _] at hsh
  refine Exists.elim (finish r f o c' e rm _ false k1
    ⟨?_, rfl, rfl, ?_, ?_, ?_, ⟨rfl, ?_⟩, ?_, ?_, ?_, ?_, ?_, ?_, ?_, ?_⟩ ops.hrm ?_ me _ a6 hhead) ?_
  rotate_right
  · rintro rd ⟨h1, h2, h3, h5, _, h4, _⟩
    refine ⟨_, rd, hsh, h1, h3, h4, ⟨h2.reg, h2.rm, h2.v, h2.imm, h2.is4, h2.seg⟩, ?_⟩
    intro k hk
    rw [h5]
    have hb : byteOk r (r.op k) = true := by
      rcases hk with hk | hk
      · rw [hk] at k15; exact k15
      · rw [← hk]; exact k14
    unfold byteOk at hb
    simp only [Bool.and_eq_true, Bool.or_eq_true, Bool.not_eq_true', bne_iff_ne, ne_eq] at hb
    constructor
    · intro ht hm
      have : has r.flags REXF = true := by
        rcases hb.1 with h | h
        · exact absurd ht h
        · exact h
      simpa using R.present hm this
    · intro ht hl
      have hh : (has r.flags REXF = false ∧ has r.flags EREXF = false) ∧
          has r.flags REXP_MEMF = false := by
        rcases hb.2 with h | h
        · exact absurd ht h
        · exact h
      have hB : rmB rm = false ∧ rmX r rm = false := by
        cases rm with
        | reg n => exact ⟨rfl, rfl⟩
        | mem b i s d rip w =>
          constructor
          · unfold rmB; have := hl.1; simp; omega
          · unfold rmX encIdx
            have := hl.2
            cases i with
            | none => simp [hnv]
            | some i => simp at this; simp [hnv]; omega
      simpa using R.absent hh.1.1 hh.1.2 hh.2 hB.1 hB.2
  · simpa [Form.enc] using k2
  · unfold ppOk at k10
    unfold agrees legacyPP legPfx
    rcases mandatory1_cases r.mandatoryPrefix with h | h | h | h <;> rw [h] at k10 ⊢ <;>
      cases hp : e.pp <;> rw [hp] at k10 <;> cases ho : needOSO r <;> rw [ho] at k10 <;>
      simp at k10 ⊢ <;> first | done | exact k10
  · rw [R.fw]
    simp only [Bool.or_eq_true, Bool.and_eq_true, Bool.not_eq_true'] at k11
    rcases k11 with h | ⟨h1, h2⟩
    · unfold agrees; rw [h]; rfl
    · have h1' : e.w = some (rowW r) := by simpa using h1
      have hpm0 : rowPM r f = false := by unfold rowPM; simp [h2]
      rw [hpm0, h1']
      cases hw : rowW r with
      | false => simp [agrees]
      | true =>
        rw [hw] at h1'
        rw [h64 (Or.inr h1')]
        simp [agrees]
  · unfold opSize
    simp only [R.fw]
    unfold oszOk at k12
    split at k12
    · next h => rw [h]; rfl
    · next h =>
      rw [h64 (Or.inl h), h]
      simp only [Bool.or_eq_true] at k12
      rcases k12 with h | h <;> simp [h, agrees]
    · next h =>
      rw [h]
      simp only [Bool.and_eq_true, Bool.not_eq_true'] at k12
      simp [k12, agrees, legPfx]
    · next h =>
      rw [h]
      simp only [Bool.and_eq_true, Bool.not_eq_true'] at k12
      simp [k12, agrees, legPfx]
    · simp at k12
  · intro hp
    have hp' : e.pp = none := by simpa using hp
    unfold ppOk at k10
    rw [hp'] at k10
    have : mandatory1 r.mandatoryPrefix = [] := by simpa using k10
    simp [legPfx, this]
  · have : e.l = none := by simpa using k5
    simp [this, agrees]
  · intro i hi
    obtain ⟨n, hn, hf⟩ := ops.reg i hi
    exact ⟨n, hn, R.fr i hi n hn hf⟩
  · intro h; simp [R.fr0 h, addIf]
  · intro i hi
    have : f.v = none := by simpa using k6
    rw [this] at hi; simp at hi
  · intro _; exact ⟨rfl, Or.inr rfl⟩
  · have hb := R.fb ops.rmFits
    cases hrmv : rm with
    | reg m =>
      rw [hrmv] at hb
      simpa [RMHead, RMBit] using hb
    | mem b i s d rip w =>
      have hmf := ops.rmFits
      rw [hrmv] at hmf hb
      have hi16 : i.getD 0 < 16 := hmf (by simp)
      refine ⟨rfl, ?_, ?_, ?_⟩
      · unfold RMBit at hb; simp only [hb]; rfl
      · show bit v 1 = _
        rw [R.fx, hrmv]
        simp only [rmX, encIdx, hnv]
        cases i with
        | none => rfl
        | some i =>
          simp only [Option.getD_some] at hi16
          simp only [Option.getD_some, Bool.false_eq_true, if_false]
          by_cases h : 7 < i ∧ i < 16
          · have : 8 ≤ i % 16 := by omega
            simp [h, this]
          · have : ¬ 8 ≤ i % 16 := by omega
            simp only [h, this, decide_false]
      · intro h; rw [hvs] at h; simp at h
  · cases hrmv : rm with
    | reg m => trivial
    | mem b i s d rip w => exact Or.inl ⟨hev, Or.inl (by simp)⟩
  · exact hseg
  · intro i hi
    have : f.is4 = none := by simpa using k7
    rw [this] at hi; simp at hi

end Verif.Cgv2
