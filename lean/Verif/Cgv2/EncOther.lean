import Verif.Cgv2.EncLegacy

/-!
# Instructions without ModRM byte: fixed bytes, register in the opcode, absolute address
-/

namespace Verif.Cgv2

open Isa

/-- The columns of a legacy row without ModRM. -/
def bareRow (r : Instr) : Bool :=
  r.vexflags == 0 && r.evexflags == 0 && !has r.flags F_MODRMF &&
  !has r.flags REXXF && !has r.flags EREXF && !has r.flags REXP_MEMF &&
  mandatory1 r.mandatoryPrefix == [] && mandatory2 r.mandatoryPrefix == []

theorem emit_bare (r : Instr) (o : Nat → Opnd) (c : Ctx) (me : MemEnc) (sp : List Nat)
    (hb : bareRow r = true) (hev : c.evexFlag = false) (hp : c.pfx = none)
    (hs : segPrefix r c = some sp)
    (hm : memPart r o { c with broad := promoteBroadcast r c.broad } = some me)
    (h1 : me.aso = false) (h2 : me.needModRM = false) (h3 : me.needSIB = false) (h4 : me.rex = 0) :
    emit r o c = some ((if false then [0x67] else []) ++ (if needOSO r then [0x66] else []) ++ sp ++
      ([] ++ ((if rexNat r o c me ≠ 0 then [rexNat r o c me] else []) ++
        (opcodeBytes r o ++ (dispBytes me.dispSize me.lo me.hi ++ immBytes r o))))) := by
  unfold bareRow at hb
  simp only [Bool.and_eq_true, Bool.not_eq_true'] at hb
  obtain ⟨⟨⟨⟨⟨⟨⟨b1, b2⟩, b3⟩, b4⟩, b5⟩, b6⟩, b7⟩, b8⟩ := hb
  have hv : r.vexflags = 0 := by simpa using b1
  have he : r.evexflags = 0 := by simpa using b2
  have hm1 : mandatory1 r.mandatoryPrefix = [] := by simpa using b7
  have hm2 : mandatory2 r.mandatoryPrefix = [] := by simpa using b8
  have hs' : segPrefix r { c with broad := promoteBroadcast r c.broad } = some sp := hs
  have hi : insPrefix r ({ c with broad := promoteBroadcast r c.broad } : Ctx).pfx = some [] := by
    show insPrefix r c.pfx = _
    rw [hp]; rfl
  have hev' : ({ c with broad := promoteBroadcast r c.broad } : Ctx).evexFlag = false := hev
  have hm64 : ({ c with broad := promoteBroadcast r c.broad } : Ctx).m64 = c.m64 := rfl
  unfold rexNat emit front
  generalize ({ c with broad := promoteBroadcast r c.broad } : Ctx) = c2 at *
  have hvp : vexPart r o c2 me = some [] := by
    unfold vexPart
    rw [hev', hv, he]; rfl
  simp only [hm, hvp, hev', hs', hi, Bool.false_and, Bool.false_eq_true, if_false, hm64, h1, h2, h3, hm1,
    hm2, b3, Bool.or_self, List.nil_append, List.append_nil, List.append_assoc]

/-- REX of a row without ModRM. -/
theorem rexNat_bare (r : Instr) (o : Nat → Opnd) (c : Ctx) (me : MemEnc) (hb : bareRow r = true)
    (h4 : me.rex = 0) :
    let v := rexNat r o c me
    (v ≠ 0 → c.m64 = true ∧ 0x40 ≤ v ∧ v < 0x50) ∧ bit v 3 = (c.m64 && rowW r) ∧
      bit v 0 = (c.m64 && rowB r) ∧ decide (v ≠ 0) = (c.m64 && has r.flags REXF) := by
  unfold bareRow at hb
  simp only [Bool.and_eq_true, Bool.not_eq_true'] at hb
  obtain ⟨⟨⟨⟨⟨⟨⟨b1, b2⟩, b3⟩, b4⟩, b5⟩, b6⟩, b7⟩, b8⟩ := hb
  unfold rexNat
  rw [h4]
  cases hm : c.m64 with
  | false => simp [bit]
  | true =>
    have := buildREX_eq r o false false b4
    simp only [Bool.false_eq_true, if_false, Nat.or_zero] at this
    simp only [if_true, this, b5, b6, Bool.false_and]
    obtain ⟨f1, f2, f3, f4, f5, f6⟩ := rexVal_fields false false (has r.flags REXF)
      (has r.flags REXBF) (has r.flags REXRF) (has r.flags REXWF) false
      (regAbove (o 0) 7) (regAbove (o r.srcidx) 7) (r.opDir == REG_DST) false
    refine ⟨fun h => ⟨trivial, f5 h⟩, ?_, ?_, ?_⟩
    · rw [f1]; simp [rowW]
    · rw [f4]; simp [rowB]
    · rw [f6]; simp

/-! ## Fixed bytes -/

/-- A row is the fixed bytes. -/
def okFixed (r : Instr) (bytes : List Nat) : Bool :=
  bareRow r && !has r.flags F_OPCODE_REGF && !has r.flags REXF && !needOSO r && r.memOpnd == NO_MEM &&
  r.immOpnd == NO_IMM && r.opcode.take r.opcodeBytes == bytes

theorem fixed_encodes (r : Instr) (bytes : List Nat) (hok : okFixed r bytes = true) (o : Nat → Opnd)
    (c : Ctx) (hev : c.evexFlag = false) (hp : c.pfx = none) (hs : c.seg = none) :
    emit r o c = some bytes := by
  unfold okFixed at hok
  simp only [Bool.and_eq_true, Bool.not_eq_true'] at hok
  obtain ⟨⟨⟨⟨⟨⟨k1, k2⟩, k3⟩, k4⟩, k5⟩, k6⟩, k7⟩ := hok
  have hm : memPart r o { c with broad := promoteBroadcast r c.broad } =
      some ⟨false, 0, 0, 0, false, false, 0, 0, 0, false, false, false⟩ := by
    unfold memPart; rw [k5]; rfl
  have hsp : segPrefix r c = some [] := by unfold segPrefix; rw [hs]
  have h := emit_bare r o c _ [] k1 hev hp hsp hm rfl rfl rfl rfl
  obtain ⟨_, _, _, r4⟩ := rexNat_bare r o c ⟨false, 0, 0, 0, false, false, 0, 0, 0, false, false, false⟩ k1 rfl
  rw [k3, Bool.and_false] at r4
  have r4' : rexNat r o c ⟨false, 0, 0, 0, false, false, 0, 0, 0, false, false, false⟩ = 0 := by
    simpa using r4
  rw [h, r4', k4]
  have ho : opcodeBytes r o = bytes := by unfold opcodeBytes; simpa [k2] using k7
  have hib : immBytes r o = [] := by unfold immBytes; simp [k6]
  rw [ho, hib]
  simp [dispBytes, leBytes]

/-! ## Register in the opcode -/

/-- Operand-size columns. -/
def oszBare (r : Instr) (sz : Nat) : Bool :=
  match sz with
  | 1 => true
  | 2 => needOSO r && !rowW r
  | 4 => !needOSO r && !rowW r
  | 8 => rowW r
  | _ => false

/-- A row has the register in its opcode. -/
def okPlusR (r : Instr) (opcode sz k : Nat) : Bool :=
  bareRow r && has r.flags F_OPCODE_REGF && r.memOpnd == NO_MEM && r.immOpnd == 1 &&
  !has r.flags IMM8_ONLYF && r.opSize == k && r.opcode.getD 0 0 == opcode &&
  (opcode == 0xb0 || opcode == 0xb8) && oszBare r sz && regType (r.op 0) &&
  extConst (rowB r) (r.op 0) && byteOk r (r.op 0)

theorem plusR_opc : ∀ (n : Fin 8), opcOk [(0xb0 + n.1) % 256] 0 (0xb0 + n.1) = true ∧
    opcOk [(0xb8 + n.1) % 256] 0 (0xb8 + n.1) = true := by decide +kernel

theorem oszBare_ok {r : Instr} {sz : Nat} {c : Ctx} {b : Bool} {v : Nat} (h : oszBare r sz = true)
    (h8 : sz = 8 → c.m64 = true) (hv : bit v 3 = (c.m64 && rowW r)) (hb : b = needOSO r) :
    sz = 1 ∨ (if bit v 3 then 8 else if b then 2 else 4) = sz := by
  unfold oszBare at h
  rw [hv, hb]
  split at h
  · exact Or.inl rfl
  · simp at h; right; simp [h]
  · simp at h; right; simp [h]
  · right; rw [h8 rfl, h]; rfl
  · simp at h

/-- C46 (register in the opcode): the register and the immediate written. -/
theorem plusR_encodes (r : Instr) (opcode sz k : Nat) (hok : okPlusR r opcode sz k = true)
    (o : Nat → Opnd) (c : Ctx) (hev : c.evexFlag = false) (hp : c.pfx = none) (hs : c.seg = none)
    (h8 : sz = 8 → c.m64 = true) (n : Nat) (hn : IsReg (r.op 0) (o 0) n) (hf : Fits c.m64 .legacy n) :
    ∃ bs rex, emit r o c = some bs ∧
      readPlusR opcode sz k c.m64 bs = some (n, rex, (o 1).data % 256 ^ k) ∧
      (r.op 0 = .R8U → c.m64 = true → rex = true) ∧ (r.op 0 = .R8H → rex = false) := by
  unfold okPlusR at hok
  simp only [Bool.and_eq_true, Bool.not_eq_true'] at hok
  obtain ⟨⟨⟨⟨⟨⟨⟨⟨⟨⟨⟨k1, k2⟩, k3⟩, k4⟩, k5⟩, k6⟩, k7⟩, k8⟩, k9⟩, k10⟩, k11⟩, k12⟩ := hok
  have hm : memPart r o { c with broad := promoteBroadcast r c.broad } =
      some ⟨false, 0, 0, 0, false, false, 0, 0, 0, false, false, false⟩ := by
    unfold memPart; rw [k3]; rfl
  have hsp : segPrefix r c = some [] := by unfold segPrefix; rw [hs]
  have h := emit_bare r o c _ [] k1 hev hp hsp hm rfl rfl rfl rfl
  obtain ⟨r1, r2, r3, r4⟩ := rexNat_bare r o c
    ⟨false, 0, 0, 0, false, false, 0, 0, 0, false, false, false⟩ k1 rfl
  generalize rexNat r o c ⟨false, 0, 0, 0, false, false, 0, 0, 0, false, false, false⟩ = v at *
  obtain ⟨g1, g2, g3, _⟩ := isReg_no k10 hn
  have hv0 : r.vexflags = 0 := by
    unfold bareRow at k1; simp only [Bool.and_eq_true] at k1
    simpa using k1.1.1.1.1.1.1.1
  have hk7 : r.opcode.getD 0 0 = opcode := by simpa using k7
  have hop : opcodeBytes r o = [(opcode + n % 8) % 256] := by
    unfold opcodeBytes
    rw [k2, if_pos rfl, g1, and7, hk7]
  have hib : immBytes r o = leBytes k (o 1).data := by
    unfold immBytes
    have h1 : r.immOpnd = 1 := by simpa using k4
    have h2 : r.opSize = k := by simpa using k6
    rw [h1, hv0, k5, h2]; rfl
  have hopc : opcOk [(opcode + n % 8) % 256] 0 (opcode + n % 8) = true := by
    obtain ⟨p1, p2⟩ := plusR_opc ⟨n % 8, by omega⟩
    simp only [Bool.or_eq_true, beq_iff_eq] at k8
    rcases k8 with h | h <;> subst h
    · exact p1
    · exact p2
  have hhead := legacy_head c.m64 false (needOSO r) [] [] (Or.inl rfl) (Or.inl rfl) v r1
    [(opcode + n % 8) % 256] 0 (opcode + n % 8) hopc (leBytes k (o 1).data)
  rw [hop, hib] at h
  refine ⟨_, decide (v ≠ 0), h, ?_, ?_⟩
  · unfold readPlusR
    simp only [dispBytes, leBytes, List.nil_append]
    simp only [List.nil_append] at hhead
    rw [hhead]
    have ho8 : (opcode + n % 8) / 8 * 8 = opcode := by
      simp only [Bool.or_eq_true, beq_iff_eq] at k8
      rcases k8 with h | h <;> subst h <;> omega
    have ho7 : (opcode + n % 8) % 8 = n % 8 := by
      simp only [Bool.or_eq_true, beq_iff_eq] at k8
      rcases k8 with h | h <;> subst h <;> omega
    have hsz := oszBare_ok (b := needOSO r || (([] : List Nat) == [0x66])) k9 h8 r2 (by simp)
    simp only
    rw [if_pos ⟨trivial, trivial, ho8, hsz, rfl, rfl⟩]
    have ht := takeN_append (leBytes k (o 1).data) [] k (length_leBytes _ _)
    rw [List.append_nil] at ht
    simp only [ht, ho7, le_leBytes]
    have hB : n % 8 + addIf (bit v 0) 8 = n := by
      have hc := extConst_ok k10 k11 hn
      rw [r3, hc]
      unfold Fits at hf
      cases hm : c.m64 with
      | true =>
        rw [hm] at hf
        simp at hf
        exact ext_arith hf (by simp)
      | false =>
        rw [hm] at hf
        simp at hf
        simp [addIf]; omega
    rw [hB]
  · unfold byteOk at k12
    simp only [Bool.and_eq_true, Bool.or_eq_true, Bool.not_eq_true', bne_iff_ne, ne_eq] at k12
    rw [r4]
    constructor
    · intro ht hm
      rcases k12.1 with h | h
      · exact absurd ht h
      · rw [hm, h]; rfl
    · intro ht
      rcases k12.2 with h | h
      · exact absurd ht h
      · rw [h.1.1]; simp

/-! ## Absolute addresses -/

/-- A row moves the accumulator from or to an absolute address. -/
def okMoffs (r : Instr) (opcode sz m : Nat) : Bool :=
  bareRow r && !has r.flags F_OPCODE_REGF && r.memOpnd == 8 + m && decide (m < 2) && r.immOpnd == NO_IMM &&
  opcOk (r.opcode.take r.opcodeBytes) 0 opcode && oszBare r sz

/-- C46 (absolute address): the address written, complete. -/
theorem moffs_encodes (r : Instr) (opcode sz m : Nat) (hok : okMoffs r opcode sz m = true)
    (o : Nat → Opnd) (c : Ctx) (hev : c.evexFlag = false) (hp : c.pfx = none)
    (hseg : c.seg = none ∨ (has r.flags ALLOW_SEGF = true ∧
      (c.m64 = true → has r.flags ALLOW_SEGXF = false →
        c.seg = some .fs ∨ c.seg = some .gs ∨ c.seg = some .ss)))
    (h8 : sz = 8 → c.m64 = true) (a : Nat)
    (ha : if c.m64 then a < 2 ^ 64 ∧ (o m).lo % 2 ^ 32 = (a % 2 ^ 32 : Nat) ∧ (o m).hi = a / 2 ^ 32
      else a < 2 ^ 32 ∧ (o m).lo % 2 ^ 32 = a) :
    ∃ bs, emit r o c = some bs ∧ readMoffs opcode sz c.m64 bs = some (match c.seg with
      | none => 0
      | some s => segOverride s, a) := by
  unfold okMoffs at hok
  simp only [Bool.and_eq_true, Bool.not_eq_true'] at hok
  obtain ⟨⟨⟨⟨⟨⟨k1, k2⟩, k3⟩, k4⟩, k5⟩, k6⟩, k7⟩ := hok
  have hmo : r.memOpnd = 8 + m := by simpa using k3
  have hm2 : m < 2 := by simpa using k4
  obtain ⟨sp, hsp, hsb, hsg⟩ := segPrefix_ok r c hseg
  let c' : Ctx := { c with broad := promoteBroadcast r c.broad }
  have hm : memPart r o c' = some (buildAbs (o m) c') := by
    unfold memPart
    rw [hmo]
    rcases (by omega : m = 0 ∨ m = 1) with h | h <;> subst h <;> rfl
  have h := emit_bare r o c _ sp k1 hev hp hsp hm rfl rfl rfl rfl
  obtain ⟨r1, r2, r3, r4⟩ := rexNat_bare r o c (buildAbs (o m) c') k1 rfl
  generalize rexNat r o c (buildAbs (o m) c') = v at *
  have hop : opcodeBytes r o = r.opcode.take r.opcodeBytes := by unfold opcodeBytes; simp [k2]
  have hib : immBytes r o = [] := by unfold immBytes; simp [k5]
  rw [hop, hib, List.append_nil] at h
  have hhead := legacy_head c.m64 false (needOSO r) sp [] hsb (Or.inl rfl) v r1
    _ 0 opcode k6 (dispBytes (buildAbs (o m) c').dispSize (buildAbs (o m) c').lo (buildAbs (o m) c').hi)
  refine ⟨_, h, ?_⟩
  unfold readMoffs
  rw [hhead]
  have hsz := oszBare_ok (b := needOSO r || (([] : List Nat) == [0x66])) k7 h8 r2 (by simp)
  simp only
  rw [if_pos ⟨trivial, trivial, trivial, hsz, rfl, rfl⟩]
  have hd : dispBytes (buildAbs (o m) c').dispSize (buildAbs (o m) c').lo (buildAbs (o m) c').hi =
      leBytes (if c.m64 then 8 else 4) (((o m).lo % 2 ^ 32).toNat + (o m).hi * 2 ^ 32) := rfl
  rw [hd]
  have ht := takeN_append (leBytes (if c.m64 then 8 else 4)
    (((o m).lo % 2 ^ 32).toNat + (o m).hi * 2 ^ 32)) [] (if c.m64 then 8 else 4) (length_leBytes _ _)
  rw [List.append_nil] at ht
  simp only [legPfx, Bool.false_eq_true, if_false]
  rw [ht]
  simp only [le_leBytes, hsg]
  have hval : (((o m).lo % 2 ^ 32).toNat + (o m).hi * 2 ^ 32) % 256 ^ (if c.m64 then 8 else 4) = a := by
    cases hm6 : c.m64 with
    | true =>
      rw [hm6] at ha
      simp only [if_true] at ha ⊢
      obtain ⟨h1, h2, h3⟩ := ha
      rw [h2, h3]
      simp only [Int.toNat_natCast]
      omega
    | false =>
      rw [hm6] at ha
      simp only [Bool.false_eq_true, if_false] at ha ⊢
      obtain ⟨h1, h2⟩ := ha
      rw [h2]
      simp only [Int.toNat_natCast]
      omega
  rw [hval]
  cases c.seg <;> rfl

end Verif.Cgv2
