import Verif.Cgv2.EncRegs

/-!
# Addresses (C45)
-/

namespace Verif.Cgv2

open Isa

/-- Operand `x` is the address `base + index * scale + disp` (hardware register numbers).
`vsib`: the index is a vector register.  `rip`: a variable addressed relative to the instruction
pointer.  `width`: size of the address registers. -/
structure IsMem (m64 vsib : Bool) (x : Opnd) (base index : Option Nat) (scale : Nat) (disp : Int)
    (rip : Bool) (width : Nat) : Prop where
  hbase : match base with
    | none => x.base = none
    | some b => ∃ g, addrReg width b g ∧ x.base = some g.tok ∧ x.indirect = true
  hindex : match index with
    | none => x.idx = none ∧ x.scale ≤ 1 ∧ scale = 1
    | some i => (∃ g, (if vsib then vecReg i g else addrReg width i g ∧ i ≠ 4) ∧
        x.idx = some g.tok) ∧ x.scale = scale ∧ (scale = 1 ∨ scale = 2 ∨ scale = 4 ∨ scale = 8)
  hdisp : x.lo = disp ∧ -2 ^ 31 ≤ disp ∧ disp < 2 ^ 31
  /-- 64-bit registers in 64-bit code, 32-bit registers in 32-bit code, or a 32-bit base register
  in 64-bit code, not together with a variable -/
  hwidth : width = (if m64 then 8 else 4) ∨
    (m64 = true ∧ width = 4 ∧ base ≠ none ∧ x.sym = none)
  h32 : m64 = false → (∀ b, base = some b → b < 8) ∧ (∀ i, index = some i → i < 8)
  hsym : x.sym ≠ none → x.isAddr = true
  /-- a variable in 64-bit code is addressed through RIP if there is no register, and there
  is no encoding with an index alone -/
  hrip : rip = (m64 && x.sym == some false && base.isNone)
  hripi : rip = true → index = none

/-- The one-byte displacement is multiplied by `n` when the instruction is EVEX encoded.  With the
EVEX flag set the assembler divides it (`CompDisp`) by its element size; without it, it does
nothing. -/
def DispScale (r : Instr) (x : Opnd) (c : Ctx) (base : Option Nat) (disp : Int) (n : Nat) : Prop :=
  (c.evexFlag = false ∧ (n = 1 ∨ disp = 0 ∨ disp < -128 ∨ 127 < disp ∨ base = none ∨
    x.sym = some false)) ∨
  (c.evexFlag = true ∧
    (disp = 0 ∨ (n = elemSize r c ∧ 0 < n ∧ base ≠ none ∧ x.sym ≠ some false)))

/-! ## Bytes -/

theorem le_leBytes (n v : Nat) : le (leBytes n v) = v % 256 ^ n := by
  induction n generalizing v with
  | zero => simp [leBytes, le, Nat.mod_one]
  | succ n ih =>
    simp only [leBytes, le, ih]
    rw [Nat.pow_succ, Nat.mul_comm (256 ^ n) 256, Nat.mod_mul]

theorem length_leBytes (n v : Nat) : (leBytes n v).length = n := by
  induction n generalizing v with
  | zero => rfl
  | succ n ih => simp [leBytes, ih]

theorem takeN_append (l rest : List Nat) (n : Nat) (h : l.length = n) :
    takeN n (l ++ rest) = some (l, rest) := by
  subst h
  simp [takeN]

theorem signed8 (lo : Int) (hi : Nat) (h1 : -128 ≤ lo) (h2 : lo ≤ 127) :
    signed 8 (((lo % 2 ^ 32).toNat + hi * 2 ^ 32) % 256) = lo := by
  simp only [signed]
  split <;> omega

theorem signed32 (lo : Int) (hi : Nat) (h1 : -2 ^ 31 ≤ lo) (h2 : lo < 2 ^ 31) :
    signed 32 (((lo % 2 ^ 32).toNat + hi * 2 ^ 32) % 256 ^ 4) = lo := by
  simp only [signed]
  split <;> omega

theorem modrm_byte : ∀ (m reg : Fin 8) (mod : Fin 4),
    (m.1 ||| (mod.1 * 64)) ||| (reg.1 <<< 3) = mod.1 * 64 + reg.1 * 8 + m.1 := by decide +kernel

theorem sib_byte : ∀ (s : Fin 64) (ss : Fin 4), s.1 ||| (ss.1 <<< 6) = ss.1 * 64 + s.1 := by
  decide +kernel

/-! ## Displacement -/

/-- The displacement part of `buildMem` for a table entry with flags `fl`. -/
def dispPart (fl : Nat) (r : Instr) (m : Opnd) (c : Ctx) : Nat × Nat × Int :=
  let dispNeeded := m.lo != 0 || has fl MEMF_DSPF || has fl MEMF_DSP32F || m.sym == some false
  let cd := compDisp m.lo r c
  let d8 := cd.1 && (m.sym.isNone || m.sym == some true) && !has fl MEMF_DSP32F &&
    decide (-128 ≤ cd.2 ∧ cd.2 ≤ 127)
  if dispNeeded then
    if d8 then (1, 0x40, cd.2)
    else (4, if has fl MEMF_DSP32F then 0 else 0x80, cd.2)
  else (0, 0, m.lo)

theorem compDisp_false {r : Instr} {c : Ctx} (v : Int) (h : c.evexFlag = false) :
    compDisp v r c = (true, v) := by simp [compDisp, h]

theorem compDisp_zero {r : Instr} {c : Ctx} (h : c.evexFlag = true) :
    compDisp 0 r c = (true, 0) := by
  unfold compDisp
  simp only [h, if_true, Int.zero_tmod, Int.zero_tdiv]
  rw [if_pos (by omega)]

theorem compDisp_true {r : Instr} {c : Ctx} (v : Int) (h : c.evexFlag = true) (n : Nat)
    (hn : n = elemSize r c) (h0 : 0 < n) :
    (∃ q, compDisp v r c = (true, q) ∧ q * n = v ∧ -128 ≤ q ∧ q ≤ 127) ∨
    compDisp v r c = (false, v) := by
  unfold compDisp
  rw [← hn]
  simp only [h, if_true]
  by_cases hr : -(128 * (n : Int)) ≤ v ∧ v ≤ 127 * (n : Int)
  · rw [if_pos hr]
    by_cases hm : v.tmod (n : Int) = 0
    · rw [if_pos hm]
      left
      have hd : (v.tdiv n) * n = v := Int.tdiv_mul_cancel (Int.dvd_of_tmod_eq_zero hm)
      refine ⟨v.tdiv n, rfl, hd, ?_, ?_⟩
      · apply Decidable.byContradiction
        intro hc
        have h1 : v.tdiv n ≤ -129 := by omega
        have h2 : (v.tdiv n) * n ≤ -129 * (n : Int) :=
          Int.mul_le_mul_of_nonneg_right h1 (by omega)
        omega
      · apply Decidable.byContradiction
        intro hc
        have h1 : 128 ≤ v.tdiv n := by omega
        have h2 : 128 * (n : Int) ≤ (v.tdiv n) * n :=
          Int.mul_le_mul_of_nonneg_right h1 (by omega)
        omega
    · rw [if_neg hm]; right; trivial
  · rw [if_neg hr]; right; trivial

theorem disp1 (mod : Nat) (f : Bool) (n : Nat) (lo : Int) (hi : Nat) (rest : List Nat) (hm : mod = 1)
    (h1 : -128 ≤ lo) (h2 : lo ≤ 127) :
    disp mod f n (dispBytes 1 lo hi ++ rest) = some (lo * n, rest) := by
  subst hm
  simp only [disp, dispBytes, leBytes, if_true, List.cons_append, List.nil_append]
  rw [signed8 lo hi h1 h2]

theorem disp4 (mod : Nat) (f : Bool) (n : Nat) (lo : Int) (hi : Nat) (rest : List Nat)
    (hm : mod ≠ 1) (hf : mod = 2 ∨ f = true) (h1 : -2 ^ 31 ≤ lo) (h2 : lo < 2 ^ 31) :
    disp mod f n (dispBytes 4 lo hi ++ rest) = some (lo, rest) := by
  rw [disp.eq_def, if_neg hm, if_pos hf, dispBytes, takeN_append _ _ _ (length_leBytes _ _)]
  simp only [le_leBytes, signed32 lo hi h1 h2]

/-- The displacement is read back as it was written. -/
theorem dispPart_ok (fl : Nat) (r : Instr) (m : Opnd) (c : Ctx) (base : Option Nat) (n : Nat)
    (h1 : -2 ^ 31 ≤ m.lo) (h2 : m.lo < 2 ^ 31) (hs : DispScale r m c base m.lo n)
    (hb : has fl MEMF_DSP32F = base.isNone) :
    ∃ mod, (dispPart fl r m c).2.1 = mod * 64 ∧ mod < 3 ∧
      (mod = 0 → has fl MEMF_DSPF = false ∨ has fl MEMF_DSP32F = true) ∧
      (has fl MEMF_DSP32F = true → mod = 0) ∧
      ∀ rest, disp mod (has fl MEMF_DSP32F) n
        (dispBytes (dispPart fl r m c).1 (dispPart fl r m c).2.2 m.hi ++ rest) = some (m.lo, rest) := by
  unfold dispPart
  simp only []
  by_cases hd : (m.lo != 0 || has fl MEMF_DSPF || has fl MEMF_DSP32F || m.sym == some false) = true
  · rw [if_pos hd]
    by_cases h32 : has fl MEMF_DSP32F = true
    · -- forced 32 bits
      have hbn : base = none := by rw [h32] at hb; simpa using hb.symm
      have hcd : (compDisp m.lo r c).2 = m.lo := by
        rcases hs with ⟨he, _⟩ | ⟨he, hz⟩
        · rw [compDisp_false _ he]
        · have hz : m.lo = 0 := by
            rcases hz with hz | hz
            · exact hz
            · exact absurd hbn hz.2.2.1
          rw [hz, compDisp_zero he]
      simp only [h32, Bool.not_true, Bool.and_false, Bool.false_and, Bool.false_eq_true, if_false,
        if_true]
      refine ⟨0, rfl, by omega, fun _ => Or.inr trivial, fun _ => rfl, fun rest => ?_⟩
      rw [hcd]
      exact disp4 _ _ _ _ _ _ (by omega) (Or.inr rfl) h1 h2
    · have h32' : has fl MEMF_DSP32F = false := by simpa using h32
      have hbs : base ≠ none := by
        rw [h32'] at hb
        intro h; simp [h] at hb
      simp only [h32', Bool.not_false, Bool.and_true, Bool.false_eq_true, if_false]
      by_cases h8 : ((compDisp m.lo r c).1 && (m.sym.isNone || m.sym == some true) &&
          decide (-128 ≤ (compDisp m.lo r c).2 ∧ (compDisp m.lo r c).2 ≤ 127)) = true
      · rw [if_pos h8]
        simp only [Bool.and_eq_true, decide_eq_true_eq] at h8
        refine ⟨1, rfl, by omega, fun h => by omega, fun h => by simp at h, fun rest => ?_⟩
        rw [disp1 _ _ _ _ _ _ rfl h8.2.1 h8.2.2]
        have hsym : m.sym ≠ some false := by
          intro h; rw [h] at h8; simp at h8
        rcases hs with ⟨he, hz⟩ | ⟨he, hz | ⟨hn, h0, hz⟩⟩
        · rw [compDisp_false _ he] at h8 ⊢
          rcases hz with hz | hz | hz | hz | hz | hz
          · subst hz; simp
          · simp [hz]
          · have := h8.2.1; simp only at this; omega
          · have := h8.2.2; simp only at this; omega
          · exact absurd hz hbs
          · exact absurd hz hsym
        · rw [hz, compDisp_zero he]; simp
        · rcases compDisp_true m.lo he n hn h0 with ⟨q, hq, hqn, _, _⟩ | hq
          · rw [hq]; simp only [hqn]
          · rw [hq] at h8; simp at h8
      · rw [if_neg h8]
        have hcd : (compDisp m.lo r c).2 = m.lo := by
          rcases hs with ⟨he, _⟩ | ⟨he, hz | ⟨hn, h0, hz⟩⟩
          · rw [compDisp_false _ he]
          · rw [hz, compDisp_zero he]
          · rcases compDisp_true m.lo he n hn h0 with ⟨q, hq, hqn, hq1, hq2⟩ | hq
            · exfalso
              apply h8
              rw [hq]
              have : (m.sym.isNone || m.sym == some true) = true := by
                have := hz.2
                cases hs : m.sym with
                | none => rfl
                | some b => cases b <;> simp_all
              simp [this, hq1, hq2]
            · rw [hq]
        refine ⟨2, rfl, by omega, fun h => by omega, fun h => by simp at h, fun rest => ?_⟩
        rw [hcd]
        exact disp4 _ _ _ _ _ _ (by omega) (Or.inl rfl) h1 h2
  · rw [if_neg hd]
    simp only [Bool.or_eq_true, not_or, Bool.not_eq_true] at hd
    have hlo : m.lo = 0 := by simpa using hd.1.1.1
    refine ⟨0, rfl, by omega, fun _ => Or.inl hd.1.1.2, fun _ => rfl, fun rest => ?_⟩
    simp [disp, hd.1.2, hlo, dispBytes, leBytes]

/-! ## The whole address -/

/-- The index with vector registers 16-31 reduced (`EVEX.V'` holds the rest). -/
def idxLow (i : Nat) : Nat := if i > 15 then i % 8 else i

theorem and7 (i : Nat) : i &&& 7 = i % 8 := Nat.and_two_pow_sub_one_eq_mod i 3

theorem isMem_base {m64 vsib : Bool} {x : Opnd} {base index : Option Nat} {scale : Nat} {disp : Int}
    {rip : Bool} {width : Nat} (h : IsMem m64 vsib x base index scale disp rip width) :
    getRegisterNo x.base = base.getD 17 ∧ (∀ b, base = some b → b < 16) ∧
    sizeFromRegister x.base = (if base.isNone then 0 else width) ∧
    isSimdRegister x.base = false ∧ x.base.isSome = base.isSome ∧ (width = 4 ∨ width = 8) := by
  have hw : width = 4 ∨ width = 8 := by
    rcases h.hwidth with h | h
    · rw [h]; split <;> simp
    · exact Or.inl h.2.1
  have hb := h.hbase
  cases base with
  | none =>
    simp only at hb
    rw [hb]
    exact ⟨rfl, by simp, rfl, rfl, rfl, hw⟩
  | some b =>
    obtain ⟨g, hg, hx, _⟩ := hb
    obtain ⟨h1, h2, h3, h4⟩ := addrReg_facts hw hg
    rw [hx]
    refine ⟨h1, ?_, h3, h4, rfl, hw⟩
    intro b' hb'
    simp at hb'; omega

theorem isMem_idx {m64 vsib : Bool} {x : Opnd} {base index : Option Nat} {scale : Nat} {disp : Int}
    {rip : Bool} {width : Nat} (h : IsMem m64 vsib x base index scale disp rip width) :
    getRegisterNo x.idx = index.getD 17 ∧ (∀ i, index = some i → i < if vsib then 32 else 16) ∧
    (index = none → sizeFromRegister x.idx = 0) ∧
    (index ≠ none → if vsib then 16 ≤ sizeFromRegister x.idx else
      sizeFromRegister x.idx = width ∧ index ≠ some 4) ∧
    x.idx.isSome = index.isSome := by
  have hw := (isMem_base h).2.2.2.2.2
  have hi := h.hindex
  cases index with
  | none =>
    simp only at hi
    rw [hi.1]
    exact ⟨rfl, by simp, fun _ => rfl, by simp, rfl⟩
  | some i =>
    simp only at hi
    obtain ⟨⟨g, hg, hx⟩, _, _⟩ := hi
    rw [hx]
    cases vsib with
    | true =>
      simp only [if_true] at hg ⊢
      obtain ⟨h1, h2, h3, h4⟩ := vecReg_facts hg
      exact ⟨h1, by simpa using h2, by simp, fun _ => h3, rfl⟩
    | false =>
      simp only [Bool.false_eq_true, if_false] at hg ⊢
      obtain ⟨h1, h2, h3, h4⟩ := addrReg_facts hw hg.1
      exact ⟨h1, by simpa using h2, by simp, fun _ => ⟨h3, by simpa using hg.2⟩, rfl⟩

/-- What `modrm` needs to know about the prefix. -/
structure HeadFits (h : Head) (vsib aso : Bool) (base index : Option Nat) : Prop where
  asz : h.pfx.asz = aso
  b : h.b = decide (8 ≤ base.getD 0 ∧ base.getD 0 < 16)
  x : h.x = decide (8 ≤ index.getD 0 % 16)
  v' : vsib = true → h.v' = decide (16 ≤ index.getD 0)

/-- `buildMem` written with the table entry as a parameter. -/
def memResult (r : Instr) (m : Opnd) (c : Ctx) (e : MemDef) (b i : Nat) (aso rr : Bool) : MemEnc :=
  let needB := decide (b > 7 ∧ b < 16)
  let needX := decide (i > 7 ∧ i < 16)
  let ss := if m.scale = 2 then 1 else if m.scale = 4 then 2 else if m.scale = 8 then 3 else 0
  let doScale := decide (m.scale > 1) || m.idx.isSome || has e.flags MEMF_SIBF
  ⟨aso, (if has e.flags MEMF_MODRMF then e.modRM else 0) ||| (dispPart e.flags r m c).2.1,
    if doScale then (if has e.flags MEMF_SIBF then e.sib else 0) ||| (ss <<< 6)
      else (if has e.flags MEMF_SIBF then e.sib else 0),
    if r.vexflags == 0 then (if needB then 0x41 else 0) ||| (if needX then 0x42 else 0) else 0,
    has e.flags MEMF_MODRMF, has e.flags MEMF_SIBF || doScale, (dispPart e.flags r m c).1,
    (dispPart e.flags r m c).2.2, m.hi, needB, needX, rr⟩

/-- Index number as `addrRegs` delivers it. -/
def encIdx (r : Instr) (index : Option Nat) : Nat :=
  if has r.evexflags EVEX_VSIBF then idxLow (index.getD 17) else index.getD 17

theorem buildMem_eq (r : Instr) (x : Opnd) (c : Ctx) (vsib : Bool) (base index : Option Nat)
    (scale : Nat) (d : Int) (rip : Bool) (width : Nat)
    (h : IsMem c.m64 vsib x base index scale d rip width)
    (hv1 : has r.evexflags EVEX_VSIBF = true → vsib = true)
    (hv2 : vsib = true → index ≠ none ∧ (has r.evexflags EVEX_VSIBF = false → index.getD 0 < 16))
    (e : MemDef)
    (he : expMem c.m64 (if rip then 16 else base.getD 17) (encIdx r index) = some e)
    (hne : has e.flags NO_ENCODEF = false) :
    ∃ rr, buildMem r x c = some (memResult r x c e (if rip then 16 else base.getD 17)
      (encIdx r index) (c.m64 && width == 4) rr) := by
  obtain ⟨b1, b2, b3, b4, b5, b6⟩ := isMem_base h
  obtain ⟨i1, i2, i3, i4, i5⟩ := isMem_idx h
  have hidx : ∀ i, index = some i → i < 32 := by
    intro i hi; have := i2 i hi; split at this <;> omega
  have ha : ∃ rr, addrRegs r x = (base.getD 17, encIdx r index, rr) := by
    unfold addrRegs encIdx idxLow
    simp only [b4, Bool.and_false, Bool.false_eq_true, if_false, b1, i1]
    cases hE : has r.evexflags EVEX_VSIBF with
    | false => exact ⟨false, by simp⟩
    | true =>
      by_cases hi : index.getD 17 > 15
      · exact ⟨true, by simp [hi, and7]⟩
      · exact ⟨false, by simp [hi]⟩
  obtain ⟨rr, ha⟩ := ha
  refine ⟨rr, ?_⟩
  unfold buildMem
  rw [ha]
  simp only []
  -- the three error tests
  rw [if_neg, if_neg, if_neg]
  rotate_left
  · -- upper registers in 32-bit code
    rintro ⟨h1, h2, h3, h4⟩
    have h2 : c.m64 = false := by simpa using h2
    have hb := (h.h32 h2).1
    have hi := (h.h32 h2).2
    have e1 : base.getD 17 ≤ 7 := by
      cases hb' : base with
      | none => rw [hb'] at h4; simp at h4
      | some b => have := hb b hb'; simp; omega
    have e2 : encIdx r index ≤ 7 := by
      unfold encIdx idxLow at h3 ⊢
      cases hi' : index with
      | none =>
        rw [hi'] at h3
        cases hE : has r.evexflags EVEX_VSIBF with
        | true => exact absurd hi' (hv2 (hv1 hE)).1
        | false => rw [hE] at h3; simp at h3
      | some i =>
        have := hi i hi'
        simp only [Option.getD_some]
        split <;> (try split) <;> omega
    omega
  · rintro ⟨h1, h2⟩
    rw [b3] at h2
    split at h2 <;> omega
  · rintro ⟨h1, h2, h3, h4⟩
    rw [b3] at h1 h4
    cases hb : base with
    | none => rw [hb] at h4; simp at h4
    | some b =>
      rw [hb] at h1
      simp only [Option.isNone_some, Bool.false_eq_true, if_false] at h1
      by_cases hi : index = none
      · rw [i3 hi] at h3; omega
      · have := i4 hi
        cases hvs : vsib with
        | true => rw [hvs] at this; simp only [if_true] at this; omega
        | false =>
          rw [hvs] at this; simp only [Bool.false_eq_true, if_false] at this; omega
  have hb16 : (if (x.sym.isSome && x.isAddr && c.m64 && x.sym != some true && base.getD 17 == 17) = true
      then 16 else base.getD 17) = if rip then 16 else base.getD 17 := by
    have : (x.sym.isSome && x.isAddr && c.m64 && x.sym != some true && base.getD 17 == 17) = rip := by
      rw [h.hrip]
      have hn : (base.getD 17 == 17) = base.isNone := by
        cases hb : base with
        | none => rfl
        | some b =>
          have := b2 b hb
          have : b ≠ 17 := by omega
          simp [this]
      rw [hn]
      cases hs : x.sym with
      | none => simp
      | some s =>
        have := h.hsym (by simp [hs])
        rw [this]
        cases s <;> cases c.m64 <;> cases base <;> rfl
    rw [this]
  have his : (!c.m64 && sizeFromRegister x.base == 2) = false := by
    rw [b3]
    cases base <;> simp <;> intro _ <;> omega
  have hasz : (!(x.sym.isSome && x.isAddr) && ((c.m64 && sizeFromRegister x.base == 4) ||
      (!c.m64 && sizeFromRegister x.base == 2))) = (c.m64 && width == 4) := by
    rw [his, b3, Bool.or_false]
    rcases h.hwidth with hw | ⟨h1, h2, h3, h4⟩
    · cases hm : c.m64 with
      | false => simp
      | true => rw [hm] at hw; simp at hw; subst hw; cases base <;> simp
    · rw [h4, h1, h2]
      cases hb : base with
      | none => exact absurd hb h3
      | some b => simp
  have htab : (memTable c.m64).getD ((if rip then 16 else base.getD 17) * 18 + encIdx r index % 18)
      default = e := by
    apply memTable_eq he
    intro hm
    have hr : rip = false := by rw [h.hrip, hm]; rfl
    rw [hr]
    simp only [Bool.false_eq_true, if_false]
    refine ⟨?_, ?_⟩
    · cases hb : base with
      | none => right; rfl
      | some b => left; exact (h.h32 hm).1 b hb
    · unfold encIdx idxLow
      cases hi : index with
      | none =>
        cases hE : has r.evexflags EVEX_VSIBF with
        | true => exact absurd hi (hv2 (hv1 hE)).1
        | false => right; rfl
      | some i =>
        have := (h.h32 hm).2 i hi
        left
        simp only [Option.getD_some]
        split <;> (try split) <;> omega
  rw [hb16, hasz, his]
  simp only [Bool.false_eq_true, if_false, Bool.not_false, Bool.true_and, htab, hne,
    Bool.false_or]
  rfl

/-! ## Reading it back -/

/-- Address size selected by mode and prefix. -/
def aw (m64 asz : Bool) : Nat := if m64 then (if asz then 4 else 8) else (if asz then 2 else 4)

theorem modrm_nosib (m64 : Bool) (h : Head) (vsib : Bool) (n mod reg m : Nat) (tail rest : List Nat)
    (d : Int) (hmod : mod < 3) (hreg : reg < 8) (hm : m < 8) (hm4 : m ≠ 4)
    (hw : aw m64 h.pfx.asz ≠ 2)
    (hd : disp mod (decide (m = 5 ∧ mod = 0)) n tail = some (d, rest)) :
    modrm m64 h vsib n ((mod * 64 + reg * 8 + m) :: tail) =
      some (reg + h.rAdd, .mem (if m = 5 ∧ mod = 0 then none else some (m + addIf h.b 8)) none 1 d
        (decide (m = 5 ∧ mod = 0) && m64) (aw m64 h.pfx.asz), rest) := by
  have e1 : (mod * 64 + reg * 8 + m) / 64 % 4 = mod := by omega
  have e2 : (mod * 64 + reg * 8 + m) / 8 % 8 = reg := by omega
  have e3 : (mod * 64 + reg * 8 + m) % 8 = m := by omega
  unfold modrm
  simp only [e1, e2, e3]
  rw [if_neg (by omega), if_neg (by simpa [aw] using hw), if_neg hm4]
  simp only [hd, decide_eq_true_eq]
  rfl

theorem modrm_sib (m64 : Bool) (h : Head) (vsib : Bool) (n mod reg ss i b : Nat)
    (tail rest : List Nat)
    (d : Int) (hmod : mod < 3) (hreg : reg < 8) (hss : ss < 4) (hi : i < 8) (hb : b < 8)
    (hw : aw m64 h.pfx.asz ≠ 2)
    (hd : disp mod (decide (b = 5 ∧ mod = 0)) n tail = some (d, rest)) :
    modrm m64 h vsib n ((mod * 64 + reg * 8 + 4) :: (ss * 64 + (i * 8 + b)) :: tail) =
      some (reg + h.rAdd, .mem (if b = 5 ∧ mod = 0 then none else some (b + addIf h.b 8))
        (if vsib then some (i + addIf h.x 8 + addIf h.v' 16) else
          if i + addIf h.x 8 = 4 then none else some (i + addIf h.x 8))
        (if (if vsib then some (i + addIf h.x 8 + addIf h.v' 16) else
          if i + addIf h.x 8 = 4 then none else some (i + addIf h.x 8)).isNone then 1 else 2 ^ ss) d
        false (aw m64 h.pfx.asz), rest) := by
  have e1 : (mod * 64 + reg * 8 + 4) / 64 % 4 = mod := by omega
  have e2 : (mod * 64 + reg * 8 + 4) / 8 % 8 = reg := by omega
  have e3 : (mod * 64 + reg * 8 + 4) % 8 = 4 := by omega
  have e4 : (ss * 64 + (i * 8 + b)) % 8 = b := by omega
  have e5 : (ss * 64 + (i * 8 + b)) / 8 % 8 = i := by omega
  have e6 : (ss * 64 + (i * 8 + b)) / 64 % 4 = ss := by omega
  unfold modrm
  simp only [e1, e2, e3]
  rw [if_neg (by omega), if_neg (by simpa [aw] using hw), if_pos trivial]
  simp only [e4, e5, e6, hd, decide_eq_true_eq]
  rfl

theorem modrm_byte' (m reg mod : Nat) (hm : m < 8) (hr : reg < 8) (hd : mod < 3) :
    (m ||| (mod * 64)) ||| (reg <<< 3) = mod * 64 + reg * 8 + m :=
  modrm_byte ⟨m, hm⟩ ⟨reg, hr⟩ ⟨mod, by omega⟩

theorem sib_byte' (s ss : Nat) (hs : s < 64) (h : ss < 4) : s ||| (ss <<< 6) = ss * 64 + s :=
  sib_byte ⟨s, hs⟩ ⟨ss, h⟩

/-- `ss` field of a scale. -/
def ssOf (k : Nat) : Nat := if k = 2 then 1 else if k = 4 then 2 else if k = 8 then 3 else 0

theorem ssOf_lt (k : Nat) : ssOf k < 4 := by unfold ssOf; split <;> (try split) <;> (try split) <;> omega

theorem ssOf_pow (k : Nat) (h : k = 1 ∨ k = 2 ∨ k = 4 ∨ k = 8) : 2 ^ ssOf k = k := by
  rcases h with h | h | h | h <;> subst h <;> rfl

/-- The address is encodable and the table entry demands a 32-bit displacement exactly if there
is no base register. -/
theorem expMem_some (m64 : Bool) (r : Instr) (base index : Option Nat) (rip : Bool)
    (hb : ∀ b, base = some b → b < 16) (hi : ∀ i, index = some i → encIdx r index < 16)
    (hn : index = none → has r.evexflags EVEX_VSIBF = false)
    (hrb : rip = true → base = none) (hri : rip = true → index = none) :
    ∃ e, expMem m64 (if rip then 16 else base.getD 17) (encIdx r index) = some e ∧
      has e.flags NO_ENCODEF = false ∧ has e.flags MEMF_MODRMF = true ∧
      has e.flags MEMF_DSP32F = base.isNone ∧ e.modRM < 8 := by
  have hni : index = none → encIdx r index = 17 := by
    intro h; unfold encIdx; rw [hn h, h]; rfl
  cases hbase : base with
  | none =>
    cases hindex : index with
    | none =>
      rw [hindex] at hni
      rw [hni rfl]
      cases rip <;> cases m64 <;> exact ⟨_, rfl, by decide, by decide, by decide, by decide⟩
    | some i =>
      have h16 := hi i hindex
      have hr : rip = false := by
        cases rip with
        | false => rfl
        | true => rw [hri rfl] at hindex; simp at hindex
      rw [hr, ← hindex]
      refine ⟨⟨4, 11, encIdx r index % 8 * 8 + 5⟩, ?_, by simp [has, MEMF_MODRMF, MEMF_SIBF, MEMF_DSPF, MEMF_DSP32F, NO_ENCODEF], by simp [has, MEMF_MODRMF, MEMF_SIBF, MEMF_DSPF, MEMF_DSP32F, NO_ENCODEF], by simp [has, MEMF_MODRMF, MEMF_SIBF, MEMF_DSPF, MEMF_DSP32F, NO_ENCODEF], (by decide : 4 < 8)⟩
      simp only [expMem, Option.getD_none, Bool.false_eq_true, if_false]
      rw [if_neg (by omega), if_neg (by omega), if_pos ⟨trivial, h16⟩]
  | some b =>
    have hb16 := hb b hbase
    have hr : rip = false := by
      cases rip with
      | false => rfl
      | true => rw [hrb rfl] at hbase; simp at hbase
    rw [hr]
    cases hindex : index with
    | none =>
      rw [hindex] at hni
      rw [hni rfl]
      simp only [expMem, Option.getD_some, Bool.false_eq_true, if_false]
      rw [if_pos ⟨hb16, trivial⟩]
      refine ⟨_, rfl, ?_, ?_, ?_, ?_⟩
      · split <;> (try split) <;> simp [has, MEMF_MODRMF, MEMF_SIBF, MEMF_DSPF, MEMF_DSP32F, NO_ENCODEF]
      · split <;> (try split) <;> simp [has, MEMF_MODRMF, MEMF_SIBF, MEMF_DSPF, MEMF_DSP32F, NO_ENCODEF]
      · split <;> (try split) <;> simp [has, MEMF_MODRMF, MEMF_SIBF, MEMF_DSPF, MEMF_DSP32F, NO_ENCODEF]
      · simp only; omega
    | some i =>
      have h16 := hi i hindex
      rw [← hindex]
      simp only [expMem, Option.getD_some, Bool.false_eq_true, if_false]
      rw [if_neg (by omega), if_pos ⟨hb16, h16⟩]
      refine ⟨_, rfl, ?_, ?_, ?_, (by decide : 4 < 8)⟩
      · split <;> simp [has, MEMF_MODRMF, MEMF_SIBF, MEMF_DSPF, MEMF_DSP32F, NO_ENCODEF]
      · split <;> simp [has, MEMF_MODRMF, MEMF_SIBF, MEMF_DSPF, MEMF_DSP32F, NO_ENCODEF]
      · split <;> simp [has, MEMF_MODRMF, MEMF_SIBF, MEMF_DSPF, MEMF_DSP32F, NO_ENCODEF]

theorem addIf_hi (b : Nat) (h : b < 16) : b % 8 + addIf (decide (8 ≤ b ∧ b < 16)) 8 = b := by
  unfold addIf
  by_cases hb : 8 ≤ b
  · simp [hb, h]; omega
  · simp [hb]; omega

/-- The bytes of the address are read back as the address written. -/
theorem mem_read (r : Instr) (x : Opnd) (c : Ctx) (vsib : Bool) (base index : Option Nat)
    (scale : Nat) (d : Int) (rip : Bool) (width : Nat)
    (h : IsMem c.m64 vsib x base index scale d rip width)
    (hv1 : has r.evexflags EVEX_VSIBF = true → vsib = true)
    (hv2 : vsib = true → index ≠ none ∧ (has r.evexflags EVEX_VSIBF = false → index.getD 0 < 16))
    (e : MemDef) (he : expMem c.m64 (if rip then 16 else base.getD 17) (encIdx r index) = some e)
    (hmf : has e.flags MEMF_MODRMF = true)
    (h32 : has e.flags MEMF_DSP32F = base.isNone) (hem : e.modRM < 8)
    (n : Nat) (hs : DispScale r x c base d n) (hd : Head) (aso rr : Bool) (b i : Nat)
    (hf : HeadFits hd vsib (c.m64 && width == 4) base index) (reg : Nat) (hreg : reg < 8)
    (rest : List Nat) :
    let me := memResult r x c e b i aso rr
    modrm c.m64 hd vsib n ((me.modRM ||| (reg <<< 3)) :: ((if me.needSIB then [me.sib] else []) ++
      dispBytes me.dispSize me.lo me.hi ++ rest)) =
    some (reg + hd.rAdd, .mem base index scale d rip width, rest) := by
  intro me
  obtain ⟨b1, b2, b3, b4, b5, b6⟩ := isMem_base h
  obtain ⟨i1, i2, i3, i4, i5⟩ := isMem_idx h
  obtain ⟨hlo, hd1, hd2⟩ := h.hdisp
  obtain ⟨mod, hmod, hmod3, hm0, hm32, hdisp⟩ := dispPart_ok e.flags r x c base n (by rw [hlo]; exact hd1)
    (by rw [hlo]; exact hd2) (by rw [hlo]; exact hs) h32
  rw [hlo] at hdisp
  have hw : aw c.m64 hd.pfx.asz = width := by
    rw [hf.asz]
    unfold aw
    rcases h.hwidth with hw | ⟨h1, h2, _, _⟩
    · cases hm : c.m64 <;> rw [hm] at hw <;> simp at hw <;> simp [hw]
    · simp [h1, h2]
  have hw2 : aw c.m64 hd.pfx.asz ≠ 2 := by rw [hw]; omega
  have hmodrm : me.modRM ||| (reg <<< 3) = mod * 64 + reg * 8 + e.modRM := by
    show ((if has e.flags MEMF_MODRMF then e.modRM else 0) ||| (dispPart e.flags r x c).2.1) |||
      (reg <<< 3) = _
    rw [hmf, hmod]
    exact modrm_byte' _ _ _ hem hreg hmod3
  have hds : dispBytes me.dispSize me.lo me.hi =
    dispBytes (dispPart e.flags r x c).1 (dispPart e.flags r x c).2.2 x.hi := rfl
  rw [hmodrm, hds]
  have hsib : me.needSIB = (has e.flags MEMF_SIBF || decide (x.scale > 1) || x.idx.isSome) := by
    show (has e.flags MEMF_SIBF || (decide (x.scale > 1) || x.idx.isSome || has e.flags MEMF_SIBF)) = _
    cases has e.flags MEMF_SIBF <;> simp
  have hsibv : has e.flags MEMF_SIBF = true → e.sib < 64 → me.sib = ssOf x.scale * 64 + e.sib := by
    intro h1 h2
    show (if (decide (x.scale > 1) || x.idx.isSome || has e.flags MEMF_SIBF) = true then
      (if has e.flags MEMF_SIBF then e.sib else 0) ||| (ssOf x.scale <<< 6)
      else (if has e.flags MEMF_SIBF then e.sib else 0)) = _
    rw [h1]
    simp only [Bool.or_true, if_true]
    exact sib_byte' _ _ h2 (ssOf_lt _)
  clear_value me
  have hfb := hf.b
  have hfx := hf.x
  have hfv := hf.v'
  have hrip0 : base ≠ none → rip = false := by
    intro hb; rw [h.hrip]
    cases base with
    | none => exact absurd rfl hb
    | some b => simp
  cases hbase : base with
  | some b =>
    have hb16 := b2 b hbase
    have hr : rip = false := hrip0 (by simp [hbase])
    rw [hbase] at hfb h32
    simp only [Option.getD_some] at hfb
    have hbb : b % 8 + addIf hd.b 8 = b := by rw [hfb]; exact addIf_hi b hb16
    have hfalse : has e.flags MEMF_DSP32F = false := by rw [h32]; rfl
    rw [hfalse] at hdisp
    have hm0' : mod = 0 → has e.flags MEMF_DSPF = false := by
      intro h; rcases hm0 h with h | h
      · exact h
      · rw [hfalse] at h; simp at h
    cases hindex : index with
    | none =>
      have hidx := h.hindex
      rw [hindex] at hidx
      simp only at hidx
      obtain ⟨hx1, hx2, hx3⟩ := hidx
      have hnv : vsib = false := by
        cases hvs : vsib with
        | false => rfl
        | true => exact absurd hindex (hv2 hvs).1
      have hne : has r.evexflags EVEX_VSIBF = false := by
        cases hE : has r.evexflags EVEX_VSIBF with
        | false => rfl
        | true => rw [hv1 hE] at hnv; simp at hnv
      rw [hr, hbase, hindex] at he
      simp only [expMem, encIdx, hne, Option.getD_some, Option.getD_none, Bool.false_eq_true, if_false,
        hb16, true_and, if_true] at he
      have he := Option.some.inj he
      have hsn : (decide (x.scale > 1) || x.idx.isSome) = false := by
        rw [hx1]; simp; omega
      rw [hindex] at hfx
      have hfx : hd.x = false := by rw [hfx]; rfl
      by_cases h4 : b % 8 = 4
      · -- rsp, r12: a SIB byte without index
        rw [if_pos h4, if_pos h4] at he
        subst he
        simp only at *
        have hsb : me.needSIB = true := by rw [hsib]; simp [has, MEMF_MODRMF, MEMF_SIBF, MEMF_DSPF, MEMF_DSP32F, NO_ENCODEF]
        rw [hsb, hsibv (by simp [has, MEMF_MODRMF, MEMF_SIBF, MEMF_DSPF, MEMF_DSP32F, NO_ENCODEF]) (by decide)]
        simp only [if_true, List.singleton_append, List.cons_append, List.nil_append]
        have hss : ssOf x.scale = 0 := by unfold ssOf; split <;> (try split) <;> (try split) <;> omega
        rw [hss, h4]
        have := modrm_sib c.m64 hd vsib n mod reg 0 4 4 _ rest d hmod3 hreg (by decide) (by decide)
          (by decide) hw2 (hdisp rest)
        simp only [Nat.reduceMul, Nat.reduceAdd, Nat.zero_add] at this ⊢
        rw [this, hw, hnv, hfx, hr, hx3]
        rw [h4] at hbb
        simp [addIf] at hbb ⊢
        rw [← hbb]
      · rw [if_neg h4, if_neg h4] at he
        have hE1 : e.modRM = b % 8 := by rw [← he]
        have hE2 : has e.flags MEMF_SIBF = false := by
          rw [← he]; by_cases h5 : b % 8 = 5 <;> simp [h5, has, MEMF_SIBF]
        have hsb : me.needSIB = false := by
          rw [hsib, Bool.or_assoc, hsn, hE2]; rfl
        rw [hsb, hE1]
        simp only [Bool.false_eq_true, if_false, List.nil_append]
        have h5 : ¬ (b % 8 = 5 ∧ mod = 0) := by
          rintro ⟨h1, h2⟩
          have := hm0' h2
          rw [← he] at this
          simp [h1, has, MEMF_DSPF] at this
        have hdd : decide (b % 8 = 5 ∧ mod = 0) = false := by simp only [h5, decide_false]
        rw [modrm_nosib c.m64 hd vsib n mod reg (b % 8) _ rest d hmod3 hreg (by omega) h4 hw2
          (by rw [hdd]; exact hdisp rest), if_neg h5, hdd, hbb, hw, hr, hx3]
        rfl
    | some i =>
      have hidx := h.hindex
      rw [hindex] at hidx
      simp only at hidx
      obtain ⟨_, hx2, hx3⟩ := hidx
      have hlow : encIdx r index < 16 ∧ encIdx r index % 8 = i % 8 := by
        have h32' := i2 i hindex
        have h32'' : i < 32 := by split at h32' <;> omega
        unfold encIdx idxLow
        rw [hindex]
        simp only [Option.getD_some]
        cases hE : has r.evexflags EVEX_VSIBF with
        | true => simp only [if_true]; constructor <;> split <;> omega
        | false =>
          simp only [Bool.false_eq_true, if_false]
          cases hvs : vsib with
          | true =>
            have := (hv2 hvs).2 hE
            rw [hindex] at this; simp at this
            refine ⟨?_, ?_⟩ <;> first | trivial | omega
          | false =>
            rw [hvs] at h32'; simp at h32'
            refine ⟨?_, ?_⟩ <;> first | trivial | omega
      rw [hr, hbase] at he
      simp only [expMem, Option.getD_some, Bool.false_eq_true, if_false] at he
      rw [if_neg (by omega), if_pos ⟨hb16, hlow.1⟩, hlow.2] at he
      have he := Option.some.inj he
      rw [hindex] at hfx hfv
      simp only [Option.getD_some] at hfx hfv
      have hE1 : e.modRM = 4 := by rw [← he]
      have hE2 : has e.flags MEMF_SIBF = true := by
        rw [← he]; by_cases h5 : b % 8 = 5 <;> simp [h5, has, MEMF_SIBF]
      have hE3 : e.sib = i % 8 * 8 + b % 8 := by rw [← he]
      have hsb : me.needSIB = true := by rw [hsib, hE2]; rfl
      rw [hsb, hsibv hE2 (by rw [hE3]; omega), hE1, hE3]
      simp only [if_true, List.singleton_append, List.cons_append, List.nil_append]
      have h5 : ¬ (b % 8 = 5 ∧ mod = 0) := by
        rintro ⟨h1, h2⟩
        have := hm0' h2
        rw [← he] at this
        simp [h1, has, MEMF_DSPF] at this
      have hdd : decide (b % 8 = 5 ∧ mod = 0) = false := by simp only [h5, decide_false]
      rw [modrm_sib c.m64 hd vsib n mod reg (ssOf x.scale) (i % 8) (b % 8) _ rest d hmod3 hreg
        (ssOf_lt _) (by omega) (by omega) hw2 (by rw [hdd]; exact hdisp rest), if_neg h5, hbb, hw, hr,
        hx2, ssOf_pow scale hx3]
      have hi32 := i2 i hindex
      cases hvs : vsib with
      | true =>
        have : i % 8 + addIf hd.x 8 + addIf hd.v' 16 = i := by
          rw [hfx, hfv hvs]; unfold addIf
          rw [hvs] at hi32; simp at hi32
          by_cases h1 : 8 ≤ i % 16 <;> by_cases h2 : 16 ≤ i <;> simp [h1, h2] <;> omega
        simp [this]
      | false =>
        rw [hvs] at hi32
        simp only [Bool.false_eq_true, if_false] at hi32
        have : i % 8 + addIf hd.x 8 = i := by
          rw [hfx]; unfold addIf
          by_cases h1 : 8 ≤ i % 16 <;> simp [h1] <;> omega
        have hi4 : i ≠ 4 := by
          have := i4 (by simp [hindex])
          rw [hvs, hindex] at this
          simp at this
          exact this.2
        simp [this, hi4]
  | none =>
    have htrue : has e.flags MEMF_DSP32F = true := by rw [h32, hbase]; rfl
    have hmz : mod = 0 := hm32 htrue
    subst hmz
    rw [htrue] at hdisp
    rw [hbase] at he
    cases hindex : index with
    | none =>
      have hidx := h.hindex
      rw [hindex] at hidx
      simp only at hidx
      obtain ⟨hx1, hx2, hx3⟩ := hidx
      have hnv : vsib = false := by
        cases hvs : vsib with
        | false => rfl
        | true => exact absurd hindex (hv2 hvs).1
      have hne : has r.evexflags EVEX_VSIBF = false := by
        cases hE : has r.evexflags EVEX_VSIBF with
        | false => rfl
        | true => rw [hv1 hE] at hnv; simp at hnv
      have hei : encIdx r index = 17 := by unfold encIdx; rw [hne, hindex]; rfl
      rw [hei] at he
      have hsn : (decide (x.scale > 1) || x.idx.isSome) = false := by
        rw [hx1]; simp; omega
      rw [hindex] at hfx
      have hfx : hd.x = false := by rw [hfx]; rfl
      -- the two shapes
      have key : (e = ⟨5, 9, 0⟩ ∧ rip = c.m64) ∨ (e = ⟨4, 11, 0x25⟩ ∧ rip = false) := by
        cases hrp : rip with
        | true =>
          have hm : c.m64 = true := by
            have := h.hrip; rw [hrp] at this
            cases hm : c.m64 with
            | true => rfl
            | false => rw [hm] at this; simp at this
          rw [hrp] at he
          left
          rw [hm] at he ⊢
          exact ⟨(Option.some.inj he).symm, rfl⟩
        | false =>
          rw [hrp] at he
          cases hm : c.m64 with
          | true => rw [hm] at he; right; exact ⟨(Option.some.inj he).symm, rfl⟩
          | false => rw [hm] at he; left; exact ⟨(Option.some.inj he).symm, rfl⟩
      rcases key with ⟨he, hr⟩ | ⟨he, hr⟩
      · have hsb : me.needSIB = false := by rw [hsib, Bool.or_assoc, hsn, he]; simp [has, MEMF_MODRMF, MEMF_SIBF, MEMF_DSPF, MEMF_DSP32F, NO_ENCODEF]
        rw [hsb, show e.modRM = 5 by rw [he]]
        simp only [Bool.false_eq_true, if_false, List.nil_append]
        rw [modrm_nosib c.m64 hd vsib n 0 reg 5 _ rest d (by omega) hreg (by omega) (by omega) hw2
          (hdisp rest), hw, hr, hx3]
        simp
      · have hsb : me.needSIB = true := by rw [hsib, he]; simp [has, MEMF_MODRMF, MEMF_SIBF, MEMF_DSPF, MEMF_DSP32F, NO_ENCODEF]
        have hss : ssOf x.scale = 0 := by unfold ssOf; split <;> (try split) <;> (try split) <;> omega
        rw [hsb, hsibv (by rw [he]; simp [has, MEMF_MODRMF, MEMF_SIBF, MEMF_DSPF, MEMF_DSP32F, NO_ENCODEF]) (by rw [he]; decide), show e.modRM = 4 by rw [he], show e.sib = 0x25 by rw [he], hss]
        simp only [if_true, List.singleton_append, List.cons_append, List.nil_append]
        have := modrm_sib c.m64 hd vsib n 0 reg 0 4 5 _ rest d hmod3 hreg (by decide) (by decide)
          (by decide) hw2 (hdisp rest)
        simp only [Nat.reduceMul, Nat.reduceAdd, Nat.zero_add] at this ⊢
        rw [this, hw, hnv, hfx, hr, hx3]
        simp [addIf]
    | some i =>
      have hr : rip = false := by
        cases hrp : rip with
        | false => rfl
        | true => rw [h.hripi hrp] at hindex; simp at hindex
      have hidx := h.hindex
      rw [hindex] at hidx
      simp only at hidx
      obtain ⟨_, hx2, hx3⟩ := hidx
      have hlow : encIdx r index < 16 ∧ encIdx r index % 8 = i % 8 := by
        have h32' := i2 i hindex
        have h32'' : i < 32 := by split at h32' <;> omega
        unfold encIdx idxLow
        rw [hindex]
        simp only [Option.getD_some]
        cases hE : has r.evexflags EVEX_VSIBF with
        | true => simp only [if_true]; constructor <;> split <;> omega
        | false =>
          simp only [Bool.false_eq_true, if_false]
          cases hvs : vsib with
          | true =>
            have := (hv2 hvs).2 hE
            rw [hindex] at this; simp at this
            refine ⟨?_, ?_⟩ <;> first | trivial | omega
          | false =>
            rw [hvs] at h32'; simp at h32'
            refine ⟨?_, ?_⟩ <;> first | trivial | omega
      rw [hr] at he
      simp only [expMem, Option.getD_none, Bool.false_eq_true, if_false] at he
      rw [if_neg (by omega), if_neg (by omega), if_pos ⟨trivial, hlow.1⟩, hlow.2] at he
      have he := Option.some.inj he
      rw [hindex] at hfx hfv
      simp only [Option.getD_some] at hfx hfv
      have hE1 : e.modRM = 4 := by rw [← he]
      have hE2 : has e.flags MEMF_SIBF = true := by rw [← he]; simp [has, MEMF_MODRMF, MEMF_SIBF, MEMF_DSPF, MEMF_DSP32F, NO_ENCODEF]
      have hE3 : e.sib = i % 8 * 8 + 5 := by rw [← he]
      have hsb : me.needSIB = true := by rw [hsib, hE2]; rfl
      rw [hsb, hsibv hE2 (by rw [hE3]; omega), hE1, hE3]
      simp only [if_true, List.singleton_append, List.cons_append, List.nil_append]
      rw [modrm_sib c.m64 hd vsib n 0 reg (ssOf x.scale) (i % 8) 5 _ rest d (by omega) hreg
        (ssOf_lt _) (by omega) (by omega) hw2 (hdisp rest), hw, hr,
        hx2, ssOf_pow scale hx3]
      have hi32 := i2 i hindex
      cases hvs : vsib with
      | true =>
        have : i % 8 + addIf hd.x 8 + addIf hd.v' 16 = i := by
          rw [hfx, hfv hvs]; unfold addIf
          rw [hvs] at hi32; simp at hi32
          by_cases h1 : 8 ≤ i % 16 <;> by_cases h2 : 16 ≤ i <;> simp [h1, h2] <;> omega
        simp [this]
      | false =>
        rw [hvs] at hi32
        simp only [Bool.false_eq_true, if_false] at hi32
        have : i % 8 + addIf hd.x 8 = i := by
          rw [hfx]; unfold addIf
          by_cases h1 : 8 ≤ i % 16 <;> simp [h1] <;> omega
        have hi4 : i ≠ 4 := by
          have := i4 (by simp [hindex])
          rw [hvs, hindex] at this
          simp at this
          exact this.2
        simp [this, hi4]

end Verif.Cgv2
