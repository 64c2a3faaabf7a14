import Verif.Cgv2.EncFix

/-!
# C45 - C48: examples, and instructions that are encoded wrongly

The theorems of EncProps.lean and EncFix.lean have hypotheses.  Here: instructions that meet them,
and, for each hypothesis that excludes something, an instruction it excludes, with what the
processor reads instead of what was written.
-/

namespace Verif.Cgv2

open Isa

/-- Row `n` of the table. -/
def row (n : Nat) : Instr := instrTable.getD n ((instrTable.head?).getD (instrTable.getD 0 default))

theorem row_mem (n : Nat) (h : n < instrTable.length) : row n ∈ instrTable := by
  unfold row
  rw [List.getD_eq_getElem?_getD, List.getElem?_eq_getElem h]
  exact List.getElem_mem h

/-- A register operand. -/
def regO (t : Nat) : Opnd := ⟨some t, none, 0, 0, 0, false, false, none, false, 0⟩

/-- A memory operand. -/
def memO (b i : Option Nat) (s : Nat) (d : Int) : Opnd := ⟨b, i, s, d, 0, true, true, none, false, 0⟩

/-- A variable, no register. -/
def varO (d : Int) : Opnd := ⟨none, none, 0, d, 0, false, true, some false, false, 0⟩

def opsO (l : List Opnd) : Nat → Opnd := fun i => l.getD i default

/-- 64-bit code, no decorators. -/
def code64 : Ctx := ⟨true, false, 0, 0, 0, none, none⟩

/-- 64-bit code, EVEX form. -/
def evex64 : Ctx := { code64 with evexFlag := true }

def code32 : Ctx := { code64 with m64 := false }

/-- What the processor takes the ModRM operand to be. -/
def asRead (r : Instr) (o : Nat → Opnd) (c : Ctx) : Option RM :=
  match manual r with
  | some (.rm f) => ((emit r o c).bind (readForm f c.m64)).map (·.rm)
  | _ => none

theorem isReg_of {t : OpType} {tok n : Nat} (h : regTable.any (fun g => g.tok == tok && g.hw == n &&
    (matchReg g == some t || (matchReg g).map demoteOperand == some t)) = true) : IsReg t (regO tok) n := by
  rw [List.any_eq_true] at h
  obtain ⟨g, hg, h⟩ := h
  simp only [Bool.and_eq_true, Bool.or_eq_true, beq_iff_eq] at h
  refine ⟨g, hg, ?_, h.1.2.symm, rfl, rfl, h.2⟩
  rw [h.1.1]; rfl

theorem addrReg_of {w n tok : Nat} (h : regTable.any (fun g => g.tok == tok && g.size == w &&
    g.opcls &&& 0xf == w && g.num == n) = true) : ∃ g, addrReg w n g ∧ some tok = some g.tok := by
  rw [List.any_eq_true] at h
  obtain ⟨g, hg, h⟩ := h
  simp only [Bool.and_eq_true, beq_iff_eq] at h
  exact ⟨g, ⟨hg, h.1.1.2, h.1.2, h.2⟩, by rw [h.1.1.1]⟩

/-! ## Examples -/

/-- `vmulps xmm9, xmm2, [r13+rcx*4+16]` in 64-bit code. -/
def exVex : Nat → Opnd := opsO [regO 137, regO 42, memO (some 132) (some 120) 4 16]

/-- The form of row 228. -/
def exVexForm : Form := match manual (row 228) with
  | some (.rm f) => f
  | _ => ⟨none, none, none, none, none, none, 0, none, none, none, false, 1, 1⟩

theorem exVex_operands (c : Ctx) (hc : c.m64 = true) (hp : c.pfx = none) (hs : c.seg = none) (k : Kind) :
    Operands (row 228) exVexForm exVex c k (.mem (some 13) (some 1) 4 16 false 8) := by
  refine ⟨?_, ⟨by decide +kernel, ?_⟩, by simp [RMFits], fun h => absurd h (by decide +kernel), ?_, ?_, hp, Or.inl hs⟩
  · intro i hi
    have : i = 0 := by
      have h0 : exVexForm.reg = some 0 := by decide +kernel
      rw [h0] at hi; injection hi with hi; exact hi.symm
    subst this
    exact ⟨9, isReg_of (by decide +kernel), by unfold Fits; rw [hc, if_pos rfl]; split <;> omega⟩
  · rw [hc]
    refine ⟨?_, ?_, ⟨by decide, by decide, by decide⟩, Or.inl (by decide), by simp, by decide, by decide, by decide⟩
    · obtain ⟨g, h1, h2⟩ := addrReg_of (w := 8) (n := 13) (tok := 132) (by decide +kernel)
      exact ⟨g, h1, h2, rfl⟩
    · obtain ⟨g, h1, h2⟩ := addrReg_of (w := 8) (n := 1) (tok := 120) (by decide +kernel)
      refine ⟨⟨g, ?_, h2⟩, rfl, by decide⟩
      rw [if_neg (by decide +kernel)]
      exact ⟨h1, by decide⟩
  · intro i hi
    have : i = 1 := by
      have h0 : exVexForm.v = some 1 := by decide +kernel
      rw [h0] at hi; injection hi with hi; exact hi.symm
    subst this
    exact ⟨2, isReg_of (by decide +kernel), by unfold Fits; rw [hc, if_pos rfl]; split <;> omega⟩
  · intro i hi
    have h0 : exVexForm.is4 = none := by decide +kernel
    rw [h0] at hi; exact absurd hi (by simp)

/-- `shipped_vex_partial` applies to it. -/
example : ∃ e bs rd, exVexForm.vex = some e ∧ emit (row 228) exVex code64 = some bs ∧
    readForm exVexForm true bs = some rd ∧ rd.rm = .mem (some 13) (some 1) 4 16 false 8 := by
  obtain ⟨e, he⟩ : ∃ e, exVexForm.vex = some e := Option.isSome_iff_exists.mp (by decide +kernel)
  obtain ⟨bs, rd, h1, h2, _, h3, _⟩ := shipped_vex_partial (row 228) (row_mem 228 (by decide +kernel)) exVexForm e
    (by decide +kernel) he exVex code64 _ rfl (exVex_operands code64 rfl rfl rfl .vex)
    (fun h => absurd h (by decide +kernel))
  exact ⟨e, bs, rd, he, h1, h2, h3⟩

example : emit (row 228) exVex code64 = some [0xc4, 0x41, 0x68, 0x59, 0x4c, 0x8d, 0x10] := by decide +kernel

/-- The same with a mask: `vmulps xmm9{k3}{z}, xmm2, [r13+rcx*4+16]`; `shipped_evex_partial` applies, and the
displacement is divided by 16. -/
example : ∃ e bs rd, exVexForm.evex = some e ∧
    emit (row 228) exVex { evex64 with deco := 0x83 } = some bs ∧
    readForm exVexForm true bs = some rd ∧ rd.rm = .mem (some 13) (some 1) 4 16 false 8 ∧ rd.aaa = 3 := by
  obtain ⟨e, he⟩ : ∃ e, exVexForm.evex = some e := Option.isSome_iff_exists.mp (by decide +kernel)
  obtain ⟨bs, rd, h1, h2, _, h3, _, h4, _⟩ := shipped_evex_partial (row 228) (row_mem 228 (by decide +kernel)) exVexForm e
    (by decide +kernel) he exVex { evex64 with deco := 0x83 } _ ⟨Or.inl rfl, Or.inl rfl⟩
    ((evexErr_iff _ _ (by decide +kernel)).mp (by decide +kernel))
    (exVex_operands { evex64 with deco := 0x83 } rfl rfl rfl .evex) (fun _ _ => by decide +kernel)
    (Or.inr (Or.inl ⟨rfl, by decide +kernel, by decide, by decide⟩))
  exact ⟨e, bs, rd, he, h1, h2, h3, h4⟩

example : emit (row 228) exVex { evex64 with deco := 0x83 } =
    some [0x62, 0x51, 0x6c, 0x8b, 0x59, 0x4c, 0x8d, 0x01] := by decide +kernel

/-- Decorators are refused: `vmulps xmm9{1to16}, ...` on a row of four elements. -/
example : emit (row 228) exVex { evex64 with broad := 0x40 } = none := by decide +kernel

/-- `mov qword ptr [var], 1` with `var` in 64-bit code. -/
def exRip : Nat → Opnd := opsO [{ varO 3 with memQword := true }, ⟨none, none, 0, 0, 0, false, false, none, false, 1⟩]

def exRipForm : Form := match manual (row 190) with
  | some (.rm f) => f
  | _ => ⟨none, none, none, none, none, none, 0, none, none, none, false, 1, 1⟩

theorem exRip_operands :
    Operands (row 190) exRipForm exRip code64 .legacy (.mem none none 1 3 true 8) := by
  refine ⟨?_, ⟨by decide +kernel, ?_⟩, by simp [RMFits], fun h => absurd h (by decide +kernel), ?_, ?_, rfl, Or.inl rfl⟩
  · intro i hi
    have h0 : exRipForm.reg = none := by decide +kernel
    rw [h0] at hi; exact absurd hi (by simp)
  · refine ⟨rfl, ⟨rfl, by decide, rfl⟩, ⟨by decide, by decide, by decide⟩, Or.inl rfl, by simp, by decide,
      by decide, by decide⟩
  · intro i hi
    have h0 : exRipForm.v = none := by decide +kernel
    rw [h0] at hi; exact absurd hi (by simp)
  · intro i hi
    have h0 : exRipForm.is4 = none := by decide +kernel
    rw [h0] at hi; exact absurd hi (by simp)

/-- `shipped_rip_legacy` applies: at address 0x1000, referring to 0x2000. -/
example : ∃ bs, emit (row 190) exRip code64 = some bs ∧
    Reaches (row 190) exRipForm exRip code64 bs false 0 .legacy 0x1000 0x2000 := by
  obtain ⟨e, he⟩ : ∃ e, exRipForm.legacy = some e := Option.isSome_iff_exists.mp (by decide +kernel)
  obtain ⟨bs, h1, h2⟩ := shipped_rip_legacy (row 190) (row_mem 190 (by decide +kernel)) exRipForm e
    (by decide +kernel) he exRip code64 1 3 8 rfl exRip_operands (by decide +kernel) false
    (by decide +kernel) 0 0x1000 0x2000
  refine ⟨bs, h1, h2 ?_⟩
  have : emit (row 190) exRip code64 = some [0x48, 0xc7, 0x05, 3, 0, 0, 0, 1, 0, 0, 0] := by decide +kernel
  rw [this] at h1
  injection h1 with h1
  subst h1
  decide

/-- Its fixup: four bytes at 3, eight bytes before the end. -/
example : ripFixup (row 190) exRip code64 false 0 = some (3, 8) := by decide +kernel

/-! ## Wrong encodings -/

/-- An index without a base, EVEX: the displacement is divided, but stored in four bytes, which the
processor does not multiply.  `vmulps zmm1, zmm2, [rax*4+64]` reads from `rax*4+1`. -/
theorem evex_index_only_disp :
    asRead (row 234) (opsO [regO 193, regO 70, memO none (some 119) 4 64]) evex64 =
      some (.mem none (some 0) 4 1 false 8) := by decide +kernel

/-- A variable with an offset, EVEX: the same. `vmulps zmm17, zmm2, [rbx+var+64]`. -/
theorem evex_symbol_disp :
    asRead (row 234) (opsO [regO 193, regO 70, { memO (some 122) none 0 64 with sym := some false }]) evex64 =
      some (.mem (some 3) none 1 1 false 8) := by decide +kernel

/-- Instructions with an EVEX encoding only, without a decorator or an upper register: the one-byte
displacement is not divided, but the processor multiplies it. `vmovdqu32 xmm0, [rax+32]` reads from
`rax+512`. -/
theorem evex_only_disp8 :
    asRead (row 346) (opsO [regO 40, memO (some 119) none 0 32]) code64 =
      some (.mem (some 0) none 1 512 false 8) := by decide +kernel

/-- Wrong multiplier: `vbroadcastsd ymm0{k1}, [rax+8]` reads from `rax+16`. -/
theorem evex_wrong_multiplier :
    asRead (row 262) (opsO [regO 48, memO (some 119) none 0 8]) { evex64 with deco := 1 } =
      some (.mem (some 0) none 1 16 false 8) := by decide +kernel

/-- The mask register of an AVX2 gather, from number 8 up, changes the base register of the address:
`vgatherdps xmm0, [rax+xmm1*4], xmm8` reads from `r8+xmm1*4`. -/
theorem gather_mask_changes_base :
    asRead (row 241) (opsO [regO 40, memO (some 119) (some 41) 4 0, regO 136]) code64 =
      some (.mem (some 8) (some 1) 4 0 false 8) := by decide +kernel

/-- An index register of 32 bits without a base in 64-bit code: no address size prefix, all 64 bits of
the register are used. `mov edx, [ecx*4+8]`. -/
theorem index32_no_prefix :
    asRead (row 136) (opsO [regO 19, memO none (some 18) 4 8]) code64
      = some (.mem none (some 1) 4 8 false 8) := by decide +kernel

/-- A 32-bit base register together with a variable in 64-bit code: the same. -/
theorem base32_symbol_no_prefix :
    asRead (row 136) (opsO [regO 19, { memO (some 20) none 0 8 with sym := some false }]) code64
      = some (.mem (some 3) none 1 8 false 8) := by decide +kernel

/-- `[bp]` in 32-bit code is encoded as `[bx+si]`. -/
theorem bp_becomes_bx_si :
    asRead (row 136) (opsO [regO 19, memO (some 14) none 0 0]) code32
      = some (.mem (some 3) (some 6) 1 0 false 2) := by decide +kernel

/-- `mov qword ptr [eax], 1` in 32-bit code is accepted and writes four bytes: the bytes are those of
`mov dword ptr [eax], 1`. -/
theorem qword_store_in_32bit :
    emit (row 188) (opsO [{ memO (some 17) none 0 0 with memQword := true },
      ⟨none, none, 0, 0, 0, false, false, none, false, 1⟩]) code32 =
      some [0xc7, 0x00, 1, 0, 0, 0] := by decide +kernel

/-- The two-operand form of `vmulps`, with a mask: neither a VEX nor an EVEX prefix is emitted. -/
theorem dup_with_mask_no_prefix :
    emit (row 231) (opsO [regO 41, regO 42]) { evex64 with deco := 1 } = some [0x59, 0xca] := by decide +kernel

/-- `mpsadbw xmm1, xmm2` (the table has no immediate for it): five bytes `66 0F 3A 42 CA`, the immediate byte the
instruction has is missing, so the processor takes the first byte of the next instruction for it. -/
theorem mpsadbw_no_immediate :
    emit (row 203) (opsO [regO 41, regO 42]) code64 = some [0x66, 0x0f, 0x3a, 0x42, 0xca] ∧
    (row 203).mnemonic = "mpsadbw".toList := by decide +kernel

/-- `vcvtdq2pd zmm1, dword bcst [rax]`: the tokenizer estimates {1to16}; row 277 takes it. -/
example : has (row 277).evexflags EVEX_BRDF = true ∧ ∃ f, manual (row 277) = some (.rm f) ∧
    bcstFlags (vecBytes ((row 277).op 0) / f.nb) = 0x40 ∧ (promoted (row 277) { evex64 with broad := 0x40 }).broad = 0x30 := by
  refine ⟨by decide +kernel, ?_⟩
  cases h : manual (row 277) with
  | none => exact absurd h (by decide +kernel)
  | some e =>
    cases e with
    | rm f =>
      refine ⟨f, rfl, ?_, by decide +kernel⟩
      have : (match manual (row 277) with | some (.rm f) => bcstFlags (vecBytes ((row 277).op 0) / f.nb) | _ => 0) = 0x40 := by
        decide +kernel
      rw [h] at this
      exact this
    | fixed b =>
      have : (match manual (row 277) with | some (.rm _) => true | _ => false) = true := by decide +kernel
      rw [h] at this; exact absurd this (by simp)
    | plusR a b c =>
      have : (match manual (row 277) with | some (.rm _) => true | _ => false) = true := by decide +kernel
      rw [h] at this; exact absurd this (by simp)
    | moffs a b c =>
      have : (match manual (row 277) with | some (.rm _) => true | _ => false) = true := by decide +kernel
      rw [h] at this; exact absurd this (by simp)

/-- An EVEX store to a variable in 32-bit code: the prefix byte after 62h does not have the two upper
bits set, so 62h is the instruction BOUND. -/
theorem evex_store_variable_is_bound :
    ∃ b rest, emit (row 347) (opsO [varO 0, regO 40]) code32 = some (0x62 :: b :: rest) ∧ b < 0xc0 := by
  exact ⟨0xb1, [0x7e, 0x08, 0x7f, 0x05, 0, 0, 0, 0], by decide +kernel, by decide⟩

end Verif.Cgv2
