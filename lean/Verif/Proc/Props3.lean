import Verif.Proc.Props2
/-! # C30, continued: alignment, order of parameters, concrete frames and counterexamples -/
namespace Verif.Proc

/-! ## Order of parameters -/

/-- C/STDCALL/SYSCALL: the first declared parameter has the lowest address (it was pushed last); 64-bit: likewise; BASIC, FORTRAN, PASCAL: the
last declared one. -/
theorem C30_parameter_order {α : Type} (l : List α) :
    paramOrder false false l = l ∧ paramOrder false true l = l ∧ paramOrder true true l = l ∧ paramOrder true false l = l.reverse := by
  simp [paramOrder]

/-! ## Alignment -/

theorem roundUp_dvd (i k : Nat) : 2 ^ k ∣ roundUp i (2 ^ k) := ⟨_, by rw [roundUp_pow, Nat.mul_comm]⟩

/-- 16/32-bit: a local whose item size is a power of two not above the word size is at a multiple of its item size (relative to the frame
pointer); a larger one at a multiple of the word size. -/
theorem localLoop_aligned (w align : Nat) (hw : align = 2 ^ w) (ws : Nat) (hws : ws = align) : ∀ (l : List Local) (ls : Nat),
    ∀ v ∈ (localLoop ws align ls l).1,
      (∀ j, itemSize v.1 = 2 ^ j → itemSize v.1 ≤ align → (2 ^ j : Int) ∣ v.2) ∧ (align < itemSize v.1 → (align : Int) ∣ v.2)
  | [], ls => by simp [localLoop]
  | x :: l, ls => by
    intro v hv
    simp only [localLoop] at hv
    rcases List.mem_cons.1 hv with rfl | hv
    · simp only []
      refine ⟨?_, ?_⟩
      · intro j hj hle
        have hpos : 0 < 2 ^ j := Nat.two_pow_pos j
        rw [if_neg (by omega), if_pos (by omega), if_neg, hj]
        · have := roundUp_dvd (ls + x.size) j
          rw [Int.dvd_neg]
          exact_mod_cast Int.natCast_dvd_natCast.2 this
        · rintro ⟨-, h3⟩
          rw [h3] at hj
          rcases j with _ | _ | j
          · omega
          · omega
          · rw [Nat.pow_succ, Nat.pow_succ] at hj; omega
      · intro h
        rw [if_pos h, Int.dvd_neg, hw]
        exact Int.natCast_dvd_natCast.2 (roundUp_dvd _ w)
    · exact localLoop_aligned w align hw ws hws l _ v hv

/-- **C30, alignment in 16- and 32-bit frames**: a multiple of the item size if that is a power of two up to the word size, of the word size if
the item is larger. -/
theorem C30_generic_alignment (c : Cfg) (locals : List Local) (params : List (Nat × Int)) (hw : c.ws = 2 ∨ c.ws = 4 ∨ c.ws = 8)
    (hr : c.rspalign = false) (hf : c.fpo = false) :
    ∀ v ∈ (setLocalOffsets c locals params).locals,
      (∀ j, itemSize v.1 = 2 ^ j → itemSize v.1 ≤ c.ws → (2 ^ j : Int) ∣ v.2) ∧ (c.ws < itemSize v.1 → (c.ws : Int) ∣ v.2) := by
  have hpow : ∃ w, c.ws = 2 ^ w := by
    rcases hw with h | h | h
    · exact ⟨1, h⟩
    · exact ⟨2, h⟩
    · exact ⟨3, h⟩
  obtain ⟨w, hw⟩ := hpow
  simp only [setLocalOffsets, hr, hf, Bool.false_eq_true, if_false, false_and]
  exact localLoop_aligned w c.ws hw c.ws rfl locals 0

/-- One pass over a size class keeps the alignment of the running offset. -/
theorem rbpPass_aligned (p : Nat → Bool) (d : Nat) : ∀ (l : List Local) (cur : Int), (∀ n, p n = true → d ∣ rbpSize n) → (d : Int) ∣ cur →
    (d : Int) ∣ (rbpPass p cur l).2 ∧ ∀ v ∈ (rbpPass p cur l).1, (d : Int) ∣ v.2
  | [], cur, _, h => by simpa [rbpPass] using h
  | x :: l, cur, hp, h => by
    simp only [rbpPass]
    split
    · rename_i hx
      have h' : (d : Int) ∣ cur - rbpSize x.size := Int.dvd_sub h (Int.natCast_dvd_natCast.2 (hp _ hx))
      obtain ⟨h1, h2⟩ := rbpPass_aligned p d l _ hp h'
      refine ⟨h1, ?_⟩
      intro v hv
      rcases List.mem_cons.1 hv with rfl | hv
      · exact h'
      · exact h2 v hv
    · exact rbpPass_aligned p d l cur hp h

theorem rbpPass_class (p : Nat → Bool) : ∀ (l : List Local) (cur : Int), ∀ v ∈ (rbpPass p cur l).1, p v.1.size = true
  | [], cur => by simp [rbpPass]
  | x :: l, cur => by
    intro v hv
    simp only [rbpPass] at hv
    split at hv
    · rename_i hx
      rcases List.mem_cons.1 hv with rfl | hv
      · exact hx
      · exact rbpPass_class p l _ v hv
    · exact rbpPass_class p l _ v hv

/-- **C30, alignment in Win64 frames.** If the caller keeps the stack aligned (at entry the stack pointer is 8 modulo 16, so address `a` relative
to it is aligned when `a + 8` is), then after the prologue the stack pointer is 16-aligned, and so is every local of 16 bytes and more; locals of 8 to 15
bytes are 8-aligned, locals of 4 to 7 bytes 4-aligned. -/
theorem C30_rbp_alignment (regs : List Reg) (resstack : Nat) (locals : List Local) (nParams : Nat) (hres : resstack % 16 = 0) :
    let fr := setLocalOffsetsRBP regs resstack (cntStd regs) locals nParams
    let st := run 8 false (rbpPrologue regs resstack fr.localsize fr.frameofs)
    (16 : Int) ∣ st.sp + 8 ∧
    ∀ v ∈ fr.locals, (v.1.size ≥ 16 → (16 : Int) ∣ st.bp + v.2 + 8) ∧ (v.1.size ≥ 8 → (8 : Int) ∣ st.bp + v.2 + 8) ∧
      (v.1.size ≥ 4 → (4 : Int) ∣ st.bp + v.2 + 8) := by
  simp only [setLocalOffsetsRBP]
  generalize hls : roundUp (16 * cntVec regs + (locals.map (fun l => rbpSize l.size)).sum) 16 = ls
  have hls16 : ls % 16 = 0 := by rw [← hls, roundUp_16]; omega
  generalize hfo : (if roundUp (ls / 2 + resstack) 16 > 128 then 128 else roundUp (ls / 2 + resstack) 16) = fo
  have hfo16 : fo % 16 = 0 := by
    rw [← hfo, roundUp_16]; split <;> omega
  generalize hadj : (if cntStd regs % 2 = 0 ∧ ls % 16 = 0 then 0 else if cntStd regs % 2 = 0 then 8 else if ls % 16 = 0 then 8 else 0) = adj
  have hadj' : (cntStd regs * 8 + adj) % 16 = 0 := by
    rw [← hadj]; by_cases h1 : cntStd regs % 2 = 0 <;> simp [h1, hls16] <;> omega
  obtain ⟨P1, h1, -⟩ := pushes 8 (regs.filter (· = .gpr)) (run 8 false [Op.push])
  have hs1 : run 8 false [Op.push] = ⟨-8, 0, [⟨-8, 8⟩, ⟨0, 8⟩]⟩ := rfl
  rw [hs1] at h1
  simp only [] at h1
  have hcnt : (regs.filter (· = .gpr)).length = cntStd regs := rfl
  rw [hcnt] at h1
  have h2 : (if ls + adj + resstack > 0 then [Op.sub (ls + adj + resstack)] else []).foldl (step 8)
      (⟨-8 - (cntStd regs * 8 : Nat), 0, P1 ++ [⟨-8, 8⟩, ⟨0, 8⟩]⟩ : St) =
      ⟨-8 - (cntStd regs * 8 : Nat) - (ls + adj + resstack : Nat), 0, P1 ++ [⟨-8, 8⟩, ⟨0, 8⟩]⟩ := by
    split
    · rfl
    · rw [show ls + adj + resstack = 0 by omega]; simp
  obtain ⟨P2, h3, -⟩ := vecOpt 8 ⟨-8 - (cntStd regs * 8 : Nat) - (ls + adj + resstack : Nat), 0, P1 ++ [⟨-8, 8⟩, ⟨0, 8⟩]⟩
    (resstack + (ls - cntVec regs * 16) / 16 * 16) regs
  simp only [] at h3
  have hrun : run 8 false (rbpPrologue regs resstack ls fo) = ⟨-8 - (cntStd regs * 8 : Nat) - (ls + adj + resstack : Nat),
      -8 - (cntStd regs * 8 : Nat) - (ls + adj + resstack : Nat) + fo, P2 ++ (P1 ++ [⟨-8, 8⟩, ⟨0, 8⟩])⟩ := by
    simp only [rbpPrologue, hadj]
    rw [run_append, run_append, run_append, run_append, hs1, h1, h2, h3]
    rfl
  rw [hrun]
  simp only []
  have hsp : (16 : Int) ∣ -8 - (cntStd regs * 8 : Nat) - (ls + adj + resstack : Nat) + 8 := by omega
  generalize hcur : (ls : Int) + resstack - 16 * cntVec regs - fo = cur
  have hcur16 : ((16 : Nat) : Int) ∣ cur := by omega
  have c1 := rbpPass_class (fun n => n ≥ 16) locals cur
  obtain ⟨a1, a2⟩ := rbpPass_aligned (fun n => n ≥ 16) 16 locals cur
    (by intro n hn; simp only [decide_eq_true_eq] at hn; rw [rbpSize, if_pos hn]; exact roundUp_dvd n 4) hcur16
  generalize rbpPass (fun n => n ≥ 16) cur locals = p1 at *
  have c2 := rbpPass_class (fun n => n ≥ 8 && n < 16) locals p1.2
  obtain ⟨b1, b2⟩ := rbpPass_aligned (fun n => n ≥ 8 && n < 16) 8 locals p1.2
    (by intro n hn; simp only [Bool.and_eq_true, decide_eq_true_eq] at hn; rw [rbpSize, if_neg (by omega), if_pos hn.1]; exact roundUp_dvd n 3) (by omega)
  generalize rbpPass (fun n => n ≥ 8 && n < 16) p1.2 locals = p2 at *
  have c3 := rbpPass_class (fun n => n ≥ 4 && n < 8) locals p2.2
  obtain ⟨d1, d2⟩ := rbpPass_aligned (fun n => n ≥ 4 && n < 8) 4 locals p2.2
    (by intro n hn; simp only [Bool.and_eq_true, decide_eq_true_eq] at hn; rw [rbpSize, if_neg (by omega), if_neg (by omega), if_pos hn.1]; exact roundUp_dvd n 2) (by omega)
  generalize rbpPass (fun n => n ≥ 4 && n < 8) p2.2 locals = p3 at *
  have c4 := rbpPass_class (fun n => n < 4) locals p3.2
  generalize rbpPass (fun n => n < 4) p3.2 locals = p4 at *
  refine ⟨by omega, ?_⟩
  intro v hv
  have hbp : ∀ k : Int, -8 - ((cntStd regs * 8 : Nat) : Int) - (ls + adj + resstack : Nat) + fo + k + 8 =
      (-8 - (cntStd regs * 8 : Nat) - (ls + adj + resstack : Nat) + 8) + fo + k := by intro k; omega
  rw [hbp]
  generalize -8 - ((cntStd regs * 8 : Nat) : Int) - (ls + adj + resstack : Nat) + 8 = z at *
  rcases List.mem_append.1 hv with hv | hv
  · rcases List.mem_append.1 hv with hv | hv
    · rcases List.mem_append.1 hv with hv | hv
      · have := a2 v hv
        refine ⟨fun _ => by omega, fun _ => by omega, fun _ => by omega⟩
      · have := b2 v hv
        have hc := c2 v hv
        simp only [Bool.and_eq_true, decide_eq_true_eq] at hc
        refine ⟨fun _ => by omega, fun _ => by omega, fun _ => by omega⟩
    · have := d2 v hv
      have hc := c3 v hv
      simp only [Bool.and_eq_true, decide_eq_true_eq] at hc
      refine ⟨fun _ => by omega, fun _ => by omega, fun _ => by omega⟩
  · have hc := c4 v hv
    simp only [decide_eq_true_eq] at hc
    refine ⟨fun _ => by omega, fun _ => by omega, fun _ => by omega⟩

/-! ## Concrete frames -/

/-- `foo PROC STDCALL USES ebx esi, p1:DWORD, p2:BYTE` with `LOCAL a:DWORD, b[3]:BYTE, c:WORD`: a at ebp-4, b at ebp-7, c at ebp-10, 12 bytes. -/
example : (setLocalOffsets ⟨4, false, false, false, [.gpr, .gpr], false, false⟩ [mkLocal 4 none, mkLocal 1 (some 3), mkLocal 2 none]
      (paramOffs 4 (paramStart 4 false) [4, 1])).locals.map (·.2) = [-4, -7, -10] ∧
    (setLocalOffsets ⟨4, false, false, false, [.gpr, .gpr], false, false⟩ [mkLocal 4 none, mkLocal 1 (some 3), mkLocal 2 none]
      (paramOffs 4 (paramStart 4 false) [4, 1])).params.map (·.2) = [8, 12] ∧
    (setLocalOffsets ⟨4, false, false, false, [.gpr, .gpr], false, false⟩ [mkLocal 4 none, mkLocal 1 (some 3), mkLocal 2 none]
      (paramOffs 4 (paramStart 4 false) [4, 1])).localsize = 12 := by decide

/-- The same without a frame pointer. -/
example : (setLocalOffsets ⟨4, true, false, false, [.gpr, .gpr], false, false⟩ [mkLocal 4 none, mkLocal 1 (some 3), mkLocal 2 none]
      (paramOffs 4 (paramStart 4 false) [4, 1])).locals.map (·.2) = [16, 13, 10] ∧
    (setLocalOffsets ⟨4, true, false, false, [.gpr, .gpr], false, false⟩ [mkLocal 4 none, mkLocal 1 (some 3), mkLocal 2 none]
      (paramOffs 4 (paramStart 4 false) [4, 1])).params.map (·.2) = [24, 28] := by decide

/-- `bar PROC FRAME USES rbx xmm6` with 32 bytes reserved: xmm-sized, dword and byte local. -/
example : (setLocalOffsetsRBP [.gpr, .xmm] 32 1 [mkLocal 1 none, mkLocal 16 none, mkLocal 4 none] 2).locals.map (·.2) = [-16, -20, -21] ∧
    (setLocalOffsetsRBP [.gpr, .xmm] 32 1 [mkLocal 1 none, mkLocal 16 none, mkLocal 4 none] 2).params = [48, 56] ∧
    (setLocalOffsetsRBP [.gpr, .xmm] 32 1 [mkLocal 1 none, mkLocal 16 none, mkLocal 4 none] 2).localsize = 48 ∧
    (setLocalOffsetsRBP [.gpr, .xmm] 32 1 [mkLocal 1 none, mkLocal 16 none, mkLocal 4 none] 2).frameofs = 64 := by decide

/-- System V with two pushed registers and a vector register; RSP-based with a ymm register. -/
example : cntVec [Reg.gpr, .gpr, .xmm] ≠ 0 ∧ cntStd [Reg.gpr, .gpr, .xmm] % 2 = 0 ∧
    (setLocalOffsetsSysv [.gpr, .gpr, .xmm] [mkLocal 8 none, mkLocal 4 (some 5)]).1.map (·.2) = [-40, -60] := by decide
example : (∀ l ∈ [mkLocal 8 none, mkLocal 4 (some 5)], itemSize l ≠ 0) ∧ .zmm ∉ [Reg.gpr, .ymm] ∧
    (setLocalOffsetsRSP true [.gpr, .ymm] [mkLocal 8 none, mkLocal 4 (some 5)]).1.map (·.2) = [40, 48] := by decide

/-! ## Counterexamples -/

instance (a b : Region) : Decidable (Region.Disjoint a b) := inferInstanceAs (Decidable (_ ∨ _))

/-- 64-bit PROC without FRAME under OPTION WIN64:2 (AUTOSTACKSP): the offsets assume that the USES registers are pushed before the stack
is lowered, but the prologue pushes them afterwards: the local overlaps a saved register. -/
theorem C30_generic_rspalign_overlap : ∃ (c : Cfg) (locals : List Local), c.ws = 8 ∧ c.rspalign = true ∧ c.fpo = false ∧
    let fr := setLocalOffsets c locals []
    let st := run 8 false (genericPrologue c true fr.localsize)
    ¬ FrameOk st (regions st.bp fr.locals) := by
  refine ⟨⟨8, false, true, false, [.gpr], true, false⟩, [mkLocal 8 none], rfl, rfl, rfl, ?_⟩
  intro fr st h
  exact absurd h.1 (by decide)

/-- System V: an odd number of pushed registers and a vector register in USES. The vector register is stored 8 bytes below the place that
was left free for it, over the first local. -/
theorem C30_sysv_vector_overlap : let fr := setLocalOffsetsSysv [.gpr, .xmm] [mkLocal 8 none]
    let st := run 8 false (sysvPrologue [.gpr, .xmm] 0 false fr.2)
    ¬ (regions st.bp fr.1 ++ st.saved).Pairwise Region.Disjoint := by
  intro fr st
  decide

/-- System V with OPTION REDZONE: the stack pointer is not lowered and the vector register overwrites pushed registers and the return address. -/
theorem C30_sysv_redzone_overlap : let fr := setLocalOffsetsSysv [.gpr, .gpr, .xmm] [mkLocal 8 none]
    let st := run 8 false (sysvPrologue [.gpr, .gpr, .xmm] 0 true fr.2)
    ¬ st.saved.Pairwise Region.Disjoint := by
  intro fr st
  decide

/-- RSP-based: `LOCAL a:QWORD, b[0]:BYTE, c:QWORD`: c overlaps a. -/
theorem C30_rsp_empty_local_overlap : let fr := setLocalOffsetsRSP true [] [mkLocal 8 none, mkLocal 1 (some 0), mkLocal 8 none]
    let st := run 8 false (rspPrologue [] 0 fr.2)
    ¬ (regions st.sp fr.1).Pairwise Region.Disjoint := by
  intro fr st
  decide

/-- RSP-based: `USES zmm6` with a local. -/
theorem C30_rsp_zmm_overlap : let fr := setLocalOffsetsRSP true [.zmm] [mkLocal 8 none]
    let st := run 8 false (rspPrologue [.zmm] 0 fr.2)
    ¬ (regions st.sp fr.1 ++ st.saved).Pairwise Region.Disjoint := by
  intro fr st
  decide

end Verif.Proc
