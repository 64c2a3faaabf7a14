import Verif.Proc.Props
/-! # C30, continued: System V and RSP-based frames, order of parameters, counterexamples -/
namespace Verif.Proc

/-! ## System V -/

/-- The frame of a System V procedure, pushes and subtraction (without a red zone). -/
theorem sysvCore (regs : List Reg) (resstack : Nat) (locals : List Local) (hres : resstack % 16 = 0) :
    let fr := setLocalOffsetsSysv regs locals
    let adj := if cntStd regs % 2 = 0 then 0 else 8
    ∃ P1 P2, run 8 false (sysvPrologue regs resstack false fr.2) =
      ⟨-8 - (cntStd regs * 8 : Nat) - (fr.2 + adj + resstack : Nat), -8, P2 ++ (P1 ++ [⟨-8, 8⟩, ⟨0, 8⟩])⟩ ∧
      In (-8 - (cntStd regs * 8 : Nat)) (-8) P1 ∧
      In (-8 - (cntStd regs * 8 : Nat) - adj - 16 * cntVec regs) (-8 - (cntStd regs * 8 : Nat) - adj) P2 ∧ (cntVec regs = 0 → P2 = []) := by
  simp only [setLocalOffsetsSysv]
  obtain ⟨a1, a2, a3, a4⟩ := sysvLoop_spec locals (cntStd regs * 8 + 16 * cntVec regs)
  generalize sysvLoop (cntStd regs * 8 + 16 * cntVec regs) locals = q at *
  have h8 := le_roundUp q.2 8 (by omega)
  have h16 := le_roundUp (roundUp q.2 8 - cntStd regs * 8) 16 (by omega)
  have hm : roundUp (roundUp q.2 8 - cntStd regs * 8) 16 % 16 = 0 := by rw [roundUp_16]; omega
  generalize roundUp (roundUp q.2 8 - cntStd regs * 8) 16 = ls at *
  generalize hadj : (if cntStd regs % 2 = 0 then 0 else 8) = adj
  obtain ⟨P1, h1, i1⟩ := pushes 8 (regs.filter (· = .gpr)) (run 8 false [Op.push, Op.setbp 0])
  have hs1 : run 8 false [Op.push, Op.setbp 0] = ⟨-8, -8, [⟨-8, 8⟩, ⟨0, 8⟩]⟩ := rfl
  rw [hs1] at h1 i1
  simp only [] at h1 i1
  have hcnt : (regs.filter (· = .gpr)).length = cntStd regs := rfl
  rw [hcnt] at h1 i1
  have h2 : (if ls + resstack + adj > 0 then
          (if false = true ∧ ls + resstack < 128 ∧ resstack = 0 then [] else [Op.sub (ls + adj + resstack)])
        else if adj > 0 then [Op.sub (adj + resstack)] else []).foldl (step 8)
      (⟨-8 - (cntStd regs * 8 : Nat), -8, P1 ++ [⟨-8, 8⟩, ⟨0, 8⟩]⟩ : St) =
      ⟨-8 - (cntStd regs * 8 : Nat) - (ls + adj + resstack : Nat), -8, P1 ++ [⟨-8, 8⟩, ⟨0, 8⟩]⟩ := by
    rw [if_neg (show ¬ (false = true ∧ ls + resstack < 128 ∧ resstack = 0) by simp)]
    by_cases h : ls + resstack + adj > 0
    · rw [if_pos h]; rfl
    · rw [if_neg h, if_neg (by omega), show ls + adj + resstack = 0 by omega]; simp
  obtain ⟨P2, h3, i3, i4⟩ := vecOpt 8 ⟨-8 - (cntStd regs * 8 : Nat) - (ls + adj + resstack : Nat), -8, P1 ++ [⟨-8, 8⟩, ⟨0, 8⟩]⟩
    ((ls + resstack - cntVec regs * 16) / 16 * 16) regs
  simp only [] at h3 i3
  refine ⟨P1, P2, ?_, i1, ?_, i4⟩
  · simp only [sysvPrologue, hadj]
    rw [run_append, run_append, run_append, hs1, h1, h2, h3]
  · refine i3.mono ?_ ?_ <;> (push_cast; omega)

/-- **C30, System V.** Locals, saved registers and return address are pairwise disjoint and the locals lie above the stack pointer and the
space reserved for calls. Missing (and refuted by `C30_sysv_vector_overlap`, `C30_sysv_redzone_overlap`): an odd number of pushed registers
together with vector registers in USES, and vector registers with OPTION REDZONE. -/
theorem C30_sysv_frame_partial (regs : List Reg) (resstack : Nat) (locals : List Local) (hres : resstack % 16 = 0)
    (hv : cntVec regs = 0 ∨ cntStd regs % 2 = 0) :
    let fr := setLocalOffsetsSysv regs locals
    let st := run 8 false (sysvPrologue regs resstack false fr.2)
    FrameOk st (regions st.bp fr.1) ∧ (∀ r ∈ regions st.bp fr.1, st.sp + resstack ≤ r.addr) ∧ fr.1.map (·.1) = locals := by
  obtain ⟨P1, P2, h1, i1, i2, i4⟩ := sysvCore regs resstack locals hres
  simp only [] at h1 i2 ⊢
  obtain ⟨a1, a2, a3, a4⟩ := sysvLoop_spec locals (cntStd regs * 8 + 16 * cntVec regs)
  rw [h1]
  simp only [setLocalOffsetsSysv] at h1 ⊢
  generalize sysvLoop (cntStd regs * 8 + 16 * cntVec regs) locals = q at *
  have h8 := le_roundUp q.2 8 (by omega)
  have h16 := le_roundUp (roundUp q.2 8 - cntStd regs * 8) 16 (by omega)
  generalize roundUp (roundUp q.2 8 - cntStd regs * 8) 16 = ls at *
  have hadj : (if cntStd regs % 2 = 0 then 0 else 8) = 0 ∨ cntVec regs = 0 := by
    rcases hv with h | h
    · exact Or.inr h
    · exact Or.inl (by rw [if_pos h])
  generalize (if cntStd regs % 2 = 0 then 0 else 8) = adj at *
  have hadj' : ((adj : Nat) : Int) = 0 ∨ cntVec regs = 0 := by omega
  have hnn : (0 : Int) ≤ adj := by omega
  have hloc := regions_In (-8) (-(q.2 : Int)) (-((cntStd regs * 8 + 16 * cntVec regs : Nat) : Int)) q.1 a3 (fun v hv => ⟨(a4 v hv).1, (a4 v hv).2⟩)
  have hret : In (-8) 8 [⟨-8, 8⟩, ⟨0, 8⟩] := In.append (A := [⟨-8, 8⟩]) (mid := 0) (In.single _ _ _ (by simp) (by simp)) (In.single _ _ _ (by simp) (by simp)) (by omega) (by omega)
  have hsav : In (-8 - (cntStd regs * 8 : Nat) - 16 * cntVec regs) 8 (P2 ++ (P1 ++ [⟨-8, 8⟩, ⟨0, 8⟩])) := by
    rcases hadj' with h | h
    · refine In.append (mid := -8 - (cntStd regs * 8 : Nat)) (i2.mono ?_ ?_) (In.append i1 hret ?_ ?_) ?_ ?_ <;> push_cast at * <;> omega
    · rw [i4 h, List.nil_append]
      exact (In.append i1 hret (by omega) (by omega)).mono (by omega) (Int.le_refl _)
  refine ⟨?_, ?_, a2⟩
  · refine frameOk_of (P := []) rfl (In.nil _ (-8 - (cntStd regs * 8 : Nat) - ls)) (hloc.mono ?_ (Int.le_refl _)) hsav ?_ ?_ ?_ ?_ <;> (try simp only []) <;> push_cast at * <;> omega
  · intro r hr
    have := (hloc.2 r hr).1
    push_cast at *; omega

/-- **C30, System V with OPTION REDZONE** (no vector registers in USES): locals, saved registers and return address are pairwise disjoint, and the
locals are above the stack pointer or in the 128 bytes below it. -/
theorem C30_sysv_redzone_frame_partial (regs : List Reg) (resstack : Nat) (locals : List Local) (hres : resstack % 16 = 0) (hv : cntVec regs = 0) :
    let fr := setLocalOffsetsSysv regs locals
    let st := run 8 false (sysvPrologue regs resstack true fr.2)
    (regions st.bp fr.1 ++ st.saved).Pairwise Region.Disjoint ∧ (∀ r ∈ regions st.bp fr.1, st.sp - 128 ≤ r.addr ∧ r.addr + r.size ≤ 0) ∧
    fr.1.map (·.1) = locals := by
  intro fr st
  by_cases hz : fr.2 + resstack < 128 ∧ resstack = 0
  rotate_left
  · have heq : sysvPrologue regs resstack true fr.2 = sysvPrologue regs resstack false fr.2 := by
      simp only [sysvPrologue, true_and, if_neg hz, Bool.false_eq_true, false_and, if_false]
    obtain ⟨h1, h2, h3⟩ := C30_sysv_frame_partial regs resstack locals hres (Or.inl hv)
    rw [← heq] at h1 h2
    refine ⟨h1.1, fun r hr => ⟨?_, (h1.2 r hr).2⟩, h3⟩
    have h : st.sp ≤ r.addr := (h1.2 r hr).1
    omega
  · obtain ⟨P1, h1, i1⟩ := pushes 8 (regs.filter (· = .gpr)) (run 8 false [Op.push, Op.setbp 0])
    have hs1 : run 8 false [Op.push, Op.setbp 0] = ⟨-8, -8, [⟨-8, 8⟩, ⟨0, 8⟩]⟩ := rfl
    rw [hs1] at h1 i1
    simp only [] at h1 i1
    have hcnt : (regs.filter (· = .gpr)).length = cntStd regs := rfl
    rw [hcnt] at h1 i1
    have hst : st.bp = -8 ∧ st.saved = P1 ++ [⟨-8, 8⟩, ⟨0, 8⟩] ∧ (st.sp = -8 - (cntStd regs * 8 : Nat) ) := by
      have hpro : sysvPrologue regs resstack true fr.2 = [Op.push, Op.setbp 0] ++ (regs.filter (· = .gpr)).map (fun _ => Op.push) ∨
          False := by
        left
        simp only [sysvPrologue, true_and, if_pos hz, hv, ne_eq, not_true_eq_false, if_false, List.append_nil]
        by_cases h : fr.2 + resstack + (if cntStd regs % 2 = 0 then 0 else 8) > 0
        · rw [if_pos h, List.append_nil]
        · rw [if_neg h, if_neg (by omega), List.append_nil]
      rcases hpro with hpro | h
      · have : st = ⟨-8 - (cntStd regs * 8 : Nat), -8, P1 ++ [⟨-8, 8⟩, ⟨0, 8⟩]⟩ := by
          simp only [st]
          rw [hpro, run_append, hs1, h1]
        rw [this]; exact ⟨rfl, rfl, rfl⟩
      · exact h.elim
    obtain ⟨hb, hsv, hsp⟩ := hst
    rw [hb, hsv, hsp]
    obtain ⟨a1, a2, a3, a4⟩ := sysvLoop_spec locals (cntStd regs * 8 + 16 * cntVec regs)
    have hfr : fr.2 = roundUp (roundUp (sysvLoop (cntStd regs * 8 + 16 * cntVec regs) locals).2 8 - cntStd regs * 8) 16 := rfl
    have hfr1 : fr.1 = (sysvLoop (cntStd regs * 8 + 16 * cntVec regs) locals).1 := rfl
    rw [hfr1]
    generalize sysvLoop (cntStd regs * 8 + 16 * cntVec regs) locals = q at *
    have h8 := le_roundUp q.2 8 (by omega)
    have h16 := le_roundUp (roundUp q.2 8 - cntStd regs * 8) 16 (by omega)
    have hloc := regions_In (-8) (-(q.2 : Int)) (-((cntStd regs * 8 + 16 * cntVec regs : Nat) : Int)) q.1 a3 (fun v hv => ⟨(a4 v hv).1, (a4 v hv).2⟩)
    have hret : In (-8) 8 [⟨-8, 8⟩, ⟨0, 8⟩] := In.append (A := [⟨-8, 8⟩]) (mid := 0) (In.single _ _ _ (by simp) (by simp)) (In.single _ _ _ (by simp) (by simp)) (by omega) (by omega)
    have hall := In.append (hloc.mono (Int.le_refl _) (show _ ≤ -8 - ((cntStd regs * 8 : Nat) : Int) by push_cast; omega))
      (In.append i1 hret (by omega) (by omega)) (by push_cast at *; omega) (by omega)
    refine ⟨hall.1, ?_, a2⟩
    intro r hr
    have := hloc.2 r hr
    push_cast at *; omega

/-! ## RSP as stack base -/

theorem rspLoop_spec (a16 : Bool) : ∀ (l : List Local) (ls : Nat), (∀ x ∈ l, itemSize x ≠ 0) →
    ls ≤ (rspLoop a16 ls l).2 ∧ (rspLoop a16 ls l).1.map (·.1) = l ∧
    (rspLoop a16 ls l).1.Pairwise (fun a b => a.2 + (a.1.size : Int) ≤ b.2) ∧
    ∀ v ∈ (rspLoop a16 ls l).1, (ls : Int) ≤ v.2 ∧ v.2 + (v.1.size : Int) ≤ (rspLoop a16 ls l).2
  | [], ls, _ => by simp [rspLoop]
  | x :: l, ls, h => by
    have hx := h x (List.mem_cons_self ..)
    simp only [rspLoop]
    have e1 : ls ≤ (if itemSize x < 16 then roundUp ls (itemSize x) else ls) := by
      split
      · exact le_roundUp _ _ hx
      · omega
    generalize (if itemSize x < 16 then roundUp ls (itemSize x) else ls) = ls1 at *
    have e2 : ls1 ≤ (if a16 = true ∧ x.size > 8 then roundUp ls1 16 else ls1) := by
      split
      · exact le_roundUp _ _ (by omega)
      · omega
    generalize (if a16 = true ∧ x.size > 8 then roundUp ls1 16 else ls1) = ls2 at *
    generalize hn : (if x.isArray = true then x.size % 8 else 0) = n
    have e4 : ls2 + (x.size + n) ≤ (if itemSize x > 8 then roundUp (ls2 + (x.size + n)) 8 else if itemSize x ≠ 0 then roundUp (ls2 + (x.size + n)) (itemSize x) else ls2 + (x.size + n)) := by
      repeat' split
      · exact le_roundUp _ _ (by omega)
      · exact le_roundUp _ _ hx
    generalize (if itemSize x > 8 then roundUp (ls2 + (x.size + n)) 8 else if itemSize x ≠ 0 then roundUp (ls2 + (x.size + n)) (itemSize x) else ls2 + (x.size + n)) = ls4 at *
    obtain ⟨h1, h2, h3, h4⟩ := rspLoop_spec a16 l ls4 (fun y hy => h y (List.mem_cons_of_mem _ hy))
    refine ⟨by omega, by simp [h2], List.Pairwise.cons (fun v hv => ?_) h3, ?_⟩
    · have := (h4 v hv).1; simp only []; omega
    · intro v hv
      rcases List.mem_cons.1 hv with rfl | hv
      · simp only []; omega
      · have := h4 v hv; omega

theorem cntVec_le (regs : List Reg) (hz : .zmm ∉ regs) :
    16 * cntVec regs ≤ (if .ymm ∈ regs then 32 else 16) * (regs.filter (· ≠ .gpr)).length := by
  have gen : ∀ (l : List Reg) (k : Nat), .zmm ∉ l → (k = 32 ∨ (k = 16 ∧ .ymm ∉ l)) → 16 * cntVec l ≤ k * (l.filter (· ≠ .gpr)).length := by
    intro l k
    induction l with
    | nil => intro _ _; simp [cntVec]
    | cons r l ih =>
      intro hz hk
      have := ih (fun h => hz (List.mem_cons_of_mem _ h)) (by rcases hk with h | h; exact Or.inl h; exact Or.inr ⟨h.1, fun h' => h.2 (List.mem_cons_of_mem _ h')⟩)
      rw [cntVec_cons]
      cases r with
      | gpr => simpa using this
      | zmm => exact absurd (List.mem_cons_self ..) hz
      | xmm =>
        rw [List.filter_cons_of_pos (by simp), List.length_cons, Nat.mul_succ]
        generalize k * (l.filter (· ≠ .gpr)).length = z at *
        rcases hk with h | h <;> (simp only []; omega)
      | ymm =>
        rw [List.filter_cons_of_pos (by simp), List.length_cons, Nat.mul_succ]
        rcases hk with h | h
        · simp only []; omega
        · exact absurd (List.mem_cons_self ..) h.2
  by_cases h : .ymm ∈ regs
  · rw [if_pos h]; exact gen regs 32 hz (Or.inl rfl)
  · rw [if_neg h]; exact gen regs 16 hz (Or.inr ⟨rfl, h⟩)

/-- **C30, RSP-based frames.** Locals (at the offsets they have when pass 1 is over), saved registers and return address are pairwise disjoint
and the locals lie above the stack pointer and the space reserved for calls. Missing (and refuted by `C30_rsp_empty_local_overlap`,
`C30_rsp_zmm_overlap`): locals of length or type size 0, and ZMM registers in USES. -/
theorem C30_rsp_frame_partial (a16 : Bool) (regs : List Reg) (resstack : Nat) (locals : List Local)
    (hl : ∀ l ∈ locals, itemSize l ≠ 0) (hz : .zmm ∉ regs) :
    let fr := setLocalOffsetsRSP a16 regs locals
    let st := run 8 false (rspPrologue regs resstack fr.2)
    FrameOk st (regions st.sp (rspFinal resstack fr.1)) ∧
    (∀ r ∈ regions st.sp (rspFinal resstack fr.1), st.sp + resstack ≤ r.addr) ∧ (rspFinal resstack fr.1).map (·.1) = locals := by
  have hcv := cntVec_le regs hz
  simp only [setLocalOffsetsRSP]
  generalize hls0 : (if (regs.filter (· ≠ .gpr)).length ≠ 0 then 8 + (if .ymm ∈ regs then 32 else 16) * (regs.filter (· ≠ .gpr)).length else 0) = ls0
  have hls0' : 16 * cntVec regs ≤ ls0 := by
    rw [← hls0]
    split
    · omega
    · rename_i h
      rw [show (regs.filter (· ≠ .gpr)).length = 0 by omega] at hcv
      omega
  obtain ⟨a1, a2, a3, a4⟩ := rspLoop_spec a16 locals ls0 hl
  generalize rspLoop a16 ls0 locals = q at *
  have e1 : q.2 ≤ (if q.2 % 16 = 0 then q.2 + 8 else q.2) := by split <;> omega
  have e2 := le_roundUp (if q.2 % 16 = 0 then q.2 + 8 else q.2) 8 (by omega)
  generalize roundUp (if q.2 % 16 = 0 then q.2 + 8 else q.2) 8 = lsz at *
  have e3 := le_roundUp lsz 8 (by omega)
  have hret : In 0 8 [⟨0, 8⟩] := In.single _ _ _ (by simp) (by simp)
  obtain ⟨P1, h1, i1⟩ := pushes 8 (regs.filter (· = .gpr)) (entry 8 false)
  have hs1 : entry 8 false = ⟨0, 0, [⟨0, 8⟩]⟩ := rfl
  rw [hs1] at h1 i1
  simp only [] at h1 i1
  have hcnt : (regs.filter (· = .gpr)).length = cntStd regs := rfl
  rw [hcnt] at h1 i1
  obtain ⟨P2, h2, i2⟩ : ∃ P, (if (regs.filter (· ≠ .gpr)).length ≠ 0 then vecSaves resstack regs else []).foldl (step 8)
      ⟨0 - (cntStd regs * 8 : Nat) - (roundUp lsz 8 + resstack : Nat), 0, P1 ++ [⟨0, 8⟩]⟩ =
      ⟨0 - (cntStd regs * 8 : Nat) - (roundUp lsz 8 + resstack : Nat), 0, P ++ (P1 ++ [⟨0, 8⟩])⟩ ∧
      In (0 - (cntStd regs * 8 : Nat) - (roundUp lsz 8 + resstack : Nat) + resstack)
        (0 - (cntStd regs * 8 : Nat) - (roundUp lsz 8 + resstack : Nat) + resstack + 16 * cntVec regs) P := by
    split
    · exact saves 8 regs resstack _
    · exact ⟨[], by simp, In.nil ..⟩
  have hrun : run 8 false (rspPrologue regs resstack lsz) = ⟨0 - (cntStd regs * 8 : Nat) - (roundUp lsz 8 + resstack : Nat), 0, P2 ++ (P1 ++ [⟨0, 8⟩])⟩ := by
    simp only [rspPrologue]
    rw [run_append, run_append]
    have : run 8 false ((regs.filter (· = .gpr)).map (fun _ => Op.push)) = ⟨0 - (cntStd regs * 8 : Nat), 0, P1 ++ [⟨0, 8⟩]⟩ := by
      rw [run, hs1, h1]
    rw [this]
    exact h2
  rw [hrun]
  simp only [rspFinal]
  rw [regions_shift]
  generalize hsp : (0 : Int) - (cntStd regs * 8 : Nat) - (roundUp lsz 8 + resstack : Nat) = sp at *
  have hloc : In (sp + resstack + ls0) (sp + resstack + q.2) (regions (sp + resstack) q.1) := by
    refine ⟨?_, ?_⟩
    · rw [regions, List.pairwise_map]
      exact a3.imp (fun {a b} h => Or.inl (by simp only []; omega))
    · intro r hr
      obtain ⟨v, hv, rfl⟩ := List.mem_map.1 hr
      have := a4 v hv
      simp only []; omega
  refine ⟨?_, ?_, ?_⟩
  · refine frameOk_of rfl (i2.mono ?_ ?_) hloc (In.append i1 hret ?_ ?_) ?_ ?_ ?_ ?_ <;> (try simp only []) <;> push_cast at * <;> omega
  · intro r hr
    have := (hloc.2 r hr).1
    omega
  · rw [List.map_map]; exact a2

end Verif.Proc
