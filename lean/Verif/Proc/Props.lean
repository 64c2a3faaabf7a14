import Verif.Proc.Lemmas
/-! # C30: locals, parameters and saved registers of a procedure do not overlap -/
namespace Verif.Proc

/-! ## 16- and 32-bit procedures -/

theorem genericCore (ws : Nat) (far : Bool) (regs : List Reg) (n : Nat) (loadds : Bool) (frame : Bool) :
    ∃ P Q, run ws far ((if frame then [Op.push, Op.setbp 0] else []) ++ (if n ≠ 0 then [Op.sub n] else [])
        ++ (if loadds then [Op.push] else []) ++ regs.map (fun _ => Op.push)) =
      ⟨-(if frame then (ws : Int) else 0) - n - (if loadds then (ws : Int) else 0) - (regs.length * ws : Nat),
       if frame then -(ws : Int) else 0, P ++ Q⟩ ∧
      In (-(if frame then (ws : Int) else 0) - n - (if loadds then (ws : Int) else 0) - (regs.length * ws : Nat))
         (-(if frame then (ws : Int) else 0) - n) P ∧
      In (-(if frame then (ws : Int) else 0)) ((1 + if far then 1 else 0) * ws : Nat) Q := by
  obtain ⟨P, h1, h2⟩ := pushes ws regs (run ws far ((if frame then [Op.push, Op.setbp 0] else []) ++
    (if n ≠ 0 then [Op.sub n] else []) ++ (if loadds then [Op.push] else [])))
  have ret : In 0 ((1 + if far then 1 else 0) * ws : Nat) [⟨0, (1 + if far then 1 else 0) * ws⟩] :=
    In.single _ _ _ (by simp) (by simp)
  rw [run_append, h1]
  have key : run ws far ((if frame then [Op.push, Op.setbp 0] else []) ++ (if n ≠ 0 then [Op.sub n] else [])
      ++ (if loadds then [Op.push] else [])) =
      ⟨-(if frame then (ws : Int) else 0) - n - (if loadds then (ws : Int) else 0), if frame then -(ws : Int) else 0,
       (if loadds then [⟨-(if frame then (ws : Int) else 0) - n - ws, ws⟩] else []) ++
       ((if frame then [⟨-(ws : Int), ws⟩] else []) ++ [⟨0, (1 + if far then 1 else 0) * ws⟩])⟩ := by
    by_cases hn : n = 0
    · cases frame <;> cases loadds <;> simp [run, entry, step, hn]
    · cases frame <;> cases loadds <;> simp [run, entry, step, hn] <;> omega
  rw [key] at h2 ⊢
  simp only [] at h2 ⊢
  refine ⟨P ++ (if loadds then [⟨-(if frame then (ws : Int) else 0) - n - ws, ws⟩] else []),
    (if frame then [⟨-(ws : Int), ws⟩] else []) ++ [⟨0, (1 + if far then 1 else 0) * ws⟩], ?_, ?_, ?_⟩
  · simp
  · cases loadds
    · simpa using h2
    · simp only [if_true] at h2 ⊢
      exact In.append h2 (In.single _ _ _ (by simp) (by simp)) (by omega) (by omega)
  · cases frame
    · simpa using ret
    · simp only [if_true]
      exact In.append (In.single _ _ _ (by simp) (by simp only []; omega)) ret (by omega) (by omega)

theorem frameOk_of {st : St} {L P Q : List Region} {lo mid hi top : Int} (hs : st.saved = P ++ Q) (hp : In st.sp lo P)
    (hl : In lo mid L) (hq : In hi top Q) (h1 : st.sp ≤ lo) (h2 : lo ≤ mid) (h3 : mid ≤ hi) (h4 : hi ≤ 0) : FrameOk st L := by
  refine ⟨?_, ?_⟩
  · rw [hs]
    refine List.pairwise_append.2 ⟨hl.1, ?_, ?_⟩
    · refine List.pairwise_append.2 ⟨hp.1, hq.1, ?_⟩
      intro a ha b hb
      have := hp.2 a ha; have := hq.2 b hb
      left; omega
    · intro a ha b hb
      have := hl.2 a ha
      rcases List.mem_append.1 hb with hb | hb
      · have := hp.2 b hb; right; omega
      · have := hq.2 b hb; left; omega
  · intro r hr
    have := hl.2 r hr; omega

/-- **C30, 16- and 32-bit.** After the generic prologue the locals, the saved registers and the return address are pairwise disjoint,
the locals lie above the stack pointer, and the parameters are where the caller left them. With and without frame pointer
(`fpo`), every list of locals (also of size 0 and of odd sizes), parameters and USES registers, NEAR and FAR.
Conditions: `rspalign` off (never set in 16/32-bit code); without frame pointer no LOADDS and no XMM register in USES;
a frame is created if there are locals or parameters. -/
theorem C30_generic_frame (c : Cfg) (far needFrame : Bool) (locals : List Local) (params : List Nat)
    (hw : c.ws = 2 ∨ c.ws = 4 ∨ c.ws = 8) (hr : c.rspalign = false)
    (hfpo : c.fpo = true → c.loadds = false ∧ .xmm ∉ c.regs) (hf : c.fpo = false → locals ≠ [] ∨ params ≠ [] → needFrame = true) :
    let fr := setLocalOffsets c locals (paramOffs c.ws (paramStart c.ws far) params)
    let st := run c.ws far (genericPrologue c needFrame fr.localsize)
    let base := if c.fpo then st.sp else st.bp
    FrameOk st (regions base fr.locals) ∧ fr.locals.map (·.1) = locals ∧
    pregions base fr.params = slots c.ws ((1 + if far then 1 else 0) * c.ws : Nat) params := by
  have hw0 : c.ws ≠ 0 := by omega
  obtain ⟨a1, a2, a3, a4⟩ := localLoop_spec c.ws c.ws hw0 hw0 locals 0
  have hru := le_roundUp (localLoop c.ws c.ws 0 locals).2 c.ws hw0
  generalize hq : localLoop c.ws c.ws 0 locals = q at a1 a2 a3 a4 hru
  generalize hls : roundUp q.2 c.ws = ls at hru
  have hin := fun base => regions_In base (-(ls : Int)) (-((0 : Nat) : Int)) q.1 a3 (fun v hv => ⟨by have := (a4 v hv).1; omega, (a4 v hv).2⟩)
  obtain ⟨P, Q, h1, h2, h3⟩ := genericCore c.ws far c.regs ls c.loadds (needFrame && !c.fpo)
  have hls' : (setLocalOffsets c locals (paramOffs c.ws (paramStart c.ws far) params)).localsize = ls := by
    simp only [setLocalOffsets, hr, Bool.false_eq_true, if_false, false_and]
    rw [hq, hls]
  have hpro : genericPrologue c needFrame ls = (if (needFrame && !c.fpo) = true then [Op.push, Op.setbp 0] else []) ++ (if ls ≠ 0 then [Op.sub ls] else [])
        ++ (if c.loadds then [Op.push] else []) ++ c.regs.map (fun _ => Op.push) := by
    simp only [genericPrologue]
    cases needFrame <;> cases c.fpo <;> simp
  simp only []
  rw [hls', hpro, h1]
  simp only []
  cases hc : c.fpo with
  | false =>
    have hfr : (setLocalOffsets c locals (paramOffs c.ws (paramStart c.ws far) params)).locals = q.1 := by
      simp only [setLocalOffsets, hr, hc, Bool.false_eq_true, if_false, false_and]; rw [hq]
    have hpr : (setLocalOffsets c locals (paramOffs c.ws (paramStart c.ws far) params)).params = paramOffs c.ws (paramStart c.ws far) params := by
      simp only [setLocalOffsets, hr, hc, Bool.false_eq_true, if_false, false_and]
    rw [hfr, hpr]
    simp only [Bool.not_false, Bool.and_true, hc, Bool.false_eq_true, if_false] at h2 h3 ⊢
    refine ⟨?_, a2, ?_⟩
    · by_cases hl : locals = []
      · have hq1 : q.1 = [] := by
          have := a2; rw [hl] at this; exact List.map_eq_nil_iff.1 this
        rw [hq1]
        have : In (-(if needFrame then (c.ws : Int) else 0) - ls) (-(if needFrame then (c.ws : Int) else 0) - ls) (regions (if needFrame = true then -(c.ws : Int) else 0) []) := In.nil ..
        have hnn : (0 : Int) ≤ (if needFrame then (c.ws : Int) else 0) := by split <;> omega
        have hnl : (0 : Int) ≤ (if c.loadds then (c.ws : Int) else 0) := by split <;> omega
        exact frameOk_of rfl h2 this h3 (by simp only []; omega) (by omega) (by omega) (by omega)
      · have hn := hf hc (Or.inl hl)
        subst hn
        have := hin (-(c.ws : Int))
        simp only [if_true] at h2 h3 ⊢
        have hnl : (0 : Int) ≤ (if c.loadds then (c.ws : Int) else 0) := by split <;> omega
        exact frameOk_of rfl h2 (this.mono (by omega) (Int.le_refl _)) h3 (by simp only []; omega) (by omega) (by omega) (by omega)
    · by_cases hp : params = []
      · subst hp; rfl
      · have hn := hf hc (Or.inr hp)
        subst hn
        simp only [if_true]
        refine paramOffs_slots c.ws hw _ params _ _ ?_
        simp only [paramStart]
        cases far <;> simp <;> omega
  | true =>
    obtain ⟨hld, hx⟩ := hfpo hc
    have hreg : (c.regs.filter (· ≠ .xmm)) = c.regs := by
      rw [List.filter_eq_self]
      intro r hr
      simp only [decide_eq_true_eq]
      rintro rfl; exact hx hr
    have hfr : (setLocalOffsets c locals (paramOffs c.ws (paramStart c.ws far) params)).locals =
        q.1.map (fun p => (p.1, p.2 + ((ls : Int) + (c.regs.length * c.ws : Nat)))) := by
      simp only [setLocalOffsets, hr, hc, Bool.false_eq_true, if_false, false_and, if_true, Bool.true_or, true_or, and_true, true_and]
      rw [hq, hreg, hls]
      push_cast
      rfl
    have hpr : (setLocalOffsets c locals (paramOffs c.ws (paramStart c.ws far) params)).params =
        (paramOffs c.ws (paramStart c.ws far) params).map (fun p => (p.1, p.2 + ((ls : Int) + (c.regs.length * c.ws : Nat) - c.ws))) := by
      simp only [setLocalOffsets, hr, hc, Bool.false_eq_true, if_false, false_and, if_true, Bool.true_or, true_or, and_true, true_and]
      rw [hq, hreg, hls]
      push_cast
      rfl
    rw [hfr, hpr]
    simp only [hc, hld, Bool.not_true, Bool.and_false, Bool.false_eq_true, if_false, if_true] at h2 h3 ⊢
    rw [regions_shift, slots_shift c.ws]
    refine ⟨?_, ?_, ?_⟩
    · have := hin (-0 - (ls : Int) - 0 - (c.regs.length * c.ws : Nat) + ((ls : Int) + (c.regs.length * c.ws : Nat)))
      exact frameOk_of rfl h2 (this.mono (by omega) (Int.le_refl _)) h3 (by simp only []; omega) (by omega) (by omega) (by omega)
    · rw [List.map_map]; exact a2
    · refine paramOffs_slots c.ws hw _ params _ _ ?_
      simp only [paramStart]
      cases far <;> simp <;> omega

/-! ## Win64 FRAME procedures with frame pointer -/

theorem le_rbpSize (n : Nat) : n ≤ rbpSize n := by
  simp only [rbpSize]
  repeat' split
  all_goals first | exact le_roundUp _ _ (by omega) | omega

theorem rbpPass_spec (p : Nat → Bool) : ∀ (l : List Local) (cur : Int),
    (rbpPass p cur l).2 = cur - (((l.filter (fun x => p x.size)).map (fun x => rbpSize x.size)).sum : Nat) ∧
    (rbpPass p cur l).1.map (·.1) = l.filter (fun x => p x.size) ∧
    (rbpPass p cur l).1.Pairwise (fun a b => b.2 + (b.1.size : Int) ≤ a.2) ∧
    ∀ v ∈ (rbpPass p cur l).1, (rbpPass p cur l).2 ≤ v.2 ∧ v.2 + (v.1.size : Int) ≤ cur
  | [], cur => by simp [rbpPass]
  | x :: l, cur => by
    simp only [rbpPass]
    cases hp : p x.size with
    | false =>
      simp only [Bool.false_eq_true, if_false]
      rw [List.filter_cons_of_neg (by simp [hp])]
      exact rbpPass_spec p l cur
    | true =>
      simp only [if_true]
      obtain ⟨h1, h2, h3, h4⟩ := rbpPass_spec p l (cur - rbpSize x.size)
      have hle := le_rbpSize x.size
      rw [List.filter_cons_of_pos (by simp [hp])]
      refine ⟨?_, by simp [h2], List.Pairwise.cons (fun v hv => (h4 v hv).2) h3, ?_⟩
      · rw [h1, List.map_cons, List.sum_cons]; push_cast; omega
      · intro v hv
        rcases List.mem_cons.1 hv with rfl | hv
        · simp only []; rw [h1]; omega
        · have := h4 v hv; omega

theorem classes_sum : ∀ l : List Local,
    ((l.filter (fun x => decide (x.size ≥ 16))).map (fun x => rbpSize x.size)).sum +
    ((l.filter (fun x => decide (x.size ≥ 8) && decide (x.size < 16))).map (fun x => rbpSize x.size)).sum +
    ((l.filter (fun x => decide (x.size ≥ 4) && decide (x.size < 8))).map (fun x => rbpSize x.size)).sum +
    ((l.filter (fun x => decide (x.size < 4))).map (fun x => rbpSize x.size)).sum = (l.map (fun x => rbpSize x.size)).sum
  | [] => rfl
  | x :: l => by
    have ih := classes_sum l
    simp only [List.filter_cons, List.map_cons, List.sum_cons]
    rcases Nat.lt_or_ge x.size 4 with h | h
    · simp [h, show ¬ x.size ≥ 16 by omega, show ¬ x.size ≥ 8 by omega, show ¬ x.size ≥ 4 by omega]; simp at ih; omega
    · rcases Nat.lt_or_ge x.size 8 with h' | h'
      · simp [h, h', show ¬ x.size ≥ 16 by omega, show ¬ x.size ≥ 8 by omega, show ¬ x.size < 4 by omega]; simp at ih; omega
      · rcases Nat.lt_or_ge x.size 16 with h'' | h''
        · simp [h, h', h'', show ¬ x.size ≥ 16 by omega, show ¬ x.size < 8 by omega, show ¬ x.size < 4 by omega]; simp at ih; omega
        · simp [h, h', h'', show ¬ x.size < 16 by omega, show ¬ x.size < 8 by omega, show ¬ x.size < 4 by omega]; simp at ih; omega

theorem classes_perm (l : List Local) :
    List.Perm (l.filter (fun x => decide (x.size ≥ 16)) ++ l.filter (fun x => decide (x.size ≥ 8) && decide (x.size < 16)) ++
      l.filter (fun x => decide (x.size ≥ 4) && decide (x.size < 8)) ++ l.filter (fun x => decide (x.size < 4))) l := by
  induction l with
  | nil => exact List.Perm.nil
  | cons x l ih =>
    simp only [List.filter_cons]
    rcases Nat.lt_or_ge x.size 4 with h | h
    · simp only [h, show ¬ x.size ≥ 16 by omega, show ¬ x.size ≥ 8 by omega, show ¬ x.size ≥ 4 by omega, decide_true, decide_false,
        Bool.false_and, Bool.false_eq_true, if_false, if_true]
      exact List.perm_middle.trans (ih.cons x)
    · rcases Nat.lt_or_ge x.size 8 with h' | h'
      · simp only [h, h', show ¬ x.size ≥ 16 by omega, show ¬ x.size ≥ 8 by omega, show ¬ x.size < 4 by omega, decide_true, decide_false,
          Bool.false_and, Bool.and_true, Bool.false_eq_true, if_false, if_true]
        rw [List.append_assoc, List.cons_append]
        refine List.perm_middle.trans (List.Perm.cons x ?_)
        rw [← List.append_assoc]; exact ih
      · rcases Nat.lt_or_ge x.size 16 with h'' | h''
        · simp only [h, h', h'', show ¬ x.size ≥ 16 by omega, show ¬ x.size < 8 by omega, show ¬ x.size < 4 by omega, decide_true, decide_false,
            Bool.and_false, Bool.and_true, Bool.false_eq_true, if_false, if_true]
          rw [List.append_assoc, List.append_assoc, List.cons_append]
          refine List.perm_middle.trans (List.Perm.cons x ?_)
          rw [← List.append_assoc, ← List.append_assoc]; exact ih
        · simp only [h, h', h'', show ¬ x.size < 16 by omega, show ¬ x.size < 8 by omega, show ¬ x.size < 4 by omega, decide_true, decide_false,
            Bool.and_false, Bool.false_eq_true, if_false, if_true]
          simpa using ih.cons x

/-- The locals in the four passes together. -/
theorem rbp_locals (l : List Local) (cur : Int) :
    let p1 := rbpPass (fun n => n ≥ 16) cur l
    let p2 := rbpPass (fun n => n ≥ 8 && n < 16) p1.2 l
    let p3 := rbpPass (fun n => n ≥ 4 && n < 8) p2.2 l
    let p4 := rbpPass (fun n => n < 4) p3.2 l
    (p1.1 ++ p2.1 ++ p3.1 ++ p4.1).Pairwise (fun a b => b.2 + (b.1.size : Int) ≤ a.2) ∧
    (∀ v ∈ p1.1 ++ p2.1 ++ p3.1 ++ p4.1, cur - ((l.map (fun x => rbpSize x.size)).sum : Nat) ≤ v.2 ∧ v.2 + (v.1.size : Int) ≤ cur) ∧
    List.Perm ((p1.1 ++ p2.1 ++ p3.1 ++ p4.1).map (·.1)) l := by
  simp only []
  obtain ⟨a1, a2, a3, a4⟩ := rbpPass_spec (fun n => n ≥ 16) l cur
  generalize rbpPass (fun n => n ≥ 16) cur l = p1 at *
  obtain ⟨b1, b2, b3, b4⟩ := rbpPass_spec (fun n => n ≥ 8 && n < 16) l p1.2
  generalize rbpPass (fun n => n ≥ 8 && n < 16) p1.2 l = p2 at *
  obtain ⟨c1, c2, c3, c4⟩ := rbpPass_spec (fun n => n ≥ 4 && n < 8) l p2.2
  generalize rbpPass (fun n => n ≥ 4 && n < 8) p2.2 l = p3 at *
  obtain ⟨d1, d2, d3, d4⟩ := rbpPass_spec (fun n => n < 4) l p3.2
  generalize rbpPass (fun n => n < 4) p3.2 l = p4 at *
  have hs := classes_sum l
  refine ⟨?_, ?_, ?_⟩
  · simp only [List.pairwise_append]
    refine ⟨⟨⟨a3, b3, ?_⟩, c3, ?_⟩, d3, ?_⟩
    · intro a ha b hb; have := a4 a ha; have := b4 b hb; omega
    · intro a ha b hb
      have := c4 b hb
      rcases List.mem_append.1 ha with ha | ha
      · have := a4 a ha; omega
      · have := b4 a ha; omega
    · intro a ha b hb
      have := d4 b hb
      rcases List.mem_append.1 ha with ha | ha
      · rcases List.mem_append.1 ha with ha | ha
        · have := a4 a ha; omega
        · have := b4 a ha; omega
      · have := c4 a ha; omega
  · intro v hv
    rcases List.mem_append.1 hv with hv | hv
    · rcases List.mem_append.1 hv with hv | hv
      · rcases List.mem_append.1 hv with hv | hv
        · have := a4 v hv; omega
        · have := b4 v hv; omega
      · have := c4 v hv; omega
    · have := d4 v hv; omega
  · simp only [List.map_append, a2, b2, c2, d2]
    exact classes_perm l

theorem vecOpt (ws : Nat) (s : St) (i : Nat) (regs : List Reg) : ∃ P, (if cntVec regs ≠ 0 then vecSaves i regs else []).foldl (step ws) s =
    ⟨s.sp, s.bp, P ++ s.saved⟩ ∧ In (s.sp + i) (s.sp + i + 16 * cntVec regs) P ∧ (cntVec regs = 0 → P = []) := by
  split
  · obtain ⟨P, h1, h2⟩ := saves ws regs i s
    exact ⟨P, h1, h2, fun h => absurd h (by assumption)⟩
  · exact ⟨[], by simp, In.nil .., fun _ => rfl⟩

/-- **C30, Win64 FRAME procedures (frame pointer).** After the prologue the locals, the saved general-purpose and vector registers and the
return address are pairwise disjoint, the locals lie above the space reserved for calls, and the k-th parameter is
addressed in the k-th slot behind the return address (its home). Every list of USES registers, locals, any reserved stack; from the second
pass on (`pushedReg` is then the number of pushed registers). -/
theorem C30_rbp_frame (regs : List Reg) (resstack : Nat) (locals : List Local) (nParams : Nat) :
    let fr := setLocalOffsetsRBP regs resstack (cntStd regs) locals nParams
    let st := run 8 false (rbpPrologue regs resstack fr.localsize fr.frameofs)
    FrameOk st (regions st.bp fr.locals) ∧ (∀ r ∈ regions st.bp fr.locals, st.sp + resstack ≤ r.addr) ∧
    List.Perm (fr.locals.map (·.1)) locals ∧
    fr.params.map (fun o => st.bp + o) = (List.range nParams).map (fun (k : Nat) => ((8 + 8 * k : Nat) : Int)) := by
  simp only [setLocalOffsetsRBP]
  generalize hls : roundUp (16 * cntVec regs + (locals.map (fun l => rbpSize l.size)).sum) 16 = ls
  have hls16 : ls % 16 = 0 := by rw [← hls, roundUp_16]; omega
  have hlsge : 16 * cntVec regs + (locals.map (fun l => rbpSize l.size)).sum ≤ ls := by rw [← hls]; exact le_roundUp _ _ (by omega)
  generalize hfo : (if roundUp (ls / 2 + resstack) 16 > 128 then 128 else roundUp (ls / 2 + resstack) 16) = fo
  generalize hadj : (if cntStd regs % 2 = 0 ∧ ls % 16 = 0 then 0 else if cntStd regs % 2 = 0 then 8 else if ls % 16 = 0 then 8 else 0) = adj
  obtain ⟨l1, l2, l3⟩ := rbp_locals locals ((ls : Int) + resstack - 16 * cntVec regs - fo)
  generalize ((rbpPass (fun n => n ≥ 16) ((ls : Int) + resstack - 16 * cntVec regs - fo) locals).1 ++ _ ++ _ ++ _) = L at l1 l2 l3 ⊢
  -- the machine
  obtain ⟨P1, h1, i1⟩ := pushes 8 (regs.filter (· = .gpr)) (run 8 false [Op.push])
  have hs1 : run 8 false [Op.push] = ⟨-8, 0, [⟨-8, 8⟩, ⟨0, 8⟩]⟩ := rfl
  rw [hs1] at h1 i1
  simp only [] at h1 i1
  have hcnt : (regs.filter (· = .gpr)).length = cntStd regs := rfl
  rw [hcnt] at h1 i1
  have h2 : (if ls + adj + resstack > 0 then [Op.sub (ls + adj + resstack)] else []).foldl (step 8)
      (⟨-8 - (cntStd regs * 8 : Nat), 0, P1 ++ [⟨-8, 8⟩, ⟨0, 8⟩]⟩ : St) =
      ⟨-8 - (cntStd regs * 8 : Nat) - (ls + adj + resstack : Nat), 0, P1 ++ [⟨-8, 8⟩, ⟨0, 8⟩]⟩ := by
    split
    · rfl
    · rw [show ls + adj + resstack = 0 by omega]; simp
  obtain ⟨P2, h3, i3, -⟩ := vecOpt 8 ⟨-8 - (cntStd regs * 8 : Nat) - (ls + adj + resstack : Nat), 0, P1 ++ [⟨-8, 8⟩, ⟨0, 8⟩]⟩
    (resstack + (ls - cntVec regs * 16) / 16 * 16) regs
  simp only [] at h3 i3
  have hrun : run 8 false (rbpPrologue regs resstack ls fo) = ⟨-8 - (cntStd regs * 8 : Nat) - (ls + adj + resstack : Nat),
      -8 - (cntStd regs * 8 : Nat) - (ls + adj + resstack : Nat) + fo, P2 ++ (P1 ++ [⟨-8, 8⟩, ⟨0, 8⟩])⟩ := by
    simp only [rbpPrologue, hadj]
    rw [run_append, run_append, run_append, run_append, hs1, h1, h2, h3]
    rfl
  rw [hrun]
  simp only []
  have hvec : (ls - cntVec regs * 16) / 16 * 16 = ls - cntVec regs * 16 := by omega
  rw [hvec] at i3
  have hret : In (-8) 8 [⟨-8, 8⟩, ⟨0, 8⟩] := In.append (A := [⟨-8, 8⟩]) (mid := 0) (In.single _ _ _ (by simp) (by simp)) (In.single _ _ _ (by simp) (by simp)) (by omega) (by omega)
  have hsav : In (-8 - (cntStd regs * 8 : Nat) - (ls + adj + resstack : Nat) + (resstack + (ls - cntVec regs * 16) : Nat)) 8 (P2 ++ (P1 ++ [⟨-8, 8⟩, ⟨0, 8⟩])) := by
    refine In.append (mid := -8 - (cntStd regs * 8 : Nat)) (i3.mono (Int.le_refl _) ?_) (In.append i1 hret ?_ ?_) ?_ ?_ <;> push_cast <;> omega
  have hloc := regions_In (-8 - (cntStd regs * 8 : Nat) - (ls + adj + resstack : Nat) + fo) (resstack - fo)
    ((ls : Int) + resstack - 16 * cntVec regs - fo) L l1 (fun v hv => ⟨by have := (l2 v hv).1; omega, (l2 v hv).2⟩)
  refine ⟨?_, ?_, l3, ?_⟩
  · refine frameOk_of (P := []) rfl (In.nil _ (-8 - (cntStd regs * 8 : Nat) - (ls + adj + resstack : Nat) + resstack)) (hloc.mono (by omega) (Int.le_refl _)) hsav ?_ ?_ ?_ ?_
    · simp only []; omega
    · push_cast; omega
    · push_cast; omega
    · push_cast; omega
  · intro r hr
    have := (hloc.2 r hr).1
    omega
  · have hadjI : (if cntStd regs % 2 = 0 ∧ ls % 16 = 0 then (0 : Int) else if cntStd regs % 2 = 0 then 8 else if ls % 16 = 0 then 8 else 0) = adj := by
      rw [← hadj]; by_cases h1 : cntStd regs % 2 = 0 <;> simp [h1, hls16]
    rw [List.map_map, hadjI]
    apply List.map_congr_left
    intro k _
    simp only [Function.comp]
    push_cast
    omega

end Verif.Proc
