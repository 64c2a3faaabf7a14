import Verif.Frame.Lemmas
/-! # Epilogues undo prologues -/
namespace Verif.Frame

theorem code_pushLines (l : List Nat) : code (pushLines l) = l.map Ins.push := by
  induction l with
  | nil => rfl
  | cons r l ih =>
    simp only [pushLines, List.map_cons]
    rw [← ih]
    cases nonvol r <;> rfl

theorem vecBytes_eq (regs : List UReg) : vecBytes regs = bytes (vecs regs) := rfl

theorem onlyMem_saveParamsRBP (f i : Nat) (ps : List Param) : ∀ x ∈ saveParamsRBP f i ps, OnlyMem x := by
  induction f generalizing i ps with
  | zero => simp [saveParamsRBP]
  | succ f ih =>
    cases ps with
    | nil => simp [saveParamsRBP]
    | cons p r =>
      intro x hx
      unfold saveParamsRBP at hx
      split at hx
      · rcases List.mem_cons.1 hx with rfl | hx
        · trivial
        · exact ih _ _ x hx
      all_goals
        rcases List.mem_append.1 hx with hx | hx
        · split at hx
          · simp at hx; subst hx; trivial
          · simp at hx
        · exact ih _ _ x hx

theorem onlyMem_saveParamsRSP (f i : Nat) (ps : List Param) : ∀ x ∈ saveParamsRSP f i ps, OnlyMem x := by
  induction f generalizing i ps with
  | zero => simp [saveParamsRSP]
  | succ f ih =>
    cases ps with
    | nil => simp [saveParamsRSP]
    | cons p r =>
      intro x hx
      unfold saveParamsRSP at hx
      split at hx
      · rcases List.mem_cons.1 hx with rfl | hx
        · trivial
        · exact ih _ _ x hx
      all_goals
        rcases List.mem_append.1 hx with hx | hx
        · split at hx
          · simp at hx; subst hx; trivial
          · simp at hx
        · exact ih _ _ x hx

theorem onlyMem_saveParamsRSP0 (f i : Nat) (ps : List Param) : ∀ x ∈ saveParamsRSP0 f i ps, OnlyMem x := by
  induction f generalizing i ps with
  | zero => simp [saveParamsRSP0]
  | succ f ih =>
    cases ps with
    | nil => simp [saveParamsRSP0]
    | cons p r =>
      intro x hx
      unfold saveParamsRSP0 at hx
      split at hx <;>
      · rcases List.mem_cons.1 hx with rfl | hx
        · trivial
        · exact ih _ _ x hx

/-! ## RBP -/

/-- Bytes reserved by the RBP prologue. -/
def W.total (w : W) : Nat := w.localsize + stackadj w.fpo (gprs w.regs).length w.localsize + w.resstack

def W.pre (w : W) : List Ins := if w.saveParams then saveParamsRBP 4 0 w.params else []
def W.saved (w : W) : List Nat := (if w.fpo then [] else [w.base]) ++ gprs w.regs
def W.subIns (w : W) : List Ins := if w.total > 0 then [.sub w.total] else []
def W.vbase (w : W) : Int := (vecBase w.localsize (vecBytes w.regs) + w.resstack : Nat)

theorem W.resv_eq (w : W) : (if w.resstack ≠ 0 then w.resv else 0) = w.resstack := by
  unfold W.resstack
  cases w.autosp <;> simp
  intro h; rw [h]

theorem W.isSub (w : W) : IsSub w.subIns w.total := by
  unfold W.subIns
  by_cases h : w.total > 0
  · rw [if_pos h]; exact .inl rfl
  · rw [if_neg h]; exact .inr ⟨rfl, by omega⟩

theorem code_prologueRBP (w : W) : code (prologueRBP w) =
    w.pre ++ ((w.saved.map Ins.push ++ w.subIns ++ code (vputLines w.vbase (vecs w.regs)))
      ++ (if w.fpo then [] else [.lea w.base w.frameofs])) := by
  have hr := w.resv_eq
  unfold prologueRBP
  simp only [hr, code_append]
  have e1 : code (if w.saveParams then (saveParamsRBP 4 0 w.params).map Line.ins else []) = w.pre := by
    unfold W.pre; cases w.saveParams <;> simp [code_map]; rfl
  have e2 : code (if w.fpo then [] else [.ins (.push w.base), .dir (.pushreg w.base)]) ++ code (pushLines (gprs w.regs))
      = w.saved.map Ins.push := by
    unfold W.saved
    rw [code_pushLines]
    cases w.fpo <;> simp [code, Line.ins?]
  have e4 : code (if vecs w.regs ≠ [] then vputLines (vecBase w.localsize (vecBytes w.regs) + w.resstack : Nat) (vecs w.regs) else [])
      = code (vputLines w.vbase (vecs w.regs)) := by
    unfold W.vbase
    by_cases h : vecs w.regs = []
    · rw [h]; rfl
    · rw [if_pos h]
  have e5 : code (if w.fpo then [] else [.ins (.lea w.base w.frameofs), .dir (.setframe w.base w.frameofs)])
      = (if w.fpo then [] else [.lea w.base w.frameofs]) := by
    cases w.fpo <;> rfl
  have e3 : code (if (!w.fpo || w.stackparam || w.vararg || w.align16 || w.autosp) = true then
        (if w.localsize + stackadj w.fpo (gprs w.regs).length w.localsize + w.resstack > 0 then
          [.ins (.sub ((w.localsize + stackadj w.fpo (gprs w.regs).length w.localsize + w.resstack : Nat) : Int)),
           .dir (.alloc ((w.localsize + stackadj w.fpo (gprs w.regs).length w.localsize + w.resstack : Nat) : Int))]
        else [])
      else if stackadj w.fpo (gprs w.regs).length w.localsize + w.localsize > 0 then
        [.ins (.sub (stackadj w.fpo (gprs w.regs).length w.localsize + w.localsize : Nat)),
         .dir (.alloc (stackadj w.fpo (gprs w.regs).length w.localsize + w.localsize : Nat))]
      else []) = w.subIns := by
    unfold W.subIns W.total
    generalize stackadj w.fpo (gprs w.regs).length w.localsize = adj
    by_cases hc : (!w.fpo || w.stackparam || w.vararg || w.align16 || w.autosp) = true
    · rw [if_pos hc]
      by_cases h : w.localsize + adj + w.resstack > 0
      · rw [if_pos h, if_pos h]; rfl
      · rw [if_neg h, if_neg h]; rfl
    · rw [if_neg hc]
      have ha : w.autosp = false := by revert hc; cases w.autosp <;> simp
      have : w.resstack = 0 := by unfold W.resstack; rw [ha]; rfl
      rw [this, Nat.add_zero, Nat.add_comm adj]
      by_cases h : w.localsize + adj > 0
      · rw [if_pos h, if_pos h]; rfl
      · rw [if_neg h, if_neg h]; rfl
  rw [e1, e3, e4, e5]
  rw [← e2]
  have e6 : code [Line.dir Dir.endprolog] = [] := rfl
  rw [e6]
  simp only [List.append_assoc, List.append_nil]

/-- What SetLocalOffsets_RBP guarantees for the RBP pair. -/
structure W.Ok (w : W) : Prop where
  /-- the vector registers have their room -/
  room : vecBytes w.regs ≤ w.localsize
  /-- no frame offset without a frame -/
  ofs0 : w.total = 0 → w.frameofs = 0
  fpo0 : w.fpo = true → w.frameofs = 0
  /-- `@ReservedStack` is 0 unless OPTION WIN64:2 is set -/
  resv0 : w.autosp = false → w.resv = 0
  /-- no vector register is listed twice -/
  nodup : ((vecs w.regs).map (·.1)).Nodup

theorem mem_saved_iff (w : W) (r : Nat) : r ∈ w.saved ↔ (w.fpo = false ∧ r = w.base) ∨ r ∈ gprs w.regs := by
  unfold W.saved
  cases w.fpo <;> simp

theorem popLines_saved (w : W) : popLines w.saved = popLines (gprs w.regs) ++ (if w.fpo then [] else [Ins.pop w.base]) := by
  unfold W.saved popLines
  cases w.fpo <;> simp

theorem vecBase_le (l b : Nat) : vecBase l b ≤ l - b := by unfold vecBase; omega

/-- The epilogue after the vector loads brings the stack pointer below the pushed registers. -/
theorem epi_sp (w : W) (ok : w.Ok) (m0 m2 : M)
    (hfp : w.fpo = false → m2.gpr w.base = m0.sp - 8 * w.saved.length - w.total + w.frameofs)
    (hsp : w.fpo = true → m2.sp = m0.sp - 8 * w.saved.length - w.total) :
    (run 8 m2 w.spBack).gpr = m2.gpr ∧ (run 8 m2 w.spBack).vec = m2.vec ∧ (run 8 m2 w.spBack).mem = m2.mem
      ∧ (run 8 m2 w.spBack).sp = m0.sp - 8 * w.saved.length := by
  have hT : w.total = w.localsize + stackadj w.fpo (gprs w.regs).length w.localsize + w.resstack := rfl
  have h0 := ok.ofs0
  have hr0 : w.resv = w.resstack := by
    unfold W.resstack
    cases ha : w.autosp
    · simpa using ok.resv0 ha
    · rfl
  simp only [W.spBack, w.resv_eq]
  generalize hadj : stackadj w.fpo (gprs w.regs).length w.localsize = adj at *
  generalize hL : (w.saved.length : Int) = L at *
  cases hf : w.fpo
  · have hfp' := hfp hf
    simp only [Bool.not_false, Bool.true_or, if_true]
    by_cases h : w.localsize + adj + w.resstack > 0
    · rw [if_pos h]
      refine ⟨rfl, rfl, rfl, ?_⟩
      show m2.gpr w.base + _ = _
      rw [hfp', hT]; omega
    · rw [if_neg h]
      refine ⟨rfl, rfl, rfl, ?_⟩
      show m2.gpr w.base + 0 = _
      rw [hfp', h0 (by omega), hT]; omega
  · have hsp' := hsp hf
    simp only [Bool.not_true, Bool.false_or]
    by_cases hc : (w.stackparam || w.vararg || w.align16 || w.autosp) = true
    · rw [if_pos hc]
      by_cases h : w.localsize + adj + w.resstack > 0
      · rw [if_neg (by simp), if_pos h]
        refine ⟨rfl, rfl, rfl, ?_⟩
        show m2.sp - _ = _
        rw [hsp', hT, hr0]; omega
      · rw [if_neg (by simp), if_neg h]
        refine ⟨rfl, rfl, rfl, ?_⟩
        show m2.sp = _
        rw [hsp', hT]; omega
    · rw [if_neg hc]
      have ha : w.autosp = false := by revert hc; cases w.autosp <;> simp
      have hz : w.resstack = 0 := by unfold W.resstack; rw [ha]; rfl
      by_cases h : adj + w.localsize > 0
      · rw [if_pos h, if_neg (by simp)]
        refine ⟨rfl, rfl, rfl, ?_⟩
        show m2.sp - _ = _
        rw [hsp', hT]; omega
      · rw [if_neg h]
        refine ⟨rfl, rfl, rfl, ?_⟩
        show m2.sp = _
        rw [hsp', hT]; omega

/-- Win64 FRAME procedures with a frame pointer (or without: `fpo`). -/
theorem rbp_undone (w : W) (ok : w.Ok) (m0 m1 : M) (hf : fits 8 m0)
    (hb : BodyEnd 8 (code (prologueRBP w)) (if w.fpo then none else some w.base) m0 m1) :
    Undone w.saved (vecs w.regs) m0 m1 (run 8 m1 (epilogueRBP w)) := by
  have hk := hb.kept
  have hfr := hb.frame
  rw [code_prologueRBP] at hk hfr
  generalize hQ : w.saved.map Ins.push ++ w.subIns ++ code (vputLines w.vbase (vecs w.regs)) = Q at *
  let mp := run 8 m0 w.pre
  have hmp : mp = run 8 m0 w.pre := rfl
  have hpre := run_onlyMem 8 w.pre m0 (by
    unfold W.pre
    cases w.saveParams
    · simp
    · exact onlyMem_saveParamsRBP 4 0 w.params)
  rw [← hmp] at hpre
  have hcore := core_run 8 w.saved w.subIns w.total w.vbase (vecs w.regs) mp w.isSub
  rw [hQ] at hcore
  simp only at hcore
  have htail : ∀ m : M, (run 8 m (if w.fpo then [] else [Ins.lea w.base w.frameofs])).mem = m.mem := by
    intro m; cases w.fpo <;> rfl
  have hkQ : ∀ a, written 8 mp a Q → m1.mem a = (run 8 mp Q).mem a := by
    intro a ha
    have := hk a (by
      rw [written_append, written_append]
      exact .inr (.inl ha))
    rw [this, run_append, run_append, htail]
  -- frame pointer / stack pointer
  have hfp : w.fpo = false → m1.gpr w.base = m0.sp - 8 * w.saved.length - w.total + w.frameofs := by
    intro h
    rw [h] at hfr
    simp only [Bool.false_eq_true, if_false] at hfr
    rw [hfr, run_append, run_append]
    show setG _ w.base _ w.base = _
    unfold setG
    rw [if_pos rfl, hcore.2.2, hpre.2.2]
    omega
  have hsp : w.fpo = true → m1.sp = m0.sp - 8 * w.saved.length - w.total := by
    intro h
    rw [h] at hfr
    simp only [if_true, List.append_nil] at hfr
    rw [hfr, run_append, hcore.2.2, hpre.2.2]
    omega
  -- vector loads
  let d : Int := (vecBase w.localsize (vecBytes w.regs) : Nat) - w.frameofs + (if w.autosp then (w.resv : Int) else 0)
  let bs : Option Nat := if w.fpo then none else some w.base
  have hra : (if w.autosp then (w.resv : Int) else 0) = w.resstack := by
    unfold W.resstack; cases w.autosp <;> rfl
  have hvec := core_vec 8 w.saved w.subIns w.total w.vbase d (vecs w.regs) bs mp m1 w.isSub ok.nodup (by rw [hQ]; exact hkQ) (by
    show baseVal m1 bs + d = _
    rw [hpre.2.2]
    simp only [d, hra, bs, W.vbase]
    cases h : w.fpo
    · simp only [Bool.false_eq_true, if_false]
      show m1.gpr w.base + _ = _
      rw [hfp h]; omega
    · simp only [if_true]
      show m1.sp + _ = _
      rw [hsp h, ok.fpo0 h]; omega)
  let m2 := run 8 m1 (vgetLines bs d (vecs w.regs))
  have hm2 : m2 = run 8 m1 (vgetLines bs d (vecs w.regs)) := rfl
  rw [← hm2] at hvec
  have he : epilogueRBP w = vgetLines bs d (vecs w.regs) ++ (w.spBack ++ popLines w.saved) := by
    unfold epilogueRBP
    rw [popLines_saved]
    simp only [List.append_assoc]
    congr 1
    by_cases h : vecs w.regs = []
    · rw [h]; simp [vgetLines]
    · rw [if_pos h]
  have hA := epi_sp w ok m0 m2 (fun h => by rw [hvec.2.2.1, hfp h]) (fun h => by rw [hvec.1, hsp h])
  rw [he, run_append, ← hm2, run_append]
  have hpop := core_pop 8 w.saved w.subIns w.total w.vbase (vecs w.regs) mp m1 _ (fun r _ => by rw [hpre.1]; exact hf.1 r) w.isSub (by
      have := vecBase_le w.localsize (vecBytes w.regs)
      have h2 := ok.room
      rw [vecBytes_eq] at this h2
      unfold W.vbase W.total
      rw [vecBytes_eq]
      omega) (by rw [hQ]; exact hkQ) (hA.2.2.1.trans hvec.2.1) (by rw [hpre.2.2]; exact hA.2.2.2)
  refine ⟨hpop.1.trans hpre.2.2, ?_, ?_, ?_, ?_, hpop.2.1⟩
  · intro r hr
    rw [hpop.2.2.2, if_pos hr, hpre.1]
  · intro p hp
    rw [hpop.2.2.1, hA.2.1, hvec.2.2.2.1 p hp, hpre.2.1, Int.emod_emod_of_dvd _ (Int.dvd_refl _)]
  · intro r hr
    rw [hpop.2.2.2, if_neg hr, hA.1, hvec.2.2.1]
  · intro r hr
    rw [hpop.2.2.1, hA.2.1, hvec.2.2.2.2 r hr]

/-! ## System V -/

def S.saved (s : S) : List Nat := (if s.frame then [s.base] else []) ++ gprs s.regs

/-- What is needed for the System V pair: no stack reserved for INVOKE, no vector registers in the red zone. -/
structure S.Ok (s : S) : Prop where
  room : vecBytes s.regs ≤ s.localsize
  resv : s.resstack = 0
  red : s.inRedzone = true → vecs s.regs = []
  base : s.base ∉ gprs s.regs
  nodup : ((vecs s.regs).map (·.1)).Nodup

def S.total (s : S) : Nat := if s.inRedzone then 0 else s.localsize + s.adj
def S.subIns (s : S) : List Ins := if s.inRedzone then [] else if s.localsize + s.adj > 0 then [.sub (s.localsize + s.adj : Nat)] else []

theorem S.isSub (s : S) : IsSub s.subIns s.total := by
  unfold S.subIns S.total
  cases s.inRedzone
  · simp only [Bool.false_eq_true, if_false]
    by_cases h : s.localsize + s.adj > 0
    · rw [if_pos h]; exact .inl rfl
    · rw [if_neg h]; exact .inr ⟨rfl, by omega⟩
  · exact .inr ⟨rfl, rfl⟩

/-- Where the vector registers are stored (irrelevant if there are none). -/
def S.vofs (s : S) : Int := if vecs s.regs = [] then 0 else (vecBase s.localsize (vecBytes s.regs) : Nat)

theorem S.vofs_put (s : S) : vputLines (vecBase s.localsize (vecBytes s.regs) : Nat) (vecs s.regs) = vputLines s.vofs (vecs s.regs) := by
  unfold S.vofs
  by_cases h : vecs s.regs = []
  · rw [h]; rfl
  · rw [if_neg h]

theorem S.vofs_get (s : S) : vgetLines none (vecBase s.localsize (vecBytes s.regs) : Nat) (vecs s.regs)
    = vgetLines none s.vofs (vecs s.regs) := by
  unfold S.vofs
  by_cases h : vecs s.regs = []
  · rw [h]; rfl
  · rw [if_neg h]

theorem prologueSysv_eq (s : S) (hr : s.resstack = 0) : prologueSysv s =
    (if s.frame then [.push s.base, .lea s.base 0] else [])
      ++ ((gprs s.regs).map Ins.push ++ s.subIns ++ code (vputLines s.vofs (vecs s.regs))) := by
  unfold prologueSysv S.subIns
  rw [hr, ← s.vofs_put]
  simp only [Nat.add_zero, List.append_assoc]
  congr 3
  cases s.inRedzone <;> simp

/-- Push of the frame pointer and its new value. -/
theorem frame_run (ws : Nat) (fr : Bool) (b : Nat) (m0 : M) :
    let F : List Ins := if fr then [.push b, .lea b 0] else []
    (run ws m0 F).sp = m0.sp - (if fr then ws else 0 : Nat) ∧ (∀ r, r ≠ b → (run ws m0 F).gpr r = m0.gpr r)
    ∧ (run ws m0 F).vec = m0.vec
    ∧ (fr = true → (run ws m0 F).gpr b = m0.sp - ws)
    ∧ (fr = true → ∀ x, m0.sp - ws ≤ x → x < m0.sp → (run ws m0 F).mem x = store m0.mem (m0.sp - ws) ws (m0.gpr b) x
        ∧ written ws m0 x F) := by
  cases fr
  · simp [run]
  · refine ⟨rfl, fun r hr => ?_, rfl, fun _ => ?_, fun _ x h1 h2 => ⟨rfl, .inl ⟨h1, h2⟩⟩⟩
    · show setG _ _ _ r = _
      unfold setG
      rw [if_neg hr]; rfl
    · show setG _ _ _ b = _
      unfold setG
      rw [if_pos rfl]
      show m0.sp - ws + 0 = _
      omega

theorem sysv_undone (s : S) (ok : s.Ok) (m0 m1 : M) (hf : fits 8 m0) (hb : BodyEnd 8 (prologueSysv s) none m0 m1) :
    Undone s.saved (vecs s.regs) m0 m1 (run 8 m1 (epilogueSysv s)) := by
  have hk := hb.kept
  have hfr : m1.sp = (run 8 m0 (prologueSysv s)).sp := hb.frame
  rw [prologueSysv_eq s ok.resv] at hk hfr
  generalize hQ : (gprs s.regs).map Ins.push ++ s.subIns ++ code (vputLines s.vofs (vecs s.regs)) = Q at *
  have hF := frame_run 8 s.frame s.base m0
  simp only at hF
  generalize hFe : (if s.frame then [Ins.push s.base, Ins.lea s.base 0] else []) = F at *
  obtain ⟨f1, f2, f3, _, f5⟩ := hF
  generalize hmp : run 8 m0 F = mp at *
  have hroom : s.vofs + bytes (vecs s.regs) ≤ s.total := by
    unfold S.vofs S.total
    have h1 := vecBase_le s.localsize (vecBytes s.regs)
    have h2 := ok.room
    by_cases hv : vecs s.regs = []
    · rw [if_pos hv, hv]; simp [bytes]
    · rw [if_neg hv]
      have hz : s.inRedzone = false := by
        cases h : s.inRedzone
        · rfl
        · exact absurd (ok.red h) hv
      rw [hz]
      simp only [Bool.false_eq_true, if_false]
      rw [vecBytes_eq] at *
      omega
  have hcore := core_run 8 (gprs s.regs) s.subIns s.total s.vofs (vecs s.regs) mp s.isSub
  rw [hQ] at hcore
  simp only at hcore
  have hkQ : ∀ a, written 8 mp a Q → m1.mem a = (run 8 mp Q).mem a := by
    intro a ha
    rw [hk a (by rw [written_append, hmp]; exact .inr ha), run_append, hmp]
  have hsp : m1.sp = mp.sp - 8 * (gprs s.regs).length - s.total := by
    rw [hfr, run_append, hmp]; exact hcore.2.2
  have hvec := core_vec 8 (gprs s.regs) s.subIns s.total s.vofs s.vofs (vecs s.regs) none mp m1 s.isSub ok.nodup
    (by rw [hQ]; exact hkQ) (by show m1.sp + _ = _; rw [hsp]; omega)
  generalize hm2 : run 8 m1 (vgetLines none s.vofs (vecs s.regs)) = m2 at *
  have he : epilogueSysv s = vgetLines none s.vofs (vecs s.regs)
      ++ ((if s.inRedzone then [] else if s.localsize + s.adj > 0 then [Ins.sub (-((s.localsize + s.adj : Nat) : Int))] else [])
        ++ (popLines (gprs s.regs) ++ (if s.frame then [.pop s.base] else []))) := by
    unfold epilogueSysv
    rw [s.vofs_get]
    simp only [List.append_assoc]
  rw [he, run_append, hm2, run_append, run_append]
  have hA : run 8 m2 (if s.inRedzone then [] else if s.localsize + s.adj > 0 then
      [Ins.sub (-((s.localsize + s.adj : Nat) : Int))] else []) = { m2 with sp := m2.sp + s.total } := by
    unfold S.total
    cases s.inRedzone
    · simp only [Bool.false_eq_true, if_false]
      by_cases h : s.localsize + s.adj > 0
      · rw [if_pos h]
        show ({ m2 with sp := m2.sp - _ } : M) = _
        congr 1; omega
      · rw [if_neg h]
        show m2 = _
        rw [show s.localsize + s.adj = 0 by omega]
        simp
    · simp [run]
  rw [hA]
  have hpop := core_pop 8 (gprs s.regs) s.subIns s.total s.vofs (vecs s.regs) mp m1 { m2 with sp := m2.sp + s.total }
    (fun r hr => by rw [f2 r (fun e => ok.base (e ▸ hr))]; exact hf.1 r) s.isSub hroom (by rw [hQ]; exact hkQ) hvec.2.1
    (by show m2.sp + _ = _; rw [hvec.1, hsp]; omega)
  generalize hm4 : run 8 { m2 with sp := m2.sp + (s.total : Int) } (popLines (gprs s.regs)) = m4 at *
  have habove : ∀ x, mp.sp ≤ x → (run 8 mp Q).mem x = mp.mem x := by
    intro x hx
    rw [← hQ]
    exact core_above 8 (gprs s.regs) s.subIns s.total s.vofs (vecs s.regs) mp s.isSub hroom x hx
  -- the last pop
  have hlast : ∀ (fr : Bool), s.frame = fr →
      (run 8 m4 (if fr then [Ins.pop s.base] else [])).sp = m0.sp
      ∧ (run 8 m4 (if fr then [Ins.pop s.base] else [])).mem = m4.mem
      ∧ (run 8 m4 (if fr then [Ins.pop s.base] else [])).vec = m4.vec
      ∧ (∀ r, r ≠ s.base ∨ fr = false → (run 8 m4 (if fr then [Ins.pop s.base] else [])).gpr r = m4.gpr r)
      ∧ (fr = true → (run 8 m4 (if fr then [Ins.pop s.base] else [])).gpr s.base = m0.gpr s.base) := by
    intro fr hfr'
    rw [hfr'] at f1 f5
    cases fr
    · simp only [Bool.false_eq_true, if_false] at *
      refine ⟨by show m4.sp = _; rw [hpop.1, f1]; simp, rfl, rfl, fun _ _ => rfl, fun h => h.elim⟩
    · simp only [if_true] at *
      refine ⟨by show m4.sp + _ = _; rw [hpop.1, f1]; simp, rfl, rfl, ?_, fun _ => ?_⟩
      · intro r hr
        rcases hr with hr | hr
        · show setG _ _ _ r = _
          unfold setG; rw [if_neg hr]
        · exact absurd hr (by simp)
      · show setG _ _ _ s.base = _
        unfold setG
        rw [if_pos rfl, hpop.2.1, hpop.1, f1]
        rw [load_congr _ (store m0.mem (m0.sp - 8) 8 (m0.gpr s.base)) 8]
        · exact load_store_eq _ _ _ _ (hf.1 _).1 (hf.1 _).2
        · intro x h1 h2
          have h5 := f5 trivial x h1 (by simp at h2; omega)
          rw [hk x (by rw [written_append]; exact .inl h5.2), run_append, hmp, habove x (by rw [f1]; exact h1), h5.1]
          rfl
  have hl := hlast s.frame rfl
  have hmem_saved : ∀ r, r ∈ s.saved ↔ (s.frame = true ∧ r = s.base) ∨ r ∈ gprs s.regs := by
    intro r; unfold S.saved; cases s.frame <;> simp
  refine ⟨hl.1, ?_, ?_, ?_, ?_, hl.2.1.trans hpop.2.1⟩
  · intro r hr
    rcases (hmem_saved r).1 hr with ⟨h1, rfl⟩ | h1
    · exact hl.2.2.2.2 h1
    · have hne : r ≠ s.base := fun e => ok.base (e ▸ h1)
      rw [hl.2.2.2.1 r (.inl hne), hpop.2.2.2, if_pos h1, f2 r hne]
  · intro p hp
    rw [hl.2.2.1, hpop.2.2.1]
    show m2.vec _ % _ = _
    rw [hvec.2.2.2.1 p hp, f3, Int.emod_emod_of_dvd _ (Int.dvd_refl _)]
  · intro r hr
    have h1 : r ∉ gprs s.regs := fun h => hr ((hmem_saved r).2 (.inr h))
    have h2 : r ≠ s.base ∨ s.frame = false := by
      cases h : s.frame
      · exact .inr rfl
      · exact .inl (fun e => hr ((hmem_saved r).2 (.inl ⟨h, e⟩)))
    rw [hl.2.2.2.1 r h2, hpop.2.2.2, if_neg h1]
    show m2.gpr r = _
    rw [hvec.2.2.1]
  · intro r hr
    rw [hl.2.2.1, hpop.2.2.1]
    exact hvec.2.2.2.2 r hr

/-! ## 16-bit and 32-bit procedures -/

def G.saved (g : G) : List Nat :=
  (if g.needFrame && !g.fpo then [g.base] else []) ++ (if g.loadds then [g.ds] else []) ++ g.regs

/-- What is needed for the generic pair. -/
structure G.Ok (g : G) : Prop where
  /-- no frame, no locals -/
  noLocals : g.needFrame = false → g.localsize = 0
  base : g.base ∉ g.regs ∧ g.base ≠ g.ds
  /-- not: 64-bit without FRAME with OPTION WIN64:2 -/
  auto : g.auto64 = false

theorem gen_undone (ws : Nat) (g : G) (ok : g.Ok) (m0 m1 : M) (hf : fits ws m0)
    (hb : BodyEnd ws (prologueGen g) none m0 m1)
    (hbase : g.needFrame = true → g.fpo = false → m1.gpr g.base = (run ws m0 (prologueGen g)).gpr g.base) :
    Undone g.saved [] m0 m1 (run ws m1 (epilogueGen g)) := by
  have hk := hb.kept
  have hfr : m1.sp = (run ws m0 (prologueGen g)).sp := hb.frame
  let rs := (if g.loadds then [g.ds] else []) ++ g.regs
  have hrs : ∀ r ∈ rs, r ≠ g.base := by
    intro r hr e
    simp only [rs] at hr
    rcases List.mem_append.1 hr with h | h
    · cases hl : g.loadds <;> rw [hl] at h <;> simp at h
      exact ok.base.2 (e ▸ h)
    · exact ok.base.1 (e ▸ h)
  let F : List Ins := if (g.needFrame && !g.fpo) then [.push g.base, .lea g.base 0] else []
  let Sb : List Ins := if g.localsize ≠ 0 then [Ins.sub g.localsize] else []
  have hS : IsSub Sb g.localsize := by
    simp only [Sb]
    by_cases h : g.localsize ≠ 0
    · rw [if_pos h]; exact .inl rfl
    · rw [if_neg h]; exact .inr ⟨rfl, by omega⟩
  have hpro : prologueGen g = F ++ (Sb ++ rs.map Ins.push) := by
    unfold prologueGen
    simp only [F, Sb, rs, List.map_append, List.append_assoc]
    congr 3
    cases g.loadds <;> rfl
  have hpop0 : popLines g.regs ++ (if g.loadds then [Ins.pop g.ds] else []) = popLines rs := by
    simp only [rs, popLines]
    cases g.loadds <;> simp
  have hF := frame_run ws (g.needFrame && !g.fpo) g.base m0
  simp only at hF
  have hFe : (if (g.needFrame && !g.fpo) then [Ins.push g.base, Ins.lea g.base 0] else []) = F := rfl
  rw [hFe] at hF
  rw [hpro] at hk hfr hbase
  obtain ⟨f1, f2, f3, f4, f5⟩ := hF
  generalize hmp : run ws m0 F = mp at *
  let mS : M := { mp with sp := mp.sp - g.localsize }
  have hmS : run ws mp Sb = mS := run_sub ws mp hS
  have hp := pushes ws rs mS
  have hsp : m1.sp = mS.sp - ws * rs.length := by
    rw [hfr, run_append, hmp, run_append, hmS]; exact hp.2.2.1
  have hpop := pops ws rs mS m1 (fun r hr => by
      show _ ≤ mp.gpr r ∧ mp.gpr r < _
      rw [f2 r (hrs r hr)]; exact hf.1 r) hsp (by
    intro x h1 h2
    rw [hk x, run_append, hmp, run_append, hmS]
    rw [written_append, hmp, written_append, hmS]
    exact .inr (.inr (hp.2.2.2.2 x (by omega) h2)))
  have he : epilogueGen g = popLines rs ++ (if !g.needFrame then []
      else if g.fpo then (if g.localsize ≠ 0 then [Ins.sub (-(g.localsize : Int))] else [])
      else (if g.leave || decide (g.localsize ≠ 0) then [Ins.spFrom g.base 0] else []) ++ [Ins.pop g.base]) := by
    unfold epilogueGen
    rw [ok.auto, ← hpop0]
    simp
  rw [he, run_append]
  generalize hm4 : run ws m1 (popLines rs) = m4 at *
  have hmsp : mS.sp = mp.sp - g.localsize := rfl
  have hng : ∀ r, r ∉ rs → m4.gpr r = m1.gpr r := fun r hr => by rw [hpop.2.2.2, if_neg hr]
  have hyg : ∀ r, r ∈ rs → m4.gpr r = m0.gpr r := fun r hr => by
    rw [hpop.2.2.2, if_pos hr]; exact f2 r (hrs r hr)
  have hsaved : ∀ r, r ∈ g.saved ↔ ((g.needFrame && !g.fpo) = true ∧ r = g.base) ∨ r ∈ rs := by
    intro r
    simp only [G.saved, rs, List.append_assoc]
    cases (g.needFrame && !g.fpo) <;> simp
  cases hnf : g.needFrame
  · -- nothing to free
    rw [hnf] at f1
    simp only [Bool.not_false, if_true]
    simp only [Bool.false_and, Bool.false_eq_true, if_false] at f1
    refine ⟨?_, ?_, ?_, ?_, ?_, hpop.2.1⟩
    · show m4.sp = _
      rw [hpop.1, hmsp, f1, ok.noLocals hnf]; simp
    · intro r hr
      rw [hsaved, hnf] at hr
      simp at hr
      exact hyg r hr
    · intro p hp; exact absurd hp (by simp)
    · intro r hr
      rw [hsaved, hnf] at hr
      simp at hr
      exact hng r hr
    · intro r _
      show m4.vec r = _
      rw [hpop.2.2.1]
  · cases hfpo : g.fpo
    · -- frame pointer
      simp only [Bool.not_true, Bool.false_eq_true, if_false]
      rw [hnf, hfpo] at f1 f4 f5
      simp only [Bool.not_false, Bool.and_self, if_true] at f1
      have hb1 : m1.gpr g.base = m0.sp - ws := by
        rw [hbase hnf hfpo, run_append, hmp, run_append, hmS, hp.1]
        exact f4 rfl
      have hnot : g.base ∉ rs := fun h => hrs _ h rfl
      have h5 : ∃ m5, run ws m4 (if g.leave || decide (g.localsize ≠ 0) then [Ins.spFrom g.base 0] else []) = m5
          ∧ m5.gpr = m4.gpr ∧ m5.mem = m4.mem ∧ m5.vec = m4.vec ∧ m5.sp = m0.sp - ws := by
        by_cases hc : (g.leave || decide (g.localsize ≠ 0)) = true
        · rw [if_pos hc]
          refine ⟨_, rfl, rfl, rfl, rfl, ?_⟩
          show m4.gpr g.base + 0 = _
          rw [hng _ hnot, hb1]; omega
        · rw [if_neg hc]
          refine ⟨_, rfl, rfl, rfl, rfl, ?_⟩
          show m4.sp = _
          have : g.localsize = 0 := by
            simp at hc; exact hc.2
          rw [hpop.1, hmsp, f1, this]; simp
      obtain ⟨m5, e5, g5, mem5, v5, sp5⟩ := h5
      rw [run_append, e5]
      have hlo : load m5.mem m5.sp ws = m0.gpr g.base := by
        rw [mem5, hpop.2.1, sp5, load_congr _ (store m0.mem (m0.sp - ws) ws (m0.gpr g.base)) ws]
        · exact load_store_eq _ _ _ _ (hf.1 _).1 (hf.1 _).2
        · intro x h1 h2
          have h5' := f5 rfl x h1 (by omega)
          rw [hk x (by rw [written_append]; exact .inl h5'.2), run_append, hmp, run_append, hmS,
            hp.2.2.2.1 x (.inr (by rw [hmsp, f1]; omega))]
          exact h5'.1
      refine ⟨?_, ?_, ?_, ?_, ?_, ?_⟩
      · show m5.sp + ws = _
        rw [sp5]; omega
      · intro r hr
        show setG m5.gpr g.base _ r = _
        unfold setG
        by_cases h : r = g.base
        · rw [if_pos h, hlo, h]
        · rw [if_neg h, g5]
          rcases (hsaved r).1 hr with ⟨_, h'⟩ | h'
          · exact absurd h' h
          · exact hyg r h'
      · intro p hp; exact absurd hp (by simp)
      · intro r hr
        have h1 : r ≠ g.base := fun e => hr ((hsaved r).2 (.inl ⟨by rw [hnf, hfpo]; rfl, e⟩))
        have h2 : r ∉ rs := fun e => hr ((hsaved r).2 (.inr e))
        show setG m5.gpr g.base _ r = _
        unfold setG
        rw [if_neg h1, g5, hng r h2]
      · intro r _
        show m5.vec r = _
        rw [v5, hpop.2.2.1]
      · show m5.mem = _
        rw [mem5, hpop.2.1]
    · -- stack pointer as base
      simp only [Bool.not_true, Bool.false_eq_true, if_false, if_true]
      rw [hnf, hfpo] at f1
      simp only [Bool.not_true, Bool.and_false, Bool.false_eq_true, if_false] at f1
      have h5 : run ws m4 (if g.localsize ≠ 0 then [Ins.sub (-(g.localsize : Int))] else []) = { m4 with sp := m0.sp } := by
        by_cases hc : g.localsize ≠ 0
        · rw [if_pos hc]
          show ({ m4 with sp := m4.sp - _ } : M) = _
          congr 1
          rw [hpop.1, hmsp, f1]; simp
        · rw [if_neg hc]
          show m4 = _
          have : m4.sp = m0.sp := by rw [hpop.1, hmsp, f1]; omega
          rw [← this]
      rw [h5]
      refine ⟨rfl, ?_, ?_, ?_, ?_, hpop.2.1⟩
      · intro r hr
        rw [hsaved, hfpo] at hr
        simp at hr
        exact hyg r hr
      · intro p hp; exact absurd hp (by simp)
      · intro r hr
        rw [hsaved, hfpo] at hr
        simp at hr
        exact hng r hr
      · intro r _
        show m4.vec r = _
        rw [hpop.2.2.1]

end Verif.Frame
