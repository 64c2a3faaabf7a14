import Verif.Frame.Props
import Verif.Proc.Lemmas
/-! # C55: the stack is aligned in the body; the frame of SetLocalOffsets_RBP -/
namespace Verif.Frame
open Verif.Proc (roundUp setLocalOffsetsRBP setLocalOffsetsRSP cntVec cntStd Local)

/-- The kind of a USES register. -/
def UReg.kind : UReg → Verif.Proc.Reg
  | .gpr _ => .gpr
  | .xmm _ => .xmm
  | .ymm _ => .ymm
  | .zmm _ => .zmm

theorem vecBytes_kind (regs : List UReg) : vecBytes regs = 16 * cntVec (regs.map UReg.kind) := by
  induction regs with
  | nil => rfl
  | cons r l ih =>
    have e : ∀ x : Verif.Proc.Reg, cntVec (x :: l.map UReg.kind) = cntVec [x] + cntVec (l.map UReg.kind) := by
      intro x; simp [cntVec]
    rw [List.map_cons, e]
    cases r <;> simp only [UReg.kind] <;> unfold vecBytes vecs at ih ⊢ <;>
      simp only [List.filterMap_cons, UReg.v?, List.map_cons, List.sum_cons, ih, cntVec, List.map_nil, List.sum_nil] <;> omega

/-- The frame of `w` is the one SetLocalOffsets_RBP computed for its registers, some locals and some parameters (with FPO, `frameofs`
is 0). -/
structure W.Laid (w : W) (locals : List Local) (nParams : Nat) : Prop where
  localsize : w.localsize = (setLocalOffsetsRBP (w.regs.map UReg.kind) w.resstack (gprs w.regs).length locals nParams).localsize
  frameofs : w.frameofs = if w.fpo then 0 else
    (setLocalOffsetsRBP (w.regs.map UReg.kind) w.resstack (gprs w.regs).length locals nParams).frameofs
  resv0 : w.autosp = false → w.resv = 0
  nodup : ((vecs w.regs).map (·.1)).Nodup

theorem W.Laid.mod {w : W} {locals : List Local} {n : Nat} (h : w.Laid locals n) : w.localsize % 16 = 0 := by
  rw [h.localsize]
  simp only [setLocalOffsetsRBP, Verif.Proc.roundUp_16]
  omega

/-- SetLocalOffsets_RBP provides what the prologue and epilogue need. -/
theorem W.Laid.ok {w : W} {locals : List Local} {n : Nat} (h : w.Laid locals n) : w.Ok := by
  have h1 := h.localsize
  have h2 := h.frameofs
  simp only [setLocalOffsetsRBP, Verif.Proc.roundUp_16] at h1
  refine ⟨?_, ?_, ?_, h.resv0, h.nodup⟩
  · rw [vecBytes_kind, h1]; omega
  · intro ht
    have hl : w.localsize = 0 ∧ w.resstack = 0 := by unfold W.total at ht; omega
    rw [h2]
    cases w.fpo
    · have h3 := h.localsize
      generalize hq : setLocalOffsetsRBP (w.regs.map UReg.kind) w.resstack (gprs w.regs).length locals n = q at *
      have : q.frameofs = (if roundUp (q.localsize / 2 + w.resstack) 16 > 128 then 128 else roundUp (q.localsize / 2 + w.resstack) 16) := by
        rw [← hq]; rfl
      rw [this, ← h3, hl.1, hl.2, Verif.Proc.roundUp_16]
      simp
    · rfl
  · intro hf; rw [h2, hf]; rfl

/-- **C54 for the frames the assembler computes.** -/
theorem epilogue_undoes_default (w : W) (locals : List Local) (n : Nat) (h : w.Laid locals n) (m0 m1 : M) (hf : fits 8 m0)
    (hb : BodyEnd 8 (code (prologueRBP w)) (if w.fpo then none else some w.base) m0 m1) :
    Undone w.saved (vecs w.regs) m0 m1 (run 8 m1 (epilogueRBP w)) := rbp_undone w h.ok m0 m1 hf hb

/-- The stack pointer after the default prologue. -/
theorem sp_after_rbp (w : W) (m0 : M) : (run 8 m0 (code (prologueRBP w))).sp = m0.sp - 8 * w.saved.length - w.total := by
  rw [code_prologueRBP, run_append, run_append]
  have hpre := run_onlyMem 8 w.pre m0 (by
    unfold W.pre
    cases w.saveParams
    · simp
    · exact onlyMem_saveParamsRBP 4 0 w.params)
  have hcr := core_run 8 w.saved w.subIns w.total w.vbase (vecs w.regs) (run 8 m0 w.pre) w.isSub
  simp only at hcr
  have : ∀ m : M, (run 8 m (if w.fpo then [] else [.lea w.base w.frameofs])).sp = m.sp := by
    intro m; cases w.fpo <;> rfl
  rw [this, hcr.2.2, hpre.2.2]
  rfl

/-- Every address at which the instructions store a 128-bit register (`movdqa`). -/
def xmmStores (ws : Nat) : M → List Ins → List Int
  | _, [] => []
  | m, .vput r d 16 :: l => (m.sp + d) :: xmmStores ws (exec ws m (.vput r d 16)) l
  | m, i :: l => xmmStores ws (exec ws m i) l

theorem xmmStores_append (ws : Nat) (m : M) (a b : List Ins) :
    xmmStores ws m (a ++ b) = xmmStores ws m a ++ xmmStores ws (run ws m a) b := by
  induction a generalizing m with
  | nil => rfl
  | cons i l ih =>
    cases i <;> try exact ih _
    rename_i r d n
    by_cases h : n = 16
    · subst h
      simp only [List.cons_append, xmmStores, ih]; rfl
    · simp only [List.cons_append]
      rw [xmmStores.eq_3 _ _ _ _ (by intro _ _ e; cases e; exact h rfl), xmmStores.eq_3 _ _ _ _ (by intro _ _ e; cases e; exact h rfl)]
      exact ih _

theorem xmmStores_none (ws : Nat) (m : M) (a : List Ins) (h : ∀ x ∈ a, ∀ r d, x ≠ .vput r d 16) : xmmStores ws m a = [] := by
  induction a generalizing m with
  | nil => rfl
  | cons i l ih =>
    rw [xmmStores.eq_3 _ _ _ _ (h i List.mem_cons_self)]
    exact ih _ (fun x hx => h x (List.mem_cons_of_mem _ hx))

theorem saveParams_no16 (f i : Nat) (ps : List Param) : ∀ x ∈ saveParamsRBP f i ps, ∀ r d, x ≠ .vput r d 16 := by
  intro x hx r d e
  subst e
  fun_induction saveParamsRBP f i ps
  case case1 => cases hx
  case case2 => cases hx
  case case3 f i p r' hk ih =>
    rcases List.mem_cons.1 hx with h | h
    · cases h
    · exact ih h
  all_goals
    rename_i ih
    rcases List.mem_append.1 hx with h | h
    · split at h <;> simp at h
    · exact ih h

theorem vput_aligned (ws : Nat) (vs : List (Nat × Nat)) (i : Int) (m : M) (h : ∀ p ∈ vs, p.2 % 16 = 0) :
    ∀ a ∈ xmmStores ws m (code (vputLines i vs)), a % 16 = (m.sp + i) % 16 := by
  induction vs generalizing i m with
  | nil => intro a ha; cases ha
  | cons p l ih =>
    obtain ⟨r, n⟩ := p
    have hn : n % 16 = 0 := h (r, n) List.mem_cons_self
    have h' : ∀ p ∈ l, p.2 % 16 = 0 := fun p hp => h p (List.mem_cons_of_mem _ hp)
    rw [code_vput]
    have hi := ih (i + n) (exec ws m (.vput r i n)) h'
    have hsp : (exec ws m (.vput r i n)).sp = m.sp := rfl
    rw [hsp] at hi
    intro a ha
    by_cases e : n = 16
    · subst e
      simp only [xmmStores] at ha
      rcases List.mem_cons.1 ha with h | h
      · rw [h]
      · have := hi a h; omega
    · rw [xmmStores.eq_3 _ _ _ _ (by intro _ _ e'; cases e'; exact e rfl)] at ha
      have := hi a ha; omega

theorem vecs_mod (regs : List UReg) : ∀ p ∈ vecs regs, p.2 % 16 = 0 := by
  intro p hp
  obtain ⟨r, _, h⟩ := List.mem_filterMap.1 hp
  cases r <;> simp only [UReg.v?, reduceCtorEq, Option.some.injEq] at h <;> subst h <;> simp

/-- **C55, default prologue.** A FRAME procedure called with an aligned stack (so that RSP is 8 more than a multiple of 16 at its entry,
after the call pushed the return address): in the body RSP is a multiple of 16, and every aligned store of an XMM register in the
prologue is to a multiple of 16. -/
theorem stack_aligned (w : W) (locals : List Local) (n : Nat) (h : w.Laid locals n) (hr : w.resv % 16 = 0) (m0 : M)
    (h0 : m0.sp % 16 = 8) :
    (run 8 m0 (code (prologueRBP w))).sp % 16 = 0 ∧ ∀ a ∈ xmmStores 8 m0 (code (prologueRBP w)), a % 16 = 0 := by
  have hm := h.mod
  have hres : w.resstack % 16 = 0 := by unfold W.resstack; cases w.autosp <;> simp [hr]
  have hsp : (m0.sp - 8 * w.saved.length - w.total) % 16 = 0 := by
    unfold W.total stackadj W.saved
    cases w.fpo
    · simp only [Bool.false_eq_true, if_false, List.length_append, List.length_cons, List.length_nil]
      by_cases e : (gprs w.regs).length % 2 = 0
      · rw [if_pos ⟨e, hm⟩]; omega
      · rw [if_neg (fun x => e x.1), if_neg e, if_pos hm]; omega
    · simp only [if_true, List.nil_append]
      by_cases e : (gprs w.regs).length % 2 = 0
      · rw [if_pos ⟨e, hm⟩]; omega
      · rw [if_neg (fun x => e x.1), if_neg e, if_pos hm]; omega
  refine ⟨by rw [sp_after_rbp]; exact hsp, ?_⟩
  rw [code_prologueRBP, xmmStores_append, xmmStores_append, xmmStores_append, xmmStores_append]
  intro a ha
  have hpre := run_onlyMem 8 w.pre m0 (by
    unfold W.pre
    cases w.saveParams
    · simp
    · exact onlyMem_saveParamsRBP 4 0 w.params)
  have e1 : xmmStores 8 m0 w.pre = [] := by
    unfold W.pre
    cases w.saveParams
    · rfl
    · exact xmmStores_none _ _ _ (saveParams_no16 4 0 w.params)
  have e2 : ∀ m, xmmStores 8 m (w.saved.map Ins.push) = [] := by
    intro m
    apply xmmStores_none
    intro x hx r d e
    obtain ⟨q, _, hq⟩ := List.mem_map.1 hx
    rw [e] at hq; cases hq
  have e3 : ∀ m, xmmStores 8 m w.subIns = [] := by
    intro m
    unfold W.subIns
    split <;> rfl
  have e4 : ∀ m, xmmStores 8 m (if w.fpo then [] else [.lea w.base w.frameofs]) = [] := by
    intro m; cases w.fpo <;> rfl
  rw [e1, e2, e3, e4] at ha
  simp only [List.nil_append, List.append_nil] at ha
  have := vput_aligned 8 (vecs w.regs) w.vbase _ (vecs_mod w.regs) a ha
  rw [this]
  have hp := pushes 8 w.saved (run 8 m0 w.pre)
  rw [run_append, run_sub 8 _ w.isSub]
  show ((run 8 (run 8 m0 w.pre) (w.saved.map Ins.push)).sp - w.total + w.vbase) % 16 = 0
  rw [hp.2.2.1, hpre.2.2]
  have hv : w.vbase % 16 = 0 := by unfold W.vbase vecBase; omega
  have h8 : ((8 : Nat) : Int) = 8 := rfl
  rw [h8]
  omega

/-- `LOCAL a:QWORD`, `LOCAL b[3]:QWORD`: the example procedure is laid out by SetLocalOffsets_RBP. -/
example : wEx.Laid [⟨8, 1, false⟩, ⟨24, 3, true⟩] 2 := ⟨by decide +kernel, by decide +kernel, by decide, by decide⟩
example : (run 8 { mach with sp := 1048568 } (code (prologueRBP wEx))).sp % 16 = 0 := by decide +kernel

/-! ## RSP as stack base -/

/-- The stack pointer after the RSP prologue. -/
theorem sp_after_rsp (w : R) (hst : vecs w.regs = [] ∨ w.full = true) (m0 : M) :
    (run 8 m0 (code (prologueRSP w))).sp = m0.sp - 8 * w.pushed.length - w.total := by
  rw [code_prologueRSP w hst, run_append, run_append]
  have hpre := run_onlyMem 8 w.pre m0 (by
    unfold R.pre
    cases w.smart
    · cases w.saveParams
      · simp
      · exact onlyMem_saveParamsRSP0 4 0 w.params
    · exact onlyMem_saveParamsRSP 4 0 w.params)
  have hput := run_onlyMem 8 (putSlots w.slots) (run 8 m0 w.pre) (by
    intro x hx
    obtain ⟨q, _, hq⟩ := List.mem_map.1 hx
    rw [← hq]; trivial)
  have hcr := core_run 8 w.pushed w.subIns w.total w.resstack (vecs w.regs) (run 8 (run 8 m0 w.pre) (putSlots w.slots)) w.isSub
  simp only at hcr
  rw [hcr.2.2, hput.2.2, hpre.2.2]
  rfl

/-- **C55, RSP as stack base**, for procedures with locals or reserved stack space, with any of the WIN64 options 1, 2, 8 set, and
without vector registers in the USES list. Missing for the full property: with vector registers it is false, see below. -/
theorem stack_aligned_rsp_partial (w : R) (hfull : w.hasLocals = true ∨ w.resstack ≠ 0) (hh : w.habran = true) (hv : vecs w.regs = [])
    (hl : w.localsize0 % 8 = 0) (hr : w.resv % 16 = 0) (m0 : M) (h0 : m0.sp % 16 = 8) :
    (run 8 m0 (code (prologueRSP w))).sp % 16 = 0 := by
  rw [sp_after_rsp w (.inl hv)]
  have hf : w.full = true := by
    unfold R.full
    rw [decide_eq_true]
    rcases hfull with h | h
    · exact .inl h
    · exact .inr (.inl h)
  have hc : ¬ (w.habran = true ∧ ¬ w.hasLocals = true ∧ w.resstack = 0) := by
    rintro ⟨_, h1, h2⟩
    rcases hfull with h | h
    · exact h1 h
    · exact h h2
  have hx : w.xmmsize = 0 := by unfold R.xmmsize; simp [hv]
  have hres : w.resstack % 16 = 0 := by unfold R.resstack; cases w.autosp <;> simp [hr]
  have hls : (w.localsize % 16 = (if w.pushed.length % 2 = 1 then 0 else 8)) := by
    have hcnt : (vecs w.regs).length = 0 := by rw [hv]; rfl
    unfold R.localsize
    simp only [hcnt, hx, if_neg hc]
    simp only [hh, ne_eq, not_true_eq_false, false_and, and_false, if_false, true_and, and_true]
    have hor : (w.hasLocals = true ∨ ¬ w.resstack = 0 ∨ False) := by
      rcases hfull with h | h
      · exact .inl h
      · exact .inr (.inl h)
    simp only [hor, true_and]
    by_cases e : w.pushed.length % 2 = 1
    · rw [if_pos e]
      by_cases e2 : w.localsize0 % 16 = 0
      · rw [if_neg (by omega)]; exact e2
      · rw [if_pos (by omega)]; omega
    · rw [if_neg e]
      by_cases e2 : w.localsize0 % 16 = 0
      · rw [if_pos (by omega)]; omega
      · rw [if_neg (by omega)]; omega
  have hss : w.stackSize = w.localsize := by
    unfold R.stackSize
    simp only [hx, Nat.add_zero]
    rw [if_neg]
    by_cases e : w.pushed.length % 2 = 1
    · rw [if_pos e] at hls; omega
    · rw [if_neg e] at hls; omega
  have ht : w.total = w.localsize + w.resstack := by unfold R.total; rw [hf, hss]; rfl
  rw [ht]
  by_cases e : w.pushed.length % 2 = 1
  · rw [if_pos e] at hls; omega
  · rw [if_neg e] at hls; omega

example : (run 8 { mach with sp := 1048568 } (code (prologueRSP { rEx with regs := [.gpr 3] }))).sp % 16 = 0 := by decide +kernel

/-- `proc frame uses xmm6` with `LOCAL a:DWORD` (OPTION STACKBASE:RSP): SetLocalOffsets_RSP computes 32 bytes, the prologue does not
correct them, RSP stays misaligned and `movdqa [rsp+..], xmm6` is executed on an unaligned address. -/
def rMis : R :=
  { regs := [.xmm 6], params := [], hasLocals := true
    localsize0 := (setLocalOffsetsRSP true [.xmm] [⟨4, 1, false⟩]).2, resv := 32, smart := true, saveParams := true, autosp := true }

theorem rsp_misaligned :
    (run 8 { mach with sp := 1048568 } (code (prologueRSP rMis))).sp % 16 = 8
    ∧ (xmmStores 8 { mach with sp := 1048568 } (code (prologueRSP rMis))).map (· % 16) = [8] := by decide +kernel

end Verif.Frame
