import Verif.Frame.UnwindAll
/-! # C52, C53, C54: unwind data, unwinding, epilogues -/
namespace Verif.Frame

/-! ## C52: unwind data read back as the directives -/

/-- **C52.** Any sequence of prologue lines with `.ENDPROLOG` at the end that the assembler accepts, with operands in range: the
UNWIND_INFO written to `.xdata` reads back, by the rules of the ABI, as the operations announced by the directives, each at the offset
of the end of its instruction, in descending order, with the right prologue size, frame register, frame offset and handler.
Missing for the full property: operands out of `InRange` are accepted and encoded wrongly, see below. -/
theorem unwind_data_reads_back_partial (len : Ins → Nat) (ls : List Line) (u : U) (handler : Option Nat)
    (hh : ∀ h, handler = some h → h < 4294967296)
    (hr : ∀ p ∈ dirsAt len 0 (ls ++ [.dir .endprolog]), InRange p.2)
    (h : assembleLines len {} 0 (ls ++ [.dir .endprolog]) = .ok u) :
    ∃ info, readInfo (xdata u handler) = some info
      ∧ Matches (dirsAt len 0 (ls ++ [.dir .endprolog])) info.codes.reverse
      ∧ info.version = 1 ∧ info.flags = (if handler.isSome then 3 else 0) ∧ info.handler = handler
      ∧ info.sizeOfProlog = codeLen len ls ∧ codeLen len ls ≤ 255
      ∧ (info.frameReg, info.frameOfs * 16) = frameOf (0, 0) (dirsAt len 0 (ls ++ [.dir .endprolog])) := by
  obtain ⟨h1, h2⟩ := readInfo_xdata len _ u handler hh (dirs_small len ls {} u h) hr h
  have h3 := endprolog_pos len ls {} u 0 h
  rw [Nat.zero_add] at h3
  refine ⟨_, h1, ?_, rfl, rfl, rfl, h3.2.1, h3.1, h2⟩
  simp only [List.reverse_reverse]
  exact opsOf_matches _ hr

structure U.Fits (u : U) : Prop where
  len : u.codes.length ≤ 255
  reg : u.frameReg < 16
  ofs : u.frameOfs < 16
  size : u.sizeOfProlog ≤ 255

theorem add_fits {u u' : U} {s : List Nat} (hu : u.Fits) (hs : s.length ≤ 3) (h : u.add s = .ok u') : u'.Fits := by
  obtain ⟨rfl, hl⟩ := add_ok h
  exact ⟨hl hu.len hs, hu.reg, hu.ofs, hu.size⟩

theorem excFrame_fits (u u' : U) (pos : Nat) (d : Dir) (hu : u.Fits) (h : excFrame u pos d = .ok u') : u'.Fits := by
  unfold excFrame at h
  split at h
  · cases h
  cases d <;> simp only at h
  case endprolog =>
    split at h
    · cases h
    · injection h with h; subst h; exact ⟨hu.len, hu.reg, hu.ofs, by simp only; omega⟩
  case setframe r v =>
    split at h
    · cases h
    split at h
    · cases h
    refine add_fits (u := { u with frameReg := r % 16, frameOfs := lo32 v / 16 }) ⟨hu.len, Nat.mod_lt _ (by omega), ?_, hu.size⟩ (by simp) h
    simp only; omega
  all_goals
    repeat (first | exact add_fits hu (by simp) h | (split at h <;> try cases h))

/-- Every number written for the unwind information is a byte: none of them is cut by `db`. -/
theorem unwind_data_are_bytes (len : Ins → Nat) (ls : List Line) (u : U) (handler : Option Nat)
    (h : assembleLines len {} 0 ls = .ok u) : ∀ b ∈ xdata u handler, b < 256 := by
  have key : ∀ (ls : List Line) (u u' : U) (pos : Nat), u.Fits → assembleLines len u pos ls = .ok u' → u'.Fits := by
    intro ls
    induction ls with
    | nil => intro u u' pos hu h; simp only [assembleLines, Except.ok.injEq] at h; exact h ▸ hu
    | cons x l ih =>
      intro u u' pos hu h
      cases x with
      | ins i => exact ih u u' _ hu h
      | dir d =>
        simp only [assembleLines] at h
        cases he : excFrame u pos d with
        | error e => rw [he] at h; cases h
        | ok u1 => rw [he] at h; exact ih u1 u' pos (excFrame_fits u u1 pos d hu he) h
  have hu := key ls {} u 0 ⟨by simp, by simp, by simp, by simp⟩ h
  have h1 := hu.len
  have h2 := hu.reg
  have h3 := hu.ofs
  have h4 := hu.size
  intro b hb
  unfold xdata at hb
  simp only [List.mem_append, List.mem_flatMap, List.mem_cons, List.not_mem_nil, or_false] at hb
  rcases hb with (((h | h | h | h) | ⟨c, _, h⟩) | h) | h
  · rw [h]; cases handler <;> simp
  · omega
  · omega
  · omega
  · unfold le16 at h
    simp only [List.mem_cons, List.not_mem_nil, or_false] at h
    omega
  · split at h
    · simp at h; omega
    · simp at h
  · cases handler with
    | none => cases h
    | some a =>
      unfold handlerBytes le32 at h
      simp only [List.mem_append, List.mem_cons, List.not_mem_nil, or_false] at h
      omega

/-- Lengths of the instructions of a prologue, roughly. -/
def lenEx : Ins → Nat
  | .push r => if r < 8 then 1 else 2
  | .sub n => if n < 128 then 4 else 7
  | _ => 5

/-- `push rbp`, `push rbx`, `sub rsp, 64`, `movdqa [rsp+32], xmm6`, `lea rbp, [rsp+32]` with their directives. -/
def linesEx : List Line :=
  [.ins (.push 5), .dir (.pushreg 5), .ins (.push 3), .dir (.pushreg 3), .ins (.sub 64), .dir (.alloc 64),
   .ins (.vput 6 32 16), .dir (.savexmm 6 32), .ins (.lea 5 32), .dir (.setframe 5 32)]

example : (∀ p ∈ dirsAt lenEx 0 (linesEx ++ [.dir .endprolog]), InRange p.2) := by
  simp [linesEx, dirsAt, InRange]

def uEx : U := { codes := [0x5001, 0x3002, 0x7206, 2, 0x680B, 0x5310], sizeOfProlog := 16, frameReg := 5, frameOfs := 2, done := true }

example : assembleLines lenEx {} 0 (linesEx ++ [.dir .endprolog]) = .ok uEx := by rfl

example : readInfo (xdata uEx (some 0x1000)) = some
    { version := 1, flags := 3, sizeOfProlog := 16, frameReg := 5, frameOfs := 2, handler := some 0x1000,
      codes := [(16, .setFpreg), (11, .saveXmm128 6 32), (6, .alloc 64), (2, .pushNonvol 3), (1, .pushNonvol 5)] } := by decide +kernel

/-- What the unwind data of a single directive (after an instruction of 4 bytes) read back as. -/
def readOne (d : Dir) : Option (List (Nat × UOp)) :=
  match assembleLines (fun _ => 4) {} 0 [.ins (.sub 8), .dir d, .dir .endprolog] with
  | .ok u => (readInfo (xdata u none)).map (·.codes)
  | .error _ => none

/-- Large offsets use the FAR forms, whose offsets are not scaled; the assembler scales them. -/
theorem savereg_far_wrong : readOne (.savereg 3 524296) = some [(4, .saveNonvol 3 65537)] := by decide +kernel
theorem savexmm_far_wrong : readOne (.savexmm 6 1048592) = some [(4, .saveXmm128 6 65537)] := by decide +kernel
/-- The first offset that does not fit the short form still uses it. -/
theorem savereg_boundary_wrong : readOne (.savereg 3 524288) = some [(4, .saveNonvol 3 0)] := by decide +kernel
theorem savexmm_boundary_wrong : readOne (.savexmm 6 1048576) = some [(4, .saveXmm128 6 0)] := by decide +kernel
/-- The high 32 bits of the operand are ignored. -/
theorem savereg_high_wrong : readOne (.savereg 3 4294967304) = some [(4, .saveNonvol 3 8)] := by decide +kernel
/-- Registers 16 to 31 become registers 0 to 15. -/
theorem savexmm_high_register_wrong : readOne (.savexmm 22 32) = some [(4, .saveXmm128 6 32)] := by decide +kernel
/-- Just below the boundaries all is well (the theorem applies). -/
example : readOne (.savereg 3 524280) = some [(4, .saveNonvol 3 524280)]
    ∧ readOne (.savexmm 6 1048560) = some [(4, .saveXmm128 6 1048560)]
    ∧ readOne (.alloc 524288) = some [(4, .alloc 524288)] ∧ readOne (.alloc 524280) = some [(4, .alloc 524280)]
    ∧ readOne (.alloc 128) = some [(4, .alloc 128)] ∧ readOne (.alloc 136) = some [(4, .alloc 136)]
    ∧ readOne (.alloc 4294967288) = some [(4, .alloc 4294967288)] := by decide +kernel

/-! ## C53: unwinding restores the caller -/

/-- The USES registers have their .PUSHREG: all general ones are non-volatile. The numbers are those of the machine. -/
structure W.Uses (w : W) : Prop where
  nonvol : ∀ r ∈ gprs w.regs, nonvol r = true
  gpr : ∀ r ∈ gprs w.regs, r < 16
  vec : ∀ p ∈ vecs w.regs, p.1 < 16
  base : 0 < w.base ∧ w.base < 16
  ofs : w.frameofs < 4294967296
  near : w.localsize + w.resstack < 1048576

theorem stackadj_le (f : Bool) (a b : Nat) : stackadj f a b ≤ 8 := by
  unfold stackadj
  split <;> split <;> first | omega | (split <;> first | omega | (split <;> omega))

theorem vecs_size (regs : List UReg) : ∀ p ∈ vecs regs, 16 ≤ p.2 := by
  intro p hp
  obtain ⟨r, _, h⟩ := List.mem_filterMap.1 hp
  cases r <;> simp only [UReg.v?, reduceCtorEq, Option.some.injEq] at h <;> subst h <;> simp

theorem W.fok (w : W) (ok : w.Ok) (us : w.Uses) : w.toF.Ok := by
  have hroom := ok.room
  have hv := vecBase_le w.localsize (vecBytes w.regs)
  rw [vecBytes_eq] at hroom hv
  have ha := stackadj_le w.fpo (gprs w.regs).length w.localsize
  have hnear := us.near
  have hi : w.toF.i + bytes w.toF.vs ≤ w.localsize + w.resstack := by
    unfold W.toF
    simp only
    by_cases h : vecs w.regs = []
    · rw [if_pos h, h]; simp [bytes]
    · rw [if_neg h, vecBytes_eq]; omega
  refine ⟨?_, ?_, ?_, ok.nodup, vecs_size _, us.vec, by omega, ?_, ?_⟩
  · show ∀ x ∈ w.pre, OnlyMem x
    unfold W.pre
    cases w.saveParams
    · simp
    · exact onlyMem_saveParamsRBP 4 0 w.params
  · show ∀ r ∈ w.saved, r < 16
    intro r hr
    rcases (mem_saved_iff w r).1 hr with ⟨_, h⟩ | h
    · rw [h]; exact us.base.2
    · exact us.gpr r h
  · have : w.toF.N = w.localsize + stackadj w.fpo (gprs w.regs).length w.localsize + w.resstack := rfl
    omega
  · have : w.toF.N = w.localsize + stackadj w.fpo (gprs w.regs).length w.localsize + w.resstack := rfl
    omega
  · intro b o h
    have hl : w.toF.lea = if w.fpo then none else some (w.base, w.frameofs) := rfl
    rw [hl] at h
    cases hfp : w.fpo
    · rw [hfp] at h
      simp only [Bool.false_eq_true, if_false, Option.some.injEq, Prod.mk.injEq] at h
      refine ⟨by rw [← h.1]; exact us.base.1, by rw [← h.1]; exact us.base.2, by rw [← h.2]; exact us.ofs, ?_⟩
      show b ∈ w.saved
      exact (mem_saved_iff w b).2 (.inl ⟨hfp, h.1.symm⟩)
    · rw [hfp] at h; simp at h

/-- **C53, default prologue.** A FRAME procedure with the default prologue (RBP or another register as frame pointer, or none): the
unwind data written for it let the unwinder restore the caller's stack pointer, every general register and the low 128 bits of every
vector register at every instruction boundary of the prologue; in the body they restore the stack pointer, the pushed registers and
the saved vector registers, whatever the body does as long as it keeps the saved values and the frame pointer (or, without one, the
stack pointer). `len` is any assignment of positive lengths to the instructions for which the prologue is accepted (at most 255 bytes).
Missing for the full property: USES with volatile registers, and the cases of the RSP prologue shown below. -/
theorem unwind_restores_partial (w : W) (ok : w.Ok) (us : w.Uses) (len : Ins → Nat) (hl : ∀ i, 0 < len i) (u : U)
    (handler : Option Nat) (hh : ∀ h, handler = some h → h < 4294967296)
    (h : assembleLines len {} 0 (prologueRBP w) = .ok u) :
    ∃ info, readInfo (xdata u handler) = some info ∧
      (∀ pos m0 m1, codeLen len (prologueRBP w) ≤ pos → fits 8 m0 →
        BodyEnd 8 (code (prologueRBP w)) (if w.fpo then none else some w.base) m0 m1 →
        Unwound w.saved (vecs w.regs) m0 m1 (unwind info pos m1)) ∧
      (∀ ls1 ls2 pos m0, prologueRBP w = ls1 ++ ls2 → Boundary len ls1 ls2 pos → fits 8 m0 →
        IsCaller m0 (unwind info pos (run 8 m0 (code ls1)))) := by
  have e := w.lines us.nonvol
  rw [← e] at h ⊢
  have e2 : (if w.fpo then none else some w.base) = w.toF.lea.map (·.1) := by
    show _ = (if w.fpo then none else some (w.base, w.frameofs)).map (·.1)
    cases w.fpo <;> rfl
  rw [e2]
  exact F.unwinds w.toF (w.fok ok us) len hl u handler hh h

structure R.Uses (w : R) : Prop where
  nonvol : ∀ r ∈ gprs w.regs, nonvol r = true
  gpr : ∀ r ∈ gprs w.regs, r < 16
  vec : ∀ p ∈ vecs w.regs, p.1 < 16
  near : w.total < 1048576
  /-- no register was saved in the home area -/
  slots : w.slots = []
  /-- the stack space was reserved with a .ALLOCSTACK, or there is none -/
  alloc : (w.full = true ∧ 0 < w.total) ∨ (w.total = 0 ∧ w.full = false ∧ vecs w.regs = [])

theorem R.fok (w : R) (ok : w.Ok) (us : w.Uses) : w.toF.Ok := by
  have hroom := ok.room
  rw [vecBytes_eq] at hroom
  have hnear := us.near
  have hi : w.toF.i + bytes w.toF.vs ≤ w.toF.N := by
    unfold R.toF
    simp only
    by_cases h : vecs w.regs = []
    · rw [if_pos h, h]; simp [bytes]
    · have hf : w.full = true := ok.stored.resolve_left h
      have : w.total = w.stackSize + w.resstack := by unfold R.total; rw [hf]; rfl
      rw [if_neg h]; omega
  have hN : w.toF.N = w.total := rfl
  refine ⟨?_, ?_, hi, ok.nodup, vecs_size _, us.vec, by omega, by omega, ?_⟩
  · show ∀ x ∈ w.pre, OnlyMem x
    unfold R.pre
    cases w.smart
    · cases w.saveParams
      · simp
      · exact onlyMem_saveParamsRSP0 4 0 w.params
    · exact onlyMem_saveParamsRSP 4 0 w.params
  · show ∀ r ∈ w.pushed, r < 16
    intro r hr
    exact us.gpr r (List.mem_of_mem_drop hr)
  · intro b o h; cases h

/-- **C53, RSP prologue**, when no register was put into the home area and the room on the stack was announced. -/
theorem unwind_restores_rsp_partial (w : R) (ok : w.Ok) (us : w.Uses) (len : Ins → Nat) (hl : ∀ i, 0 < len i) (u : U)
    (handler : Option Nat) (hh : ∀ h, handler = some h → h < 4294967296)
    (h : assembleLines len {} 0 (prologueRSP w) = .ok u) :
    ∃ info, readInfo (xdata u handler) = some info ∧
      (∀ pos m0 m1, codeLen len (prologueRSP w) ≤ pos → fits 8 m0 → BodyEnd 8 (code (prologueRSP w)) none m0 m1 →
        Unwound (gprs w.regs) (vecs w.regs) m0 m1 (unwind info pos m1)) ∧
      (∀ ls1 ls2 pos m0, prologueRSP w = ls1 ++ ls2 → Boundary len ls1 ls2 pos → fits 8 m0 →
        IsCaller m0 (unwind info pos (run 8 m0 (code ls1)))) := by
  have e := w.lines us.nonvol us.slots us.alloc
  rw [← e] at h ⊢
  have hpd : gprs w.regs = w.pushed := by unfold R.pushed; rw [us.slots]; rfl
  rw [hpd]
  exact F.unwinds w.toF (w.fok ok us) len hl u handler hh h

/-- A procedure with `USES rbx rsi xmm6`, 40 bytes of locals, 32 bytes reserved for calls. -/
def wEx : W :=
  { regs := [.gpr 3, .gpr 6, .xmm 6], params := [⟨.int 8, true⟩, ⟨.real8, true⟩], base := 5, localsize := 64, frameofs := 64, resv := 32,
    saveParams := true, autosp := true, align16 := true, stackparam := true, vararg := false, fpo := false }

example : wEx.Ok := ⟨by decide, by decide, by decide, by decide, by decide⟩
example : wEx.Uses := ⟨by decide, by decide, by decide, by decide, by decide, by decide⟩
example : (assembleLines lenEx {} 0 (prologueRBP wEx)).toOption.isSome = true := by decide +kernel
example : code (prologueRBP wEx) = [.put 1 8 8, .vput 1 16 8, .push 5, .push 3, .push 6, .sub 96, .vput 6 80 16, .lea 5 64] := by
  decide +kernel

def rEx : R :=
  { regs := [.gpr 3, .xmm 6], params := [⟨.int 8, true⟩], hasLocals := true, localsize0 := 32, resv := 32, smart := false,
    saveParams := true, autosp := true }

example : rEx.Ok := ⟨by decide, by decide, by decide, by decide, by decide⟩
example : rEx.Uses := ⟨by decide, by decide, by decide, by decide, by decide, by decide⟩
example : (assembleLines lenEx {} 0 (prologueRSP rEx)).toOption.isSome = true := by decide +kernel
example : code (prologueRSP rEx) = [.put 1 8 8, .push 3, .sub 64, .vput 6 32 16] := by decide +kernel

/-- A machine for counterexamples. -/
def mach : M := { gpr := fun r => 100 + (r : Int) % 32, vec := fun r => 1000 + (r : Int) % 32, sp := 1048576, mem := fun _ => 7 }

theorem fits_mach (ws : Nat) (h : 2 ≤ ws) : fits ws mach := by
  have hp : ∀ k, 2 ≤ k → (65536 : Int) ≤ 256 ^ k := by
    intro k hk
    induction k with
    | zero => omega
    | succ k ih =>
      by_cases e : k = 1
      · subst e; decide
      · have := ih (by omega)
        rw [Int.pow_succ]; omega
  refine ⟨fun r => ?_, fun r => ?_⟩
  · have := hp ws h
    simp only [mach]; omega
  · have := hp 64 (by omega)
    simp only [mach]
    generalize (256 : Int) ^ 64 = P at *
    omega

/-- Unwinding from the end of a prologue. -/
def unwindEnd (len : Ins → Nat) (ls : List Line) (m0 : M) : Option M :=
  match assembleLines len {} 0 ls with
  | .error _ => none
  | .ok u => (readInfo (xdata u none)).map (fun i => unwind i (codeLen len ls) (run 8 m0 (code ls)))

example : (unwindEnd lenEx (prologueRBP wEx) mach).map (fun m => (m.sp, m.gpr 5, m.gpr 3, m.gpr 6, m.vec 6))
    = some (mach.sp, mach.gpr 5, mach.gpr 3, mach.gpr 6, mach.vec 6) := by decide +kernel

/-- `USES rcx`: the register is pushed, but there is no .PUSHREG: the unwinder is off by 8. -/
theorem volatile_register_breaks_unwind :
    (unwindEnd lenEx (prologueRBP { wEx with regs := [.gpr 1, .gpr 6, .xmm 6] }) mach).map (·.sp) = some (mach.sp - 8) := by
  decide +kernel

/-- OPTION WIN64:11 (`STACKBASE:RSP`): a register saved in the home area is announced with its offset from the stack pointer of the
entry; the unwinder counts from the stack pointer of the body and finds something else. -/
def rHome : R :=
  { regs := [.gpr 3, .gpr 6], params := [], hasLocals := true, localsize0 := 32, resv := 32, smart := true, saveParams := true, autosp := true }

theorem home_area_breaks_unwind :
    code (prologueRSP rHome) = [.put 3 8 8, .push 6, .sub 64]
    ∧ (unwindEnd lenEx (prologueRSP rHome) mach).map (fun m => (m.sp, decide (m.gpr 3 = mach.gpr 3))) = some (mach.sp, false) := by
  decide +kernel

/-- `sub rsp, 40` without .ALLOCSTACK: no locals, no W64F flag, but `localsize` > 0. -/
def rNoAlloc : R :=
  { regs := [], params := [], hasLocals := false, localsize0 := 40, resv := 0, smart := false, saveParams := false, autosp := false }

theorem unannounced_alloc_breaks_unwind :
    (unwindEnd lenEx (prologueRSP rNoAlloc) mach).map (·.sp) = some (mach.sp - 40) := by decide +kernel

/-! ## C54: the epilogue undoes the prologue -/

/-- **C54, Win64 FRAME procedure with a frame pointer (or FPO).** -/
theorem epilogue_undoes_rbp (w : W) (ok : w.Ok) (m0 m1 : M) (hf : fits 8 m0)
    (hb : BodyEnd 8 (code (prologueRBP w)) (if w.fpo then none else some w.base) m0 m1) :
    Undone w.saved (vecs w.regs) m0 m1 (run 8 m1 (epilogueRBP w)) := rbp_undone w ok m0 m1 hf hb

/-- **C54, Win64 with RSP as stack base.** Missing for the full property: the cases excluded by `R.Ok`, see below. -/
theorem epilogue_undoes_rsp_partial (w : R) (ok : w.Ok) (m0 m1 : M) (hf : fits 8 m0)
    (hb : BodyEnd 8 (code (prologueRSP w)) none m0 m1) :
    Undone (gprs w.regs) (vecs w.regs) m0 m1 (run 8 m1 (epilogueRSP w)) := rsp_undone w ok m0 m1 hf hb

/-- **C54, System V.** Missing for the full property: `S.Ok` excludes reserved stack space and vector registers in the red zone. -/
theorem epilogue_undoes_sysv_partial (s : S) (ok : s.Ok) (m0 m1 : M) (hf : fits 8 m0) (hb : BodyEnd 8 (prologueSysv s) none m0 m1) :
    Undone s.saved (vecs s.regs) m0 m1 (run 8 m1 (epilogueSysv s)) := sysv_undone s ok m0 m1 hf hb

/-- **C54, 16-bit, 32-bit, and 64-bit without FRAME.** Missing for the full property: `G.Ok` excludes OPTION WIN64:2 in 64-bit. -/
theorem epilogue_undoes_generic_partial (ws : Nat) (g : G) (ok : g.Ok) (m0 m1 : M) (hf : fits ws m0)
    (hb : BodyEnd ws (prologueGen g) none m0 m1)
    (hbase : g.needFrame = true → g.fpo = false → m1.gpr g.base = (run ws m0 (prologueGen g)).gpr g.base) :
    Undone g.saved [] m0 m1 (run ws m1 (epilogueGen g)) := gen_undone ws g ok m0 m1 hf hb hbase

/-- A register of the USES list that is kept in the home area never shares its place with a parameter that is used. -/
theorem home_area_is_not_shared (w : R) (k : Nat) (h : paramAt 4 w.params k = true) : ∀ p ∈ w.slots, p.2 ≠ 8 * (k + 1) :=
  home_disjoint w k h

/-- A System V procedure with `USES rbx r12 xmm6`. -/
def sEx : S := { regs := [.gpr 3, .gpr 12, .xmm 6], base := 5, localsize := 48, resstack := 0, redzone := false, fpo := false, needFrame := true }
/-- A 32-bit procedure with locals and `USES esi edi`. -/
def gEx : G :=
  { regs := [6, 7], base := 5, ds := 40, ax := 0, localsize := 12, needFrame := true, fpo := false, loadds := false, leave := true,
    auto64 := false, resv := 0 }

example : sEx.Ok := by constructor <;> decide
example : gEx.Ok := by constructor <;> decide
example : prologueSysv sEx = [.push 5, .lea 5 0, .push 3, .push 12, .sub 48, .vput 6 32 16] := by decide +kernel
example : epilogueGen gEx = [.pop 7, .pop 6, .spFrom 5 0, .pop 5] := by decide +kernel
example : epilogueRBP wEx = [.vget 6 (some 5) 16 16, .spFrom 5 32, .pop 6, .pop 3, .pop 5] := by decide +kernel
example : BodyEnd 8 (code (prologueRBP wEx)) (some 5) mach (run 8 mach (code (prologueRBP wEx))) := ⟨fun _ _ => rfl, rfl⟩

/-- Prologue and epilogue with nothing in between. -/
def there (ws : Nat) (p e : List Ins) : M := run ws (run ws mach p) e

/-- No locals, nothing reserved, `localsize` > 0, no vector register stored: the epilogue restores one nevertheless (and frees what it
reserved). -/
theorem rsp_vector_not_saved : let w : R := { rNoAlloc with regs := [.xmm 6] }
    decide ((there 8 (code (prologueRSP w)) (epilogueRSP w)).vec 6 = mach.vec 6) = false := by decide +kernel

/-- A ZMM register of the USES list is saved, but not restored: a body that changes it changes it for the caller. -/
theorem rsp_zmm_not_restored : let w : R := { rEx with regs := [.zmm 6], localsize0 := 64 }
    code (prologueRSP w) = [.put 1 8 8, .sub 96, .vput 6 32 64] ∧ epilogueRSP w = [.sub (-96)] := by decide +kernel

/-- Without OPTION WIN64:2 the room for vector registers of a procedure without locals is not freed. -/
theorem rsp_vector_room_not_freed : let w : R := { rEx with regs := [.gpr 3, .xmm 6], hasLocals := false, localsize0 := 0, resv := 0, autosp := false }
    decide ((there 8 (code (prologueRSP w)) (epilogueRSP w)).sp = mach.sp) = false := by decide +kernel

/-- System V with OPTION WIN64:2: the reserved space is not freed. -/
theorem sysv_reserved_not_freed :
    (there 8 (prologueSysv { sEx with resstack := 32 }) (epilogueSysv { sEx with resstack := 32 })).sp = mach.sp - 32 := by decide +kernel

/-- System V, red zone: the vector registers are stored upwards from the stack pointer, over the pushed registers. -/
theorem sysv_redzone_overwrites : let s : S := { sEx with redzone := true, localsize := 16 }
    decide ((there 8 (prologueSysv s) (epilogueSysv s)).gpr 12 = mach.gpr 12) = false := by decide +kernel

/-- 64-bit procedure without FRAME and OPTION WIN64:2: the epilogue frees space that was never reserved, before it pops. -/
theorem generic_auto64_wrong : let g : G := { gEx with regs := [3], auto64 := true, resv := 32, fpo := true }
    (there 8 (prologueGen g) (epilogueGen g)).sp = mach.sp + 32
    ∧ decide ((there 8 (prologueGen g) (epilogueGen g)).gpr 3 = mach.gpr 3) = false := by decide +kernel

end Verif.Frame
