import Verif.Cpu.Spec
/-!
# C76: CPU directives
-/
namespace Verif.Cpu

theorem setting_pm (a : Setting) : a.bits &&& P_PM = if a.priv then P_PM else 0#16 := by
  obtain ⟨l, p, f, e⟩ := a
  cases l <;> cases p <;> cases f <;> cases e <;> decide

theorem setting_cpu (a : Setting) : a.bits &&& P_CPU_MASK = a.level.bits := by
  obtain ⟨l, p, f, e⟩ := a
  cases l <;> cases p <;> cases f <;> cases e <;> decide

theorem setting_fpu (a : Setting) : a.bits &&& P_FPU_MASK = a.fpu.bits := by
  obtain ⟨l, p, f, e⟩ := a
  cases l <;> cases p <;> cases f <;> cases e <;> decide

theorem setting_ext (a : Setting) : a.bits &&& P_EXT_MASK = a.exts.bits := by
  obtain ⟨l, p, f, e⟩ := a
  cases l <;> cases p <;> cases f <;> cases e <;> decide

def extBits : Option Ext → Info
  | none => 0#16
  | some e => e.bits

theorem need_pm (n : Need) : n.bits &&& P_PM = if n.priv then P_PM else 0#16 := by
  obtain ⟨l, p, f, e⟩ := n
  rcases e with _ | (_ | _ | _ | _ | _ | _ | _ | _) <;> cases l <;> cases p <;> cases f <;> decide

theorem need_cpu (n : Need) : n.bits &&& P_CPU_MASK = n.level.bits := by
  obtain ⟨l, p, f, e⟩ := n
  rcases e with _ | (_ | _ | _ | _ | _ | _ | _ | _) <;> cases l <;> cases p <;> cases f <;> decide

theorem need_fpu (n : Need) : n.bits &&& P_FPU_MASK = n.fpu.needBits := by
  obtain ⟨l, p, f, e⟩ := n
  rcases e with _ | (_ | _ | _ | _ | _ | _ | _ | _) <;> cases l <;> cases p <;> cases f <;> decide

theorem need_ext (n : Need) : n.bits &&& P_EXT_MASK = extBits n.ext := by
  obtain ⟨l, p, f, e⟩ := n
  rcases e with _ | (_ | _ | _ | _ | _ | _ | _ | _) <;> cases l <;> cases p <;> cases f <;> decide

/-- One directive. -/
theorem setCPU_change (a : Setting) (d : Dir) : setCPU a.bits d.info = (a.change d.meaning).bits := by
  obtain ⟨l, p, f, e⟩ := a
  cases d <;> cases l <;> cases p <;> cases f <;> cases e <;> decide +kernel

/-- The directives as run by the assembler. -/
def runDirs (s : St) (ds : List Dir) : St := ds.foldl (fun s d => (directive s d).1) s

theorem directive_curr (s : St) (d : Dir) : (directive s d).1.curr = setCPU s.curr d.info := by
  unfold directive; simp only
  split
  · rfl
  · simp only; split <;> rfl

theorem runDirs_curr (s : St) (a : Setting) (h : s.curr = a.bits) (ds : List Dir) : (runDirs s ds).curr = (a.after ds).bits := by
  induction ds generalizing s a with
  | nil => exact h
  | cons d ds ih =>
    exact ih _ (a.change d.meaning) (by rw [directive_curr, h, setCPU_change])

theorem level_le (a b : Level) : a.bits < b.bits ↔ a.rank < b.rank := by cases a <;> cases b <;> decide
theorem fpu_le (a b : Fpu) : a.bits < b.needBits ↔ a.rank < b.rank := by cases a <;> cases b <;> decide
theorem ext_le (x : Exts) (e : Option Ext) (hk : e ≠ some .now3d) : x.bits < extBits e ↔ ∃ y, e = some y ∧ x.has y = false := by
  rcases e with _ | e
  · cases x <;> simp [extBits]
  · cases e <;> cases x <;> first | (exact absurd rfl hk) | (simp [Exts.has, extBits, Ext.bits, Exts.bits, P_MMX, P_SSEALL, P_EXT_ALL, P_K3D, P_SSE1, P_SSE2, P_SSE3, P_SSSE3, P_SSE4, P_AVX])

theorem accepts_iff (a : Setting) (n : Need) (hk : n.ext ≠ some .now3d) : accepts a.bits n.bits = true ↔ a.allows n := by
  unfold accepts Setting.allows
  rw [setting_pm, setting_cpu, setting_fpu, setting_ext, need_pm, need_cpu, need_fpu, need_ext]
  simp only [Bool.and_eq_true, Bool.not_eq_true', Bool.or_eq_false_iff, decide_eq_false_iff_not, level_le, fpu_le, ext_le _ _ hk]
  have hp : (¬ (if a.priv = true then P_PM else 0#16) < (if n.priv = true then P_PM else 0#16)) ↔ (n.priv = true → a.priv = true) := by
    cases a.priv <;> cases n.priv <;> decide
  rw [hp]
  constructor
  · rintro ⟨h1, ⟨h2, h3⟩, h4⟩
    refine ⟨by omega, h1, by omega, fun e he => ?_⟩
    by_cases hx : a.exts.has e = true
    · exact hx
    · exact absurd ⟨e, he, by simpa using hx⟩ h4
  · rintro ⟨h1, h2, h3, h4⟩
    refine ⟨h2, ⟨by omega, by omega⟩, ?_⟩
    rintro ⟨y, hy, hf⟩
    rw [h4 y hy] at hf; cases hf

/-- **C76** (instructions). After any CPU directives, an instruction is accepted iff the setting made by them allows it.
Missing: 3DNow instructions (see `C76_defect_3dnow`), and the instructions of the second table (`C76_defect_v2`). -/
theorem C76_instructions_partial (s : St) (a : Setting) (h : s.curr = a.bits) (ds : List Dir) (n : Need)
    (hk : n.ext ≠ some .now3d) : accepts (runDirs s ds).curr n.bits = true ↔ (a.after ds).allows n := by
  rw [runDirs_curr s a h, accepts_iff _ _ hk]

/-- **C76** (registers). After any CPU directives, a register is accepted iff the processor has it and its extension has been
selected. -/
theorem C76_registers (s : St) (a : Setting) (h : s.curr = a.bits) (ds : List Dir) (l : Level) (e : Option Ext) :
    acceptsReg (runDirs s ds).curr (l.bits ||| extBits e) = true ↔ (a.after ds).allows ⟨l, false, .none, e⟩ := by
  rw [runDirs_curr s a h]
  generalize a.after ds = b
  have h1 : (l.bits ||| extBits e) &&& P_EXT_MASK = extBits e := by
    rcases e with _ | (_ | _ | _ | _ | _ | _ | _ | _) <;> cases l <;> decide
  have h2 : (l.bits ||| extBits e) &&& P_CPU_MASK = l.bits := by
    rcases e with _ | (_ | _ | _ | _ | _ | _ | _ | _) <;> cases l <;> decide
  have h3 : (l.bits ||| extBits e) &&& b.bits &&& P_EXT_MASK = extBits e &&& b.exts.bits := by
    have hx : b.exts.bits &&& P_EXT_MASK = b.exts.bits := by cases b.exts <;> decide
    rw [BitVec.and_assoc, setting_ext]
    conv => lhs; rw [← hx]
    rw [BitVec.and_comm b.exts.bits, ← BitVec.and_assoc, h1]
  unfold acceptsReg Setting.allows
  rw [h1, h2, h3, setting_cpu]
  simp only [Bool.not_eq_true', Bool.or_eq_false_iff, Bool.and_eq_false_iff, decide_eq_false_iff_not, level_le]
  have h4 : (¬extBits e ≠ 0#16 ∨ ¬extBits e &&& b.exts.bits = 0#16) ↔ ∀ y, e = some y → b.exts.has y = true := by
    generalize b.exts = x
    rcases e with _ | e
    · simp [extBits]
    · cases e <;> cases x <;> simp [Exts.has, extBits, Ext.bits, Exts.bits, P_MMX, P_SSEALL, P_EXT_ALL, P_K3D, P_SSE1, P_SSE2, P_SSE3, P_SSSE3, P_SSE4, P_AVX]
  rw [h4]
  constructor
  · rintro ⟨h5, h6⟩
    exact ⟨by simpa using h6, by simp, by simp [Fpu.rank], h5⟩
  · rintro ⟨h5, _, _, h6⟩
    exact ⟨h6, by simpa using h5⟩

/-- Bits of `@Cpu`: bits 0-6 for the processors, 7 for privileged instructions, 8, 10, 11 for the coprocessors. -/
def symHas (v : Info) (i : Nat) : Prop := v.getLsbD i = true

/-- **C76** (`@Cpu`). The processor bits of `@Cpu` are set up to that of the processor, the coprocessor bits up to the
coprocessor, bit 7 with privileged instructions. Missing: bit 5 (586) with `.686` and `.X64`, where it is not set. -/
theorem C76_symbol_partial (s : St) (a : Setting) (h : s.curr = a.bits) (ds : List Dir) :
    let v := cpuSym (runDirs s ds).curr
    let b := a.after ds
    (∀ i, i < 7 → ¬ (i = 5 ∧ 6 ≤ b.level.rank) → (symHas v i ↔ i ≤ b.level.rank)) ∧
    (symHas v 7 ↔ b.priv = true) ∧
    (symHas v 8 ↔ 1 ≤ b.fpu.rank) ∧ (symHas v 10 ↔ 2 ≤ b.fpu.rank) ∧ (symHas v 11 ↔ 3 ≤ b.fpu.rank) := by
  intro v b
  have hv : v = cpuSym b.bits := by simp only [v, b, runDirs_curr s a h]
  rw [hv]
  generalize b = c
  obtain ⟨l, p, f, e⟩ := c
  unfold symHas
  cases l <;> cases p <;> cases f <;> cases e <;> decide +kernel

/-- **C76** (offset size). Without `.MODEL` and outside of segments, a CPU directive makes the largest size the processor has the
default for segments. -/
theorem C76_default_size (s : St) (a : Setting) (h : s.curr = a.bits) (d : Dir) (hm : s.hasModel = false) (hs : s.seg = none) :
    (directive s d).2 = false ∧ (directive s d).1.defOfs =
      (if (a.change d.meaning).level.rank = 7 then .use64 else if 3 ≤ (a.change d.meaning).level.rank then .use32 else .use16) := by
  have hd : directive s d = ({ s with curr := setCPU s.curr d.info, defOfs := defaultOfs (setCPU s.curr d.info) }, false) := by
    unfold directive; simp [hm, hs, setOfssize]
  rw [hd, h, setCPU_change]
  refine ⟨rfl, ?_⟩
  simp only [defaultOfs, setting_cpu]
  cases (a.change d.meaning).level <;> decide

/-- **C76** (offset size). Inside of a segment, without `.MODEL`, a directive is an error iff the processor does not have the
offset size of the segment; the default stays as it is. -/
theorem C76_segment (s : St) (a : Setting) (h : s.curr = a.bits) (d : Dir) (hm : s.hasModel = false) (o : Ofs)
    (hs : s.seg = some o) : (directive s d).1.defOfs = s.defOfs ∧ ((directive s d).2 = true ↔
      (a.change d.meaning).level.rank < o.firstLevel.rank) := by
  have hd : directive s d = ({ s with curr := setCPU s.curr d.info },
      decide (setCPU s.curr d.info &&& 0xFF#16 < minCpu o)) := by
    unfold directive; simp [hm, hs, setOfssize]
  rw [hd, h, setCPU_change]
  refine ⟨rfl, ?_⟩
  simp only [decide_eq_true_eq]
  generalize a.change d.meaning = b
  clear hd h hs
  obtain ⟨l, p, f, e⟩ := b
  cases o <;> cases l <;> cases p <;> cases f <;> cases e <;> decide

/-! ## Where the code does something else -/

/-- With `.MODEL`, a processor without 32-bit mode can be selected inside of a 32-bit segment. -/
theorem C76_defect_model (s : St) (d : Dir) (hm : s.hasModel = true) : (directive s d).2 = false := by
  simp [directive, hm]

/-- 3DNow instructions are accepted with `.XMM` also: the sets of extensions are compared as numbers. -/
theorem C76_defect_3dnow (s : St) (a : Setting) (h : s.curr = a.bits) (ds : List Dir) (n : Need) (hk : n.ext = some .now3d) :
    accepts (runDirs s ds).curr n.bits = true ↔
      (a.after ds).allows { n with ext := none } ∧ ((a.after ds).exts.has .now3d = true ∨ (a.after ds).exts.has .sse1 = true) := by
  rw [runDirs_curr s a h]
  generalize a.after ds = b
  unfold accepts Setting.allows
  rw [setting_pm, setting_cpu, setting_fpu, setting_ext, need_pm, need_cpu, need_fpu, need_ext, hk]
  simp only [Bool.and_eq_true, Bool.not_eq_true', Bool.or_eq_false_iff, decide_eq_false_iff_not, level_le, fpu_le]
  have hp : (¬ (if b.priv = true then P_PM else 0#16) < (if n.priv = true then P_PM else 0#16)) ↔ (n.priv = true → b.priv = true) := by
    cases b.priv <;> cases n.priv <;> decide
  have he : (¬ b.exts.bits < extBits (some .now3d)) ↔ (b.exts.has .now3d = true ∨ b.exts.has .sse1 = true) := by
    cases b.exts <;> decide
  rw [hp, he]
  simp only [Nat.not_lt]
  constructor
  · rintro ⟨h1, ⟨h2, h3⟩, h4⟩
    exact ⟨⟨h2, h1, h3, by simp⟩, h4⟩
  · rintro ⟨⟨h2, h1, h3, _⟩, h4⟩
    exact ⟨h1, ⟨h2, h3⟩, h4⟩

/-- The instructions of the second table (MOV, LEAVE, CPUID, the FPU instructions without operands such as F2XM1, VMOVAPS …) are
accepted whatever processor, coprocessor and extension are selected: only the mode and `P` are tested. -/
theorem C76_defect_v2 (curr : Info) (o : Ofs) (n : Need) (hn : n.priv = false) (x64only x64 : Bool)
    (h1 : x64only = true → o = .use64) (h2 : o = .use64 → x64 = true) : acceptsV2 curr o x64only x64 n.bits = true := by
  unfold acceptsV2
  rw [need_pm, hn]
  have : ¬ (curr &&& P_PM < (if false = true then P_PM else 0#16)) := by simp
  cases o <;> cases x64only <;> cases x64 <;> simp_all

/-- `.MMX` takes back `.XMM`. -/
theorem C76_defect_mmx (s : St) (a : Setting) (h : s.curr = a.bits) (ds : List Dir) (n : Need) (hn : n.ext = some .sse1) :
    accepts (runDirs s (ds ++ [.xmm, .mmx])).curr n.bits = false := by
  have := C76_instructions_partial s a h (ds ++ [.xmm, .mmx]) n (by simp [hn])
  cases hx : accepts (runDirs s (ds ++ [.xmm, .mmx])).curr n.bits with
  | false => rfl
  | true =>
    have h4 := (this.mp hx).2.2.2 .sse1 hn
    simp [Setting.after, Setting.change, Dir.meaning, Exts.has] at h4

/-- The extensions selected stay when another processor is selected, although the comment in front of SetCPU says the opposite. -/
theorem C76_defect_kept (a : Setting) (d : Dir) (l : Level) (p : Bool) (hd : d.meaning = .cpu l p) (hl : l ≠ .x64) :
    (a.change d.meaning).exts = a.exts := by
  simp [hd, Setting.change, hl]

/-! ## A concrete case -/

/-- `.686p`, `.xmm`, `.no87`, `.586` from the default setting -/
example : (Setting.after ⟨.i8086, false, .i8087, .none⟩ [.d686p, .xmm, .no87, .d586]) = ⟨.i586, false, .none, .xmm⟩ := by decide
/-- ADDPS is refused with it, an MMX instruction is accepted -/
example : ¬ (⟨.i586, false, .none, .xmm⟩ : Setting).allows ⟨.i686, false, .none, some .sse1⟩ := fun h => absurd h.1 (by decide)
example : (⟨.i586, false, .none, .xmm⟩ : Setting).allows ⟨.i586, false, .none, some .mmx⟩ :=
  ⟨by decide, by simp, by decide, by intro e he; cases he; decide⟩
/-- the setting at the start: SetCPU( P_86 ) -/
example : setCPU 0#16 P_86 = (⟨.i8086, false, .i8087, .none⟩ : Setting).bits := by decide

end Verif.Cpu
