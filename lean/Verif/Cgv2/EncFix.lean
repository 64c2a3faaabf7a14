import Verif.Cgv2.EncProps

/-!
# C48: RIP-relative operands reach their symbol

The fixup record of a RIP-relative memory operand tells the linker where the displacement is
(`locofs`) and how far it is from there to the end of the instruction (`addbytes`).
-/

namespace Verif.Cgv2

open Isa

/-- The operands with the displacement of operand `k` replaced. -/
def setLo (o : Nat → Opnd) (k : Nat) (v : Int) : Nat → Opnd :=
  fun i => if i = k then { o i with lo := v } else o i

/-- What a linker does: four bytes at `p` replaced by `v`, low byte first. -/
def patch4 (bs : List Nat) (p : Nat) (v : Int) : List Nat :=
  bs.take p ++ [(v % 2 ^ 32).toNat % 256, (v % 2 ^ 32).toNat / 256 % 256,
    (v % 2 ^ 32).toNat / 65536 % 256, (v % 2 ^ 32).toNat / 16777216 % 256] ++ bs.drop (p + 4)

section
variable (o : Nat → Opnd) (k : Nat) (v : Int) (i : Nat)

theorem setLo_base : (setLo o k v i).base = (o i).base := by unfold setLo; split <;> rfl
theorem setLo_idx : (setLo o k v i).idx = (o i).idx := by unfold setLo; split <;> rfl
theorem setLo_ind : (setLo o k v i).indirect = (o i).indirect := by unfold setLo; split <;> rfl
theorem setLo_data : (setLo o k v i).data = (o i).data := by unfold setLo; split <;> rfl
theorem setLo_memQ : (setLo o k v i).memQword = (o i).memQword := by unfold setLo; split <;> rfl

theorem setLo_above (n : Nat) : regAbove (setLo o k v i) n = regAbove (o i) n := by
  unfold regAbove; rw [setLo_base]

theorem setLo_same : setLo o k v k = { o k with lo := v } := by simp [setLo]

end

theorem isReg_setLo {t : OpType} {o : Nat → Opnd} {k i : Nat} {v : Int} {n : Nat} :
    IsReg t (setLo o k v i) n ↔ IsReg t (o i) n := by
  unfold IsReg
  rw [setLo_base, setLo_ind, setLo_idx]

theorem buildVEX_setLo (r : Instr) (o : Nat → Opnd) (k : Nat) (v : Int) (a b : Bool) :
    buildVEX r (setLo o k v) a b = buildVEX r o a b := by
  unfold buildVEX vexV
  simp only [setLo_base, setLo_above, setLo_ind]

theorem buildEVEX_setLo (r : Instr) (o : Nat → Opnd) (k : Nat) (v : Int) (a b d : Bool) (c : Ctx) :
    buildEVEX r (setLo o k v) a b d c = buildEVEX r o a b d c := by
  unfold buildEVEX
  simp only [setLo_base, setLo_above, setLo_ind, setLo_idx]

theorem buildModRM_setLo (r : Instr) (o : Nat → Opnd) (k : Nat) (v : Int) (a : Bool) :
    buildModRM r (setLo o k v) a = buildModRM r o a := by
  unfold buildModRM
  simp only [setLo_base]

theorem buildREX_setLo (r : Instr) (o : Nat → Opnd) (k : Nat) (v : Int) (a : Nat) :
    buildREX a r (setLo o k v) = buildREX a r o := by
  unfold buildREX
  simp only [setLo_above, setLo_memQ]

theorem opcodeBytes_setLo (r : Instr) (o : Nat → Opnd) (k : Nat) (v : Int) :
    opcodeBytes r (setLo o k v) = opcodeBytes r o := by
  unfold opcodeBytes
  simp only [setLo_base]

theorem immBytes_setLo (r : Instr) (o : Nat → Opnd) (k : Nat) (v : Int) :
    immBytes r (setLo o k v) = immBytes r o := by
  unfold immBytes
  simp only [setLo_data]

theorem vexPart_setLo (r : Instr) (o : Nat → Opnd) (k : Nat) (v w : Int) (c : Ctx) (me : MemEnc) :
    vexPart r (setLo o k v) c { me with lo := w } = vexPart r o c me := by
  unfold vexPart
  simp only [buildVEX_setLo, buildEVEX_setLo]

theorem buildMem_rr {r : Instr} {x : Opnd} {c : Ctx} {me : MemEnc} (h : buildMem r x c = some me) :
    me.needRR = (addrRegs r x).2.2 := by
  unfold buildMem at h
  rcases hA : addrRegs r x with ⟨b0, i, rr⟩
  rw [hA] at h
  simp only [Option.ite_none_left_eq_some] at h
  obtain ⟨_, _, _, _, h⟩ := h
  injection h with h
  rw [← h]

/-- A RIP-relative address is built from its displacement in one place only. -/
theorem buildMem_rip (r : Instr) (x : Opnd) (c : Ctx) (vsib : Bool) (s : Nat) (d : Int) (w : Nat)
    (h : IsMem c.m64 vsib x none none s d true w) (hvs : has r.evexflags EVEX_VSIBF = false)
    (hv2 : vsib = false) (hev : c.evexFlag = false) (v : Int) (hv : -2 ^ 31 ≤ v ∧ v < 2 ^ 31) :
    ∃ me, buildMem r x c = some me ∧ me.dispSize = 4 ∧ me.lo = d ∧
      buildMem r { x with lo := v } c = some { me with lo := v } := by
  obtain ⟨e, he, hne, hmf, h32, hem⟩ := expMem_some c.m64 r none none true (by simp) (by simp)
    (fun _ => hvs) (fun _ => rfl) (fun _ => rfl)
  have h' : IsMem c.m64 vsib { x with lo := v } none none s v true w := by
    have := h
    refine ⟨h.hbase, h.hindex, ⟨rfl, hv.1, hv.2⟩, h.hwidth, h.h32, h.hsym, h.hrip, h.hripi⟩
  have hp : ∀ y : Opnd, y.sym = x.sym → dispPart e.flags r y c = (4, 0, y.lo) := by
    intro y _
    unfold dispPart
    rw [h32, compDisp_false _ hev]
    simp
  obtain ⟨rr, e1⟩ := buildMem_eq r x c vsib none none s d true w h (by simp [hvs]) (by simp [hv2]) e he hne
  obtain ⟨rr', e2⟩ := buildMem_eq r _ c vsib none none s v true w h' (by simp [hvs]) (by simp [hv2]) e he hne
  have hrr : rr = rr' := by
    have a1 : rr = (addrRegs r x).2.2 := buildMem_rr e1
    have a2 : rr' = (addrRegs r { x with lo := v }).2.2 := buildMem_rr e2
    rw [a1, a2]; rfl
  refine ⟨_, e1, ?_, ?_, ?_⟩
  · show (dispPart e.flags r x c).1 = 4
    rw [hp x rfl]
  · show (dispPart e.flags r x c).2.2 = d
    rw [hp x rfl]; exact h.hdisp.1
  · rw [e2, hrr]
    unfold memResult
    simp only [hp x rfl, hp { x with lo := v } rfl]

theorem leBytes4 (n : Nat) : leBytes 4 n = [n % 256, n / 256 % 256, n / 65536 % 256, n / 16777216 % 256] := by
  simp only [leBytes, Nat.div_div_eq_div_mul]

theorem dispBytes4 (v : Int) (hi : Nat) : dispBytes 4 v hi =
    [(v % 2 ^ 32).toNat % 256, (v % 2 ^ 32).toNat / 256 % 256, (v % 2 ^ 32).toNat / 65536 % 256,
      (v % 2 ^ 32).toNat / 16777216 % 256] := by
  unfold dispBytes
  rw [leBytes4]
  generalize (v % 2 ^ 32).toNat = n
  congr 1
  · omega
  · congr 1
    · omega
    · congr 1
      · omega
      · congr 1; omega

theorem front_setLo (r : Instr) (o : Nat → Opnd) (c : Ctx) (k : Nat) (v : Int) (fr : List Nat) (me : MemEnc)
    (hm : memPart r o { c with broad := promoteBroadcast r c.broad } = some me)
    (hm' : memPart r (setLo o k v) { c with broad := promoteBroadcast r c.broad } =
      some { me with lo := v })
    (h : front r o c = some (fr, me)) : front r (setLo o k v) c = some (fr, { me with lo := v }) := by
  unfold front at h ⊢
  simp only [hm] at h
  simp only [hm', vexPart_setLo, buildModRM_setLo, buildREX_setLo, opcodeBytes_setLo]
  cases hvx : vexPart r o { c with broad := promoteBroadcast r c.broad } me with
  | none => simp only [hvx] at h; exact absurd h (by simp)
  | some vx =>
    simp only [hvx, Option.ite_none_left_eq_some] at h ⊢
    refine ⟨h.1, ?_⟩
    replace h := h.2
    cases hi : insPrefix r c.pfx with
    | none => simp only [hi] at h; exact absurd h (by simp)
    | some ip =>
      cases hs : segPrefix r { c with broad := promoteBroadcast r c.broad } with
      | none => simp only [hi, hs] at h; exact absurd h (by simp)
      | some sp =>
        simp only [hi, hs] at h ⊢
        injection h with h
        injection h with h _
        rw [← h]

theorem front_me {r : Instr} {o : Nat → Opnd} {c : Ctx} {fr : List Nat} {me : MemEnc}
    (h : front r o c = some (fr, me)) :
    memPart r o { c with broad := promoteBroadcast r c.broad } = some me := by
  unfold front at h
  simp only at h
  cases hm : memPart r o { c with broad := promoteBroadcast r c.broad } with
  | none => simp only [hm] at h; exact absurd h (by simp)
  | some me' =>
    simp only [hm] at h
    cases hvx : vexPart r o { c with broad := promoteBroadcast r c.broad } me' with
    | none => simp only [hvx] at h; exact absurd h (by simp)
    | some vx =>
      simp only [hvx, Option.ite_none_left_eq_some] at h
      replace h := h.2
      cases hi : insPrefix r c.pfx with
      | none => simp only [hi] at h; exact absurd h (by simp)
      | some ip =>
        cases hs : segPrefix r { c with broad := promoteBroadcast r c.broad } with
        | none => simp only [hi, hs] at h; exact absurd h (by simp)
        | some sp =>
          simp only [hi, hs] at h
          injection h with h
          injection h with _ h
          rw [h]

/-- Where the fixup points: four bytes inside the instruction which hold the displacement written,
`addbytes` before the end of the instruction; and replacing them gives the instruction with that
displacement. -/
theorem rip_patch (r : Instr) (o : Nat → Opnd) (c : Ctx) (s : Nat) (d : Int) (w : Nat)
    (hmo : r.memOpnd < 3)
    (h : IsMem c.m64 false (o r.memOpnd) none none s d true w)
    (hvs : has r.evexflags EVEX_VSIBF = false) (hev : c.evexFlag = false)
    (v : Int) (hv : -2 ^ 31 ≤ v ∧ v < 2 ^ 31) (bs : List Nat) (he : emit r o c = some bs)
    (al : Bool) (hal : r.memOpnd = 2 → al = true) (ofs : Nat) :
    ∃ p, ripFixup r o c al ofs = some (ofs + p, bs.length - p) ∧ p + 4 ≤ bs.length ∧
      patch4 bs p d = bs ∧ emit r (setLo o r.memOpnd v) c = some (patch4 bs p v) := by
  unfold emit at he
  cases hf : front r o c with
  | none => rw [hf] at he; exact absurd he (by simp)
  | some q =>
    obtain ⟨fr, me⟩ := q
    rw [hf] at he
    simp only [Option.some.injEq] at he
    have hm := front_me hf
    have hpos : (r.memOpnd == NO_MEM) = false ∧ (r.memOpnd < NO_MEM) := by
      constructor
      · simp [NO_MEM]; omega
      · simp [NO_MEM]; omega
    obtain ⟨me', b1, b2, b3, b4⟩ := buildMem_rip r (o r.memOpnd) { c with broad := promoteBroadcast r c.broad }
      false s d w h hvs rfl hev v hv
    have hm2 : memPart r o { c with broad := promoteBroadcast r c.broad } = some me' := by
      unfold memPart; rw [hpos.1, if_neg (by simp), if_pos hpos.2]; exact b1
    have heq : me' = me := by rw [hm] at hm2; injection hm2 with h; exact h.symm
    subst heq
    have hm3 : memPart r (setLo o r.memOpnd v) { c with broad := promoteBroadcast r c.broad } =
        some { me' with lo := v } := by
      unfold memPart; rw [hpos.1, if_neg (by simp), if_pos hpos.2, setLo_same]; exact b4
    have hf' := front_setLo r o c r.memOpnd v fr me' hm hm3 hf
    rw [b2, b3, dispBytes4] at he
    refine ⟨fr.length, ?_, ?_, ?_, ?_⟩
    · unfold ripFixup
      rw [hf]
      simp only [b2, b3, dispBytes4]
      have : (r.memOpnd == 0 || r.memOpnd == 1 || (r.memOpnd == 2 && al)) = true := by
        rcases (by omega : r.memOpnd = 0 ∨ r.memOpnd = 1 ∨ r.memOpnd = 2) with h | h | h
        · simp [h]
        · simp [h]
        · simp [h, hal h]
      rw [this, if_pos rfl, ← he]
      simp only [List.length_append, List.length_cons, List.length_nil]
      congr 2
      omega
    · rw [← he]; simp
    · rw [← he]
      unfold patch4
      simp
    · unfold emit
      rw [hf']
      simp only [b2, dispBytes4, immBytes_setLo]
      rw [← he]
      unfold patch4
      simp

theorem operands_setLo {r : Instr} {f : Form} {o : Nat → Opnd} {c : Ctx} {k : Kind} {s : Nat} {d : Int}
    {w : Nat} (ops : Operands r f o c k (.mem none none s d true w)) (v : Int)
    (hv : -2 ^ 31 ≤ v ∧ v < 2 ^ 31) :
    Operands r f (setLo o f.rm v) c k (.mem none none s v true w) := by
  refine ⟨?_, ?_, ops.rmFits, ?_, ?_, ?_, ops.pfx, ops.seg⟩
  · intro i hi
    obtain ⟨n, hn, hf⟩ := ops.reg i hi
    exact ⟨n, isReg_setLo.mpr hn, hf⟩
  · obtain ⟨hm, h⟩ := ops.hrm
    refine ⟨hm, ?_⟩
    rw [setLo_same]
    exact ⟨h.hbase, h.hindex, ⟨rfl, hv.1, hv.2⟩, h.hwidth, h.h32, h.hsym, h.hrip, h.hripi⟩
  · intro hvs
    exact absurd rfl (ops.vsib hvs _ _ _ _ _)
  · intro i hi
    obtain ⟨n, hn, hf⟩ := ops.v i hi
    exact ⟨n, isReg_setLo.mpr hn, hf⟩
  · intro i hi
    obtain ⟨n, hn, hf, hd⟩ := ops.is4 i hi
    exact ⟨n, isReg_setLo.mpr hn, hf, by rw [setLo_data]; exact hd⟩

/-- The memory operand of a shipped row is one of the first three. -/
theorem shipped_memOpnd (r : Instr) (h : r ∈ instrTable) (hm : r.memOpnd < 4) : r.memOpnd < 3 := by
  have hall : instrTable.all (fun r => decide (r.memOpnd < 4 → r.memOpnd < 3)) = true := by
    decide +kernel
  exact of_decide_eq_true (List.all_eq_true.mp hall r h) hm

/-- What the linker makes of an instruction at address `a` which refers to a symbol at address `t`:
at the place the fixup names it writes the distance from the end of the instruction (the place plus
`addbytes`) to `t`; then the instruction is the same but for its displacement, and the address the
processor computes (end of the instruction plus displacement) is `t`. -/
def Reaches (r : Instr) (f : Form) (o : Nat → Opnd) (c : Ctx) (bs : List Nat) (al : Bool) (ofs : Nat)
    (k : Kind) (a t : Int) : Prop :=
  ∃ loc add rd disp, ripFixup r o c al ofs = some (ofs + loc, add) ∧ loc + 4 ≤ bs.length ∧
    readForm f c.m64 (patch4 bs loc (t - (a + loc + add))) = some rd ∧ rd.kind = k ∧
    rd.rm = .mem none none 1 disp true 8 ∧ a + bs.length + disp = t ∧ Says r f (setLo o f.rm disp) c rd

theorem rip_generic (r : Instr) (hr : r ∈ instrTable) (f : Form) (isV : Bool)
    (hrow : rowCommon r f isV = true) (o : Nat → Opnd) (c : Ctx) (k : Kind) (s : Nat) (d : Int) (w : Nat)
    (ops : Operands r f o c k (.mem none none s d true w)) (hev : c.evexFlag = false)
    (bs : List Nat) (he : emit r o c = some bs)
    (al : Bool) (hal : r.memOpnd = 2 → al = true) (ofs : Nat) (a t : Int)
    (hrange : -2 ^ 31 ≤ t - (a + bs.length) ∧ t - (a + bs.length) < 2 ^ 31)
    (hread : Operands r f (setLo o f.rm (t - (a + bs.length))) c k
        (.mem none none s (t - (a + bs.length)) true w) →
      ∃ bs' rd, emit r (setLo o f.rm (t - (a + bs.length))) c = some bs' ∧ readForm f c.m64 bs' = some rd ∧
        rd.kind = k ∧ rd.rm = .mem none none s (t - (a + bs.length)) true w ∧
        Says r f (setLo o f.rm (t - (a + bs.length))) c rd) :
    Reaches r f o c bs al ofs k a t := by
  obtain ⟨hmt, hM⟩ := ops.hrm
  obtain ⟨_, hmo, hlt, _⟩ := buildModRM_mem r f o isV hrow hmt
  have hvs : f.vsib = false := by
    cases hx : f.vsib with
    | false => rfl
    | true => exact absurd rfl (ops.vsib hx _ _ _ _ _)
  have hevs : has r.evexflags EVEX_VSIBF = false := by
    unfold rowCommon at hrow
    simp only [Bool.and_eq_true] at hrow
    have := hrow.2
    rw [hvs] at this
    simpa using this
  have h3 := shipped_memOpnd r hr (by omega)
  rw [hvs] at hM
  have hs : s = 1 := hM.hindex.2.2
  have hw : w = 8 := by
    have h64 : c.m64 = true := by
      have := hM.hrip
      cases hx : c.m64 with
      | true => rfl
      | false => rw [hx] at this; simp at this
    rcases hM.hwidth with h | ⟨_, _, h, _⟩
    · rw [h64] at h; simpa using h
    · exact absurd rfl h
  subst hs hw
  obtain ⟨p, q1, q2, _, q4⟩ := rip_patch r o c 1 d 8 h3 (by rw [hmo]; exact hM) hevs hev
    (t - (a + bs.length)) hrange bs he al hal ofs
  obtain ⟨bs', rd, e1, e2, e3, e4, e5⟩ := hread (operands_setLo ops _ hrange)
  rw [hmo] at q4
  rw [q4] at e1
  injection e1 with e1
  refine ⟨p, bs.length - p, rd, t - (a + bs.length), q1, q2, ?_, e3, e4, by omega, e5⟩
  have : a + (p : Int) + ((bs.length - p : Nat) : Int) = a + bs.length := by omega
  rw [this, e1]
  exact e2

theorem shipped_gather_vsib (r : Instr) (h : r ∈ instrTable) (f : Form) (hm : manual r = some (.rm f))
    (hg : isGather r = true) : f.vsib = true := by
  have hall : instrTable.all (fun r => !isGather r || (match manual r with
      | some (.rm f) => f.vsib
      | _ => true)) = true := by decide +kernel
  have := List.all_eq_true.mp hall r h
  rw [hm, hg] at this
  simpa using this

/-- C48, legacy encodings. -/
theorem shipped_rip_legacy (r : Instr) (h : r ∈ instrTable) (f : Form) (e : Enc)
    (hm : manual r = some (.rm f)) (he : f.legacy = some e) (o : Nat → Opnd) (c : Ctx) (s : Nat) (d : Int)
    (w : Nat) (hev : c.evexFlag = false) (ops : Operands r f o c .legacy (.mem none none s d true w))
    (hpm : has r.flags REXP_MEMF = true → (o f.rm).memQword = (r.op f.rm == .M64))
    (al : Bool) (hal : r.memOpnd = 2 → al = true) (ofs : Nat) (a t : Int) :
    ∃ bs, emit r o c = some bs ∧
      (-2 ^ 31 ≤ t - (a + bs.length) ∧ t - (a + bs.length) < 2 ^ 31 →
        Reaches r f o c bs al ofs .legacy a t) := by
  have h64 : c.m64 = true := by
    have := ops.hrm.2.hrip
    cases hx : c.m64 with
    | true => rfl
    | false => rw [hx] at this; simp at this
  obtain ⟨bs, rd, e1, _⟩ := shipped_legacy r h f e hm he o c _ hev ops (fun _ => h64) hpm
  refine ⟨bs, e1, fun hr => ?_⟩
  have hrow : rowCommon r f false = true := by
    have := row_ok h
    unfold rowMatch at this
    rw [hm] at this
    simp only [he, Bool.and_eq_true] at this
    have := this.1.1.2
    unfold okLegacy at this
    simp only [Bool.and_eq_true] at this
    exact this.1.1.1.1.1.1.1.1.1.1.1.1.1.1.1
  refine rip_generic r h f false hrow o c .legacy s d w ops hev bs e1 al hal ofs a t hr fun ops' => ?_
  obtain ⟨bs', rd', f1, f2, f3, f4, f5, _⟩ := shipped_legacy r h f e hm he _ c _ hev ops' (fun _ => h64)
    (by intro hh; rw [setLo_memQ]; exact hpm hh)
  exact ⟨bs', rd', f1, f2, f3, f4, f5⟩

/-- C48, VEX encodings. -/
theorem shipped_rip_vex (r : Instr) (h : r ∈ instrTable) (f : Form) (e : Enc)
    (hm : manual r = some (.rm f)) (he : f.vex = some e) (o : Nat → Opnd) (c : Ctx) (s : Nat) (d : Int)
    (w : Nat) (hev : c.evexFlag = false) (ops : Operands r f o c .vex (.mem none none s d true w))
    (al : Bool) (hal : r.memOpnd = 2 → al = true) (ofs : Nat) (a t : Int) :
    ∃ bs, emit r o c = some bs ∧
      (-2 ^ 31 ≤ t - (a + bs.length) ∧ t - (a + bs.length) < 2 ^ 31 →
        Reaches r f o c bs al ofs .vex a t) := by
  have hrow : rowCommon r f true = true ∧ (srcOk r f || srcLowOk r f) = true := by
    have := row_ok h
    unfold rowMatch at this
    rw [hm] at this
    simp only [he, Bool.and_eq_true] at this
    obtain ⟨⟨_, h2, h3⟩, _⟩ := this
    refine ⟨?_, h3⟩
    unfold okVex at h2
    simp only [Bool.and_eq_true] at h2
    exact h2.1.1.1.1.1.1.1.1.1.1.1.1.1.1.1.1.1.1
  have hng : isGather r = true → ∀ P : Prop, P := by
    intro hg P
    have := shipped_gather_vsib r h f hm hg
    exact absurd rfl (ops.vsib this _ _ _ _ _)
  obtain ⟨bs, rd, e1, _⟩ := shipped_vex_partial r h f e hm he o c _ hev ops (fun hg => hng hg _)
  refine ⟨bs, e1, fun hr => ?_⟩
  refine rip_generic r h f true hrow.1 o c .vex s d w ops hev bs e1 al hal ofs a t hr fun ops' => ?_
  obtain ⟨bs', rd', f1, f2, f3, f4, f5⟩ := shipped_vex_partial r h f e hm he _ c _ hev ops' (fun hg => hng hg _)
  exact ⟨bs', rd', f1, f2, f3, f4, f5⟩

/-- C48, rows with an EVEX encoding only, no decorator written. -/
theorem shipped_rip_evex_partial (r : Instr) (h : r ∈ instrTable) (f : Form) (e : Enc)
    (hm : manual r = some (.rm f)) (he : f.evex = some e) (o : Nat → Opnd) (c : Ctx) (s : Nat) (d : Int)
    (w : Nat) (hev : c.evexFlag = false) (hd : Deco r e c) (ha : Allowed r (promoted r c))
    (ops : Operands r f o c .evex (.mem none none s d true w)) (hind : Indirect r f o)
    (al : Bool) (hal : r.memOpnd = 2 → al = true) (ofs : Nat) (a t : Int) :
    ∃ bs, emit r o c = some bs ∧
      (-2 ^ 31 ≤ t - (a + bs.length) ∧ t - (a + bs.length) < 2 ^ 31 →
        Reaches r f o c bs al ofs .evex a t) := by
  have hrow : rowCommon r f true = true := by
    have := row_ok h
    unfold rowMatch at this
    rw [hm] at this
    simp only [he, Bool.and_eq_true] at this
    obtain ⟨_, h2, h3⟩ := this
    unfold okEvex at h2
    simp only [Bool.and_eq_true] at h2
    exact h2.1.1.1.1.1.1.1.1.1.1.1.1.1.1.1.1.1.1.1.1.1
  obtain ⟨bs, rd, e1, _⟩ := shipped_evex_partial r h f e hm he o c _ hd ha ops hind
    (Or.inr (Or.inr ⟨hev, Or.inr (Or.inr (Or.inl rfl))⟩))
  refine ⟨bs, e1, fun hr => ?_⟩
  refine rip_generic r h f true hrow o c .evex s d w ops hev bs e1 al hal ofs a t hr fun ops' => ?_
  have hind' : Indirect r f (setLo o f.rm (t - (a + bs.length))) := by
    intro h1 h2
    rw [setLo_ind]
    exact hind h1 h2
  obtain ⟨bs', rd', f1, f2, f3, f4, f5, _⟩ := shipped_evex_partial r h f e hm he _ c _ hd ha ops' hind'
    (Or.inr (Or.inr ⟨hev, Or.inr (Or.inr (Or.inl rfl))⟩))
  exact ⟨bs', rd', f1, f2, f3, f4, f5⟩

end Verif.Cgv2
