import Verif.Cgv2.EncForm

/-!
# Assembling the pieces: prefix, ModRM and immediate of one instruction
-/

namespace Verif.Cgv2

open Isa

theorem segPrefix_ok (r : Instr) (c : Ctx)
    (h : c.seg = none ∨ (has r.flags ALLOW_SEGF = true ∧
    (c.m64 = true → has r.flags ALLOW_SEGXF = false →
      c.seg = some .fs ∨ c.seg = some .gs ∨ c.seg = some .ss))) :
    ∃ sp, segPrefix r c = some sp ∧ SegBytes sp ∧ sp.headD 0 = (match c.seg with
      | none => 0
      | some s => segOverride s) := by
  unfold segPrefix
  cases hs : c.seg with
  | none => exact ⟨[], rfl, Or.inl rfl, rfl⟩
  | some s =>
    rw [hs] at h
    rcases h with h | ⟨h1, h2⟩
    · simp at h
    · refine ⟨[segByte s], ?_, Or.inr ⟨s, rfl⟩, rfl⟩
      simp only [h1, if_true]
      cases hm : c.m64 with
      | false => simp
      | true =>
        cases hx : has r.flags ALLOW_SEGXF with
        | true => simp
        | false =>
          rcases h2 hm hx with h | h | h <;> simp only [Option.some.injEq] at h <;> subst h <;> simp

/-- The bytes after the opcode. -/
def tailBytes (r : Instr) (o : Nat → Opnd) (me : MemEnc) (isV : Bool) : List Nat :=
  (me.modRM ||| buildModRM r o isV) ::
    ((if me.needSIB then [me.sib] else []) ++ dispBytes me.dispSize me.lo me.hi ++ immBytes r o)

/-- The REX byte, if there is one. -/
def rexBytes (r : Instr) (o : Nat → Opnd) (c : Ctx) (me : MemEnc) : List Nat :=
  let rex := if c.m64 then buildREX me.rex r o else me.rex
  if rex ≠ 0 then [rex] else []

/-- Row is VEX or EVEX, as `CodeGenV2` tells `BuildModRM`. -/
def rowV (r : Instr) : Bool := has r.vexflags VEXF || has r.vexflags EVEXF

theorem emit_shape (r : Instr) (o : Nat → Opnd) (c0 : Ctx) (me : MemEnc) (vex sp : List Nat)
    (hm : memPart r o { c0 with broad := promoteBroadcast r c0.broad } = some me)
    (hv : vexPart r o { c0 with broad := promoteBroadcast r c0.broad } me = some vex)
    (he : c0.evexFlag = false ∨ (r.evexflags == 0) = false)
    (hp : c0.pfx = none) (hs : segPrefix r c0 = some sp)
    (hmod : (me.needModRM || has r.flags F_MODRMF) = true) :
    emit r o c0 = some ((if me.aso then [0x67] else []) ++ (if needOSO r then [0x66] else []) ++ sp ++
      (vex ++ (mandatory1 r.mandatoryPrefix ++ (rexBytes r o c0 me ++ (mandatory2 r.mandatoryPrefix ++
        (opcodeBytes r o ++ tailBytes r o me (rowV r))))))) := by
  have hs' : segPrefix r { c0 with broad := promoteBroadcast r c0.broad } = some sp := hs
  have hi : insPrefix r ({ c0 with broad := promoteBroadcast r c0.broad } : Ctx).pfx = some [] := by
    show insPrefix r c0.pfx = _
    rw [hp]; rfl
  have he' : (({ c0 with broad := promoteBroadcast r c0.broad } : Ctx).evexFlag && r.evexflags == 0)
      = false := by
    show (c0.evexFlag && r.evexflags == 0) = false
    rcases he with h | h <;> simp [h]
  have hm64 : ({ c0 with broad := promoteBroadcast r c0.broad } : Ctx).m64 = c0.m64 := rfl
  unfold emit front
  generalize ({ c0 with broad := promoteBroadcast r c0.broad } : Ctx) = c at *
  simp only [hm, hv, he', hs', hi, hmod, Bool.false_eq_true, if_false, if_true, hm64]
  unfold tailBytes rexBytes rowV
  simp [List.append_assoc]

theorem immBytes_ok (r : Instr) (f : Form) (o : Nat → Opnd) (isV : Bool)
    (hrow : rowCommon r f isV = true)
    (his4 : ∀ i, f.is4 = some i → ∃ n, IsReg (r.op i) (o i) n ∧ n < 16 ∧ (o i).data = n) :
    ∃ ib, immBytes r o = ib ∧ takeN f.immLen ib = some (ib, []) ∧
      (∀ k n, f.imm = some (k, n) → le ib = (o k).data % 256 ^ n) ∧
      (∀ k, f.is4 = some k → IsReg (r.op k) (o k) (le ib / 16)) := by
  refine ⟨_, rfl, ?_⟩
  unfold rowCommon at hrow
  simp only [Bool.and_eq_true] at hrow
  obtain ⟨⟨⟨⟨_, h7⟩, _⟩, _⟩, _⟩ := hrow
  cases hi : f.imm with
  | some p =>
    obtain ⟨k, n⟩ := p
    cases h4 : f.is4 with
    | some j => rw [hi, h4] at h7; simp at h7
    | none =>
      rw [hi, h4] at h7
      simp only [Bool.and_eq_true] at h7
      obtain ⟨⟨⟨h1, h2⟩, h3⟩, h5⟩ := h7
      have hk : r.immOpnd = k := by simpa using h1
      have hk4 : k < 4 := by simpa using h2
      have h3' : has r.vexflags VEX_4OPNDF = false := by simpa using h3
      have hn : n = (if has r.flags IMM8_ONLYF then 1 else r.opSize) := by simpa using h5
      have hib : immBytes r o = leBytes n (o k).data := by
        unfold immBytes
        have : (k == NO_IMM) = false := by simp [NO_IMM]; omega
        simp only [hk, this, h3', Bool.false_eq_true, if_false, ← hn]
      rw [hib]
      refine ⟨?_, ?_, by intro k h; simp at h⟩
      · have hl : f.immLen = n := by unfold Form.immLen; rw [hi]
        rw [hl]
        have := takeN_append (leBytes n (o k).data) [] n (length_leBytes _ _)
        simpa using this
      · intro k' n' h
        simp only [Option.some.injEq, Prod.mk.injEq] at h
        obtain ⟨rfl, rfl⟩ := h
        exact le_leBytes _ _
  | none =>
    cases h4 : f.is4 with
    | some k =>
      rw [hi, h4] at h7
      simp only [Bool.and_eq_true] at h7
      obtain ⟨⟨⟨⟨h1, h2⟩, h3⟩, h5⟩, h6⟩ := h7
      obtain ⟨n, hn, hn16, hnd⟩ := his4 k h4
      have hk : r.immOpnd = k := by simpa using h1
      have hk4 : k < 4 := by simpa using h2
      have hib : immBytes r o = [n * 16] := by
        unfold immBytes
        have : (k == NO_IMM) = false := by simp [NO_IMM]; omega
        simp only [hk, this, h3, h5, Bool.false_eq_true, if_false, if_true, hnd, leBytes]
        have : n <<< 4 = n * 16 := by rw [Nat.shiftLeft_eq]
        have h2 : n <<< 4 % 2 ^ 64 % 256 = n * 16 := by rw [this]; omega
        rw [h2]
      rw [hib]
      refine ⟨?_, by intro k n h; simp at h, ?_⟩
      · have hl : f.immLen = 1 := by unfold Form.immLen; rw [hi, h4]; rfl
        rw [hl]; rfl
      · intro k' h
        simp only [Option.some.injEq] at h
        subst h
        have : le [n * 16] / 16 = n := by simp only [le]; omega
        rw [this]; exact hn
    | none =>
      rw [hi, h4] at h7
      have hib : immBytes r o = [] := by
        unfold immBytes
        have : (r.immOpnd == NO_IMM) = true := by simpa using h7
        simp only [this, if_true]
      rw [hib]
      refine ⟨?_, by intro k n h; simp at h, by intro k h; simp at h⟩
      have hl : f.immLen = 0 := by unfold Form.immLen; rw [hi, h4]; rfl
      rw [hl]; rfl

/-- Agreement of the prefix read with the form and the operands. -/
structure HeadOk (r : Instr) (f : Form) (o : Nat → Opnd) (c : Ctx) (e : Enc) (rm : RM) (hd : Head) :
    Prop where
  enc : f.enc hd.kind = some e
  map : hd.map = e.map
  opcode : hd.opcode = e.opcode
  pp : agrees e.pp hd.pp = true
  w : agrees e.w hd.w = true
  osz : agrees f.osz (opSize hd) = true
  lock : hd.pfx.lock = false ∧ (e.pp.isNone = true → hd.pfx.rep = 0)
  ll : (if hd.bc && rm.isReg then agrees e.l 2 else agrees e.l hd.ll) = true
  reg : ∀ i, f.reg = some i → ∃ n, IsReg (r.op i) (o i) n ∧ n % 8 + hd.rAdd = n
  digit : f.reg = none → hd.rAdd = 0
  v : ∀ i, f.v = some i → IsReg (r.op i) (o i) hd.vvvv
  nov : f.v = none → hd.vvvv % 16 = 0 ∧ (f.vsib = true ∨ hd.v' = false)
  rmHead : RMHead c.m64 f.vsib hd rm
  scale : RMScale r (o f.rm) c (if hd.kind = .evex then (if hd.bc then f.nb else f.n) else 1) rm
  seg : hd.pfx.seg = (match c.seg with
    | none => 0
    | some s => segOverride s)

theorem finish (r : Instr) (f : Form) (o : Nat → Opnd) (c : Ctx) (e : Enc) (rm : RM) (hd : Head)
    (isV : Bool) (hrow : rowCommon r f isV = true) (hh : HeadOk r f o c e rm hd)
    (hrm : Holds c.m64 f.vsib (r.op f.rm) (o f.rm) rm)
    (his4 : ∀ i, f.is4 = some i → ∃ n, IsReg (r.op i) (o i) n ∧ n < 16 ∧ (o i).data = n)
    (me : MemEnc) (bs : List Nat)
    (htail : ∀ hd n rest, RMHead c.m64 f.vsib hd rm → RMScale r (o f.rm) c n rm →
        modrm c.m64 hd f.vsib n ((me.modRM ||| buildModRM r o isV) ::
          ((if me.needSIB then [me.sib] else []) ++ dispBytes me.dispSize me.lo me.hi ++ rest)) =
        some (regNo f o % 8 + hd.rAdd, rm, rest))
    (hhead : head c.m64 bs = some (hd, tailBytes r o me isV)) :
    ∃ rd, readForm f c.m64 bs = some rd ∧ Says r f o c rd ∧ rd.kind = hd.kind ∧ rd.rex = hd.rex ∧
      rd.opSize = opSize hd ∧ rd.rm = rm ∧ rd.aaa = hd.aaa ∧ rd.z = hd.z ∧
      rd.bcast = (hd.bc && !rm.isReg) ∧ rd.rounding = (if hd.bc && rm.isReg then some hd.ll else none) := by
  obtain ⟨ib, hib, hlen, himm, hi4⟩ := immBytes_ok r f o isV hrow his4
  have ht := htail hd (if hd.kind = .evex then (if hd.bc then f.nb else f.n) else 1) ib hh.rmHead hh.scale
  have hregEq : ∀ k, f.reg = some k → IsReg (r.op k) (o k) (regNo f o % 8 + hd.rAdd) := by
    intro k hk
    obtain ⟨n, hn, he⟩ := hh.reg k hk
    have hrt : regType (r.op k) = true := by
      unfold rowCommon at hrow
      simp only [Bool.and_eq_true] at hrow
      obtain ⟨⟨⟨⟨⟨⟨⟨⟨⟨h1, h2⟩, h3⟩, h4⟩, h5⟩, h6⟩, h7⟩, h8⟩, h9⟩, h10⟩ := hrow
      rw [hk] at h5
      simp only [Bool.and_eq_true] at h5
      exact h5.1.1.2
    obtain ⟨hno, _⟩ := isReg_no hrt hn
    unfold regNo
    rw [hk]
    simp only [hno, he]
    exact hn
  have hdig : agrees f.digit (regNo f o % 8 + hd.rAdd) = true := by
    unfold rowCommon at hrow
    simp only [Bool.and_eq_true] at hrow
    obtain ⟨⟨⟨⟨⟨⟨⟨⟨⟨h1, h2⟩, h3⟩, h4⟩, h5⟩, h6⟩, h7⟩, h8⟩, h9⟩, h10⟩ := hrow
    cases hf : f.reg with
    | some k =>
      rw [hf] at h5
      simp only [Bool.and_eq_true] at h5
      have := h5.1.2
      unfold agrees; rw [this]; rfl
    | none =>
      rw [hf] at h5
      simp only [Bool.and_eq_true] at h5
      have hd0 : f.digit = some 0 := by simpa using h5.2
      have := hh.digit hf
      unfold regNo
      rw [hf, hd0, this]
      rfl
  refine ⟨⟨hd.kind, hd.rex, opSize hd, regNo f o % 8 + hd.rAdd, rm, hd.vvvv, le ib / 16, le ib, hd.aaa,
    hd.z, hd.bc && !rm.isReg, if hd.bc && rm.isReg then some hd.ll else none, hd.pfx.seg⟩, ?_, ?_, rfl,
    rfl, rfl, rfl, rfl, rfl, rfl, rfl⟩
  · unfold readForm
    rw [hhead]
    simp only [hh.enc]
    rw [if_pos ⟨hh.map, hh.opcode, hh.pp, hh.w, hh.osz, hh.lock⟩]
    unfold tailBytes
    rw [hib, ht]
    simp only
    rw [if_pos, hlen]
    refine ⟨hh.ll, hdig, ?_⟩
    intro hn
    have hn' : f.v = none := by simpa using hn
    exact hh.nov hn'
  · exact ⟨hregEq, hrm, hh.v, himm, hi4, hh.seg⟩

end Verif.Cgv2
