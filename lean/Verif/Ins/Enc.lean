import Verif.Ins.Main
/-! # C64: encode and decode -/
namespace Verif.Ins
open Verif.ModRM (Mode Seg EA Term Ctx leUnsigned leSigned leBytes)

/-! ### Registers outside ModRM -/

theorem shr3_lt (n : Nat) : (n &&& 8) >>> 3 < 8 := by
  have : n &&& 8 ≤ 8 := Nat.and_le_right
  rw [Nat.shiftRight_eq_div_pow]; omega

theorem shr1_lt (n : Nat) : (n &&& 8) >>> 1 < 8 := by
  have : n &&& 8 ≤ 8 := Nat.and_le_right
  rw [Nat.shiftRight_eq_div_pow]; omega

theorem or_lt8 {a b : Nat} (ha : a < 8) (hb : b < 8) : a ||| b < 8 := Nat.or_lt_two_pow (n := 3) ha hb

theorem rmRegs_lt (mn : Mn) (ops : List Src) : (rmRegs mn ops).2 < 8 := by
  have z8 : (0 : Nat) < 8 := by decide
  unfold rmRegs
  cases opAt ops 0 with
  | none =>
    simp only
    repeat' split
    all_goals first | exact or_lt8 z8 (shr1_lt _) | exact or_lt8 z8 (show 4 < 8 by decide) | exact or_lt8 z8 (show 0 < 8 by decide) | exact z8
  | some q =>
    cases q with
    | reg r =>
      have hr := shr3_lt r.no
      simp only
      repeat' split
      all_goals first | exact or_lt8 hr (shr1_lt _) | exact or_lt8 hr (shr3_lt _) | exact or_lt8 hr (show 4 < 8 by decide) | exact or_lt8 hr (show 0 < 8 by decide) | exact hr
    | mem z ts =>
      simp only
      repeat' split
      all_goals first | exact or_lt8 z8 (shr1_lt _) | exact or_lt8 z8 (show 4 < 8 by decide) | exact or_lt8 z8 (show 0 < 8 by decide) | exact z8
    | imm v z =>
      simp only
      repeat' split
      all_goals first | exact or_lt8 z8 (shr1_lt _) | exact or_lt8 z8 (show 4 < 8 by decide) | exact or_lt8 z8 (show 0 < 8 by decide) | exact z8

theorem single_op : ∀ a : Fin 16, (single a).1 &&& 0x3F = a.val % 8 ∧ (single a).2 = a.val / 8 := by decide +kernel
theorem two_op : ∀ a : Fin 16, (two a 0).1 &&& 0x3F = a.val % 8 ∧ (two a 0).2 = a.val / 8 := by decide +kernel
theorem xchgA_op : ∀ b : Fin 16, ((((single 0).1 &&& 0xC0) ||| (b.val &&& 7)) &&& 0x3F) = b.val % 8 ∧ ((single 0).2 ||| ((b.val &&& 8) >>> 3)) = b.val / 8 := by
  decide +kernel

/-- The register in the opcode. -/
theorem inOp_ok {cx : Ctx} {mn : Mn} {f : Form} {ops : List Src} {as : List AOp} (hregs : ∀ r, .reg r ∈ ops → r.ok cx.mode)
    (has : ∀ i : Nat, as[i]? = ops[i]?.bind (Src.abs cx.mode)) (hal : as.length = ops.length) (hk : f.kind = .inOp) (hf : f ∈ forms cx.mode mn.fam)
    {i : Nat} (hz : (slots mn.fam f as[0]? as[1]?).z = some i) :
    ∃ r, ops[i]? = some (.reg r) ∧ r.ok cx.mode ∧ (rmRegs mn ops).1 &&& 0x3F = r.no % 8 ∧ (rmRegs mn ops).2 = r.no / 8 := by
  have h0 := has 0
  have h1 := has 1
  have hni : mn ≠ .imul := by
    rintro rfl
    have := imulRm cx.mode (mem_modes _) f hf
    rw [hk] at this
    exact absurd this (by simp)
  unfold slots at hz
  rw [hk] at hz
  have a0 : opAt ops 0 = ops[0]? := rfl
  have a1 : opAt ops 1 = ops[1]? := rfl
  have rmr := rmRegs.eq_def mn ops
  rw [a0, a1] at rmr
  cases e0 : ops[0]? with
  | none => rw [e0] at h0; rw [h0] at hz; simp at hz
  | some q0 =>
    rw [e0] at h0 rmr
    have m0 : q0 ∈ ops := List.mem_of_getElem? e0
    cases q0 with
    | mem z ts => simp only [Option.bind_some, Src.abs] at h0; rw [h0] at hz; simp at hz
    | imm v z =>
      simp only [Option.bind_some, Src.abs] at h0
      split at h0 <;> rw [h0] at hz <;> simp at hz
    | reg r =>
      have hr := hregs r m0
      obtain ⟨t1, t2, t3, -⟩ := ty_ok hr
      have h0 : as[0]? = some (.reg r.ty _ _) := h0
      rw [h0] at hz
      cases e1 : ops[1]? with
      | none =>
        rw [e1] at h1 rmr
        rw [h1] at hz
        simp only [Option.bind_none, Option.some.injEq] at hz rmr
        subst hz
        rw [rmr]
        exact ⟨r, e0, hr, single_op ⟨r.no, hr.1⟩⟩
      | some q1 =>
        rw [e1] at h1 rmr
        have m1 : q1 ∈ ops := List.mem_of_getElem? e1
        cases q1 with
        | mem z ts =>
          simp only [Option.bind_some, Src.abs] at h1
          rw [h1] at hz
          simp only [Option.some.injEq] at hz rmr
          subst hz
          rw [rmr]
          exact ⟨r, e0, hr, single_op ⟨r.no, hr.1⟩⟩
        | imm v z =>
          have hz : i = 0 := by
            simp only [Option.bind_some, Src.abs] at h1
            split at h1 <;> rw [h1] at hz <;> simp only [Option.some.injEq] at hz <;> exact hz.symm
          subst hz
          simp only at rmr
          rw [if_neg (fun w => hni w.1)] at rmr
          rw [rmr]
          exact ⟨r, e0, hr, single_op ⟨r.no, hr.1⟩⟩
        | reg r2 =>
          have hr2 := hregs r2 m1
          obtain ⟨u1, u2, u3, -⟩ := ty_ok hr2
          have h1 : as[1]? = some (.reg r2.ty _ _) := h1
          rw [h1] at hz
          simp only at hz
          split at hz
          · rename_i hc
            simp only [Option.some.injEq] at hz
            subst hz
            refine ⟨r2, e1, hr2, ?_⟩
            have hx := fam_xchg.mp hc.1
            have h00 := t2.mp hc.2.1
            have hb := t3.mp hc.2.2
            have : rmRegs mn ops = (((single 0).1 &&& 0xC0) ||| (r2.no &&& 7), (single 0).2 ||| ((r2.no &&& 8) >>> 3)) := by
              rw [rmr]
              obtain ⟨z, n, hi⟩ := r
              simp only at h00 hb
              subst h00 hx
              cases z <;> first | rfl | (exact absurd rfl hb)
            rw [this]
            exact xchgA_op ⟨r2.no, hr2.1⟩
          split at hz
          · rename_i hn hc
            simp only [Option.some.injEq] at hz
            subst hz
            refine ⟨r, e0, hr, ?_⟩
            have hx := fam_xchg.mp hc.1
            have hb := t3.mp hc.2.1
            have h20 := u2.mp hc.2.2
            have hne : ¬ (mn = .xchg ∧ r.no = 0 ∧ r.size ≠ .b) := by
              rintro ⟨-, w, -⟩
              exact hn ⟨hc.1, t2.mpr w, hc.2.1⟩
            rw [rmRegs_two e0 e1 (by rw [hc.1]; decide) hne, h20]
            exact two_op ⟨r.no, hr.1⟩
          · simp at hz

/-! ### The whole instruction -/

/-- AH to BH and REX. -/
theorem high_ok {cx : Ctx} {mn : Mn} {ops : List Src} {as : List AOp} {p : Plan} {rxb : Nat} (hregs : ∀ r, .reg r ∈ ops → r.ok cx.mode)
    (has : ∀ i : Nat, as[i]? = ops[i]?.bind (Src.abs cx.mode)) (hreg : ∀ i, i < 2 → ∀ o, as[i]? = some o → okReg mn.fam p o = true)
    (hrxb : rxb < 8) (hhi : p.hi = true → p.rex40 = false ∧ p.rexW = false ∧ rxb = 0) (h64 : cx.mode ≠ .u64 → rexByte cx.mode mn p rxb = 0)
    {i : Nat} (hi : i < 2) {r : GReg} (hr : ops[i]? = some (.reg r)) (hb : r.size = .b) :
    r.high = (!(decide (rexByte cx.mode mn p rxb ≠ 0)) && decide (4 ≤ r.no ∧ r.no ≤ 7)) := by
  have hok := hregs r (List.mem_of_getElem? hr)
  have h := has i
  rw [hr] at h
  have h : as[i]? = some (r.abs cx.mode) := h
  have hreg := hreg i hi _ h
  unfold GReg.abs okReg at hreg
  simp only [Bool.and_eq_true, Bool.or_eq_true, Bool.not_eq_true', decide_eq_true_eq, decide_eq_false_iff_not] at hreg
  obtain ⟨⟨g1, g2⟩, g3⟩ := hreg
  obtain ⟨t1, t2, t3, -⟩ := ty_ok hok
  have hp : ¬ (cx.mode = .u64 ∧ (mn = .push ∨ mn = .pop)) := by
    rintro ⟨-, w⟩
    rcases g3 with g3 | ⟨g3, g4⟩
    · exact t3.mp g3 hb
    · rcases w with w | w
      · exact g3 (fam_push.mpr w)
      · exact g4 (fam_pop.mpr w)
  obtain ⟨-, -, -, r4, r5, -⟩ := rex_ok cx.mode mn p rxb hrxb
  cases hh : r.high with
  | true =>
    obtain ⟨-, k1, k2⟩ := hok.2.1 hh
    have hz : rexByte cx.mode mn p rxb = 0 := by
      by_cases hm : cx.mode = .u64
      · rcases g2 with g2 | g2
        · exact absurd ⟨hm, hb, by omega, by omega, hh⟩ g2
        · obtain ⟨q1, q2, q3⟩ := hhi g2
          exact r5 q1 q2 q3
      · exact h64 hm
    simp [hz, k1, k2]
  | false =>
    by_cases hn : 4 ≤ r.no ∧ r.no ≤ 7
    · have hm : cx.mode = .u64 := by
        by_contra w
        have := (hok.2.2 w).2.2 hb hn.1
        rw [hh] at this
        exact absurd this (by simp)
      have h40 : p.rex40 = true := by
        rcases g1 with g1 | g1
        · exact absurd (Or.inr (Or.inr ⟨hb, hn.1, hh⟩)) g1
        · exact g1
      simp [r4 h40 hp]
    · simp [hn]

theorem osz_ok {m : Mode} {mn : Mn} {p : Plan} {rxb : Nat} (h : rxb < 8) (d64 : Bool) :
    operandSize m p.opsiz (rexByte m mn p rxb % 16 / 8 % 2 == 1) d64 =
      operandSize m p.opsiz (p.rexW && !(mn.fam = .push || mn.fam = .pop)) d64 := by
  rw [(rex_ok m mn p rxb h).2.1]
  cases m with
  | u16 => rfl
  | u32 => rfl
  | u64 => simp [fam_push, fam_pop]

theorem row_lt {m : Mode} {fam : Fam} {i : Nat} {f : Form} (h : (forms m fam)[i]? = some f) : i < 8 := by
  have := (List.getElem?_eq_some_iff.mp h).1
  have := forms_length m (mem_modes m) fam (mem_fams _)
  omega

theorem allD_at {P : Nat → Bool} (h : allD P = true) {d : Nat} (hd : d < 8) : P d = true := by
  unfold allD at h
  rw [List.all_eq_true] at h
  exact h d (by simpa using hd)

theorem both_at {P : Bool → Bool} (h : [true, false].all P = true) (b : Bool) : P b = true := by
  rw [List.all_eq_true] at h
  exact h b (by cases b <;> simp)

/-- decodeOp with everything known. -/
theorem decodeOp_eq {m : Mode} {p : Pre} {hasRex : Bool} {rex : Nat} {esc : Bool} {opc : Nat} {bs bs' tail : List Nat} {e : Entry} {rm : RM} {ds : List Opn}
    (hmap : ∀ nop, nop = (m == .u64 && operandSize m p.p66 (rex / 8 % 2 == 1) false == 4 && rex % 2 == 0) →
      mapAt m esc nop opc (bs.headD 0 / 8 % 8) = some e)
    (hrm : (if e.ops.any OE.usesRM then readRM m p.p67 rex bs else some (.none, bs)) = some (rm, bs'))
    (hops : readOps ⟨operandSize m p.p66 (rex / 8 % 2 == 1) e.d64, hasRex, rex, p.seg, opc, rm⟩ bs' e.ops = some (ds, tail)) :
    decodeOp m p hasRex rex esc opc bs = some (⟨e.mn, ds⟩, tail) := by
  unfold decodeOp
  have := hmap _ rfl
  unfold mapAt at this
  simp only
  rw [this]
  simp only
  rw [hrm]
  simp only
  rw [hops]

theorem long_ok {cx : Ctx} {mn : Mn} {ops : List Src} {as : List AOp} {p : Plan} {f : Form} {e : Entry} {osz : Nat} {a : List Nat}
    (hs : Source cx mn ops) (has : ∀ i : Nat, as[i]? = ops[i]?.bind (Src.abs cx.mode)) (hc : Checked cx.mode mn.fam as p f e osz a) (h8 : osz = 8) :
    ∀ v z, .imm v z ∈ ops → v < 2 ^ 31 := by
  apply hs.long
  have hm : cx.mode = .u64 := by
    have := hc.size
    rw [h8] at this
    unfold operandSize at this
    split at this
    · split at this <;> omega
    · split at this <;> omega
    · assumption
  rcases hc.long h8 with q | q | q
  · exact Or.inr (Or.inr ⟨hm, Or.inl (fam_push.mp q)⟩)
  · exact Or.inr (Or.inr ⟨hm, Or.inr (fam_pop.mp q)⟩)
  · rw [List.any_eq_true] at q
    obtain ⟨o, ho, hl⟩ := q
    obtain ⟨i, hi⟩ := List.mem_iff_getElem?.mp ho
    have hb := has i
    rw [hi] at hb
    symm at hb
    rw [Option.bind_eq_some_iff] at hb
    obtain ⟨src, hsrc, hso⟩ := hb
    have hmem := List.mem_of_getElem? hsrc
    cases src with
    | reg r =>
      left
      refine ⟨r, hmem, ?_⟩
      simp only [Src.abs, Option.some.injEq] at hso
      rw [← hso] at hl
      unfold GReg.abs AOp.isLong at hl
      simp only [decide_eq_true_eq] at hl
      exact (ty_ok (hs.regs r hmem)).2.2.2.2.mp hl
    | mem z ts =>
      right; left
      simp only [Src.abs, Option.some.injEq] at hso
      rw [← hso] at hl
      rcases z with _ | z
      · simp [AOp.isLong] at hl
      · cases z <;> simp [AOp.isLong] at hl
        exact ⟨ts, hmem⟩
    | imm v z =>
      simp only [Src.abs] at hso
      split at hso
      · exact absurd hso (by simp)
      · simp only [Option.some.injEq] at hso
        rw [← hso] at hl
        simp [AOp.isLong] at hl

theorem xchgRows : ∀ m ∈ modes, ∀ i ∈ List.range 8, ∀ w ∈ [true, false], ∀ f ∈ (forms m .xchg)[i]?, f.kind = .inOp →
    ∀ e ∈ famEntry m .xchg i w, e.ops = [.Z .v, .A .v] ∧ e.d64 = false := by decide +kernel

theorem inOpRows : ∀ m ∈ modes, ∀ fam ∈ fams, ∀ i ∈ List.range 8, ∀ w ∈ [true, false], ∀ f ∈ (forms m fam)[i]?, f.kind = .inOp →
    ∀ e ∈ famEntry m fam i w, e.ops.head? = some (.Z .v) := by decide +kernel

/-- `xchg` of EAX with itself, the only one that NOP can be mistaken for. -/
theorem xchg_nop {cx : Ctx} {ops : List Src} {as : List AOp} {p : Plan} {f : Form} {e : Entry} {a : List Nat} {r : GReg} {i : Nat}
    (hregs : ∀ r, .reg r ∈ ops → r.ok cx.mode)
    (has : ∀ i : Nat, as[i]? = ops[i]?.bind (Src.abs cx.mode)) (hal : as.length = ops.length) (hk : f.kind = .inOp)
    (hc : Checked cx.mode .xchg as p f e 4 a) (hz : (slots .xchg f as[0]? as[1]?).z = some i) (hi : ops[i]? = some (.reg r)) (h0 : r.no = 0) :
    ops = [.reg ⟨.d, 0, false⟩, .reg ⟨.d, 0, false⟩] := by
  obtain ⟨he, -⟩ := xchgRows cx.mode (mem_modes _) p.row (by simpa using row_lt hc.form) p.wide (by cases p.wide <;> simp) f hc.form hk e hc.entry
  have hops := hc.ops
  rw [he] at hops
  have hal2 : a.length = 2 := by rw [← okArr_length hops]; rfl
  have hreg : ∀ j : Nat, ∀ o, as[j]? = some o → o.hasSize 4 = true → (∀ q, ops[j]? = some (.reg q) → q.no = 0) → ops[j]? = some (.reg ⟨.d, 0, false⟩) := by
    intro j o ho hsz hq
    have hb := has j
    rw [ho] at hb
    symm at hb
    rw [Option.bind_eq_some_iff] at hb
    obtain ⟨src, hsrc, hso⟩ := hb
    cases src with
    | mem z ts => simp only [Src.abs, Option.some.injEq] at hso; rw [← hso] at hsz; simp [AOp.hasSize] at hsz
    | imm v z =>
      simp only [Src.abs] at hso
      split at hso
      · simp at hso
      · simp only [Option.some.injEq] at hso; rw [← hso] at hsz; simp [AOp.hasSize] at hsz
    | reg q =>
      simp only [Src.abs, Option.some.injEq] at hso
      have hok := hregs q (List.mem_of_getElem? hsrc)
      rw [← hso] at hsz
      obtain ⟨z1, -⟩ := hasSize_reg hok hsz
      have hn := hq q hsrc
      obtain ⟨z, n, hh⟩ := q
      simp only [szOf] at z1 hn
      subst z1 hn
      cases hh with
      | false => exact hsrc
      | true => exact absurd (hok.2.1 rfl).1 (by simp)
  have hA : ∀ j : Nat, ∀ o, as[j]? = some o → okOp 4 (slots .xchg f as[0]? as[1]?) (.A .v) j o = true → ops[j]? = some (.reg ⟨.d, 0, false⟩) := by
    intro j o ho hok
    cases o with
    | mem z => simp [okOp] at hok
    | imm f z => simp [okOp] at hok
    | reg ty x y =>
      simp only [okOp, Bool.and_eq_true, decide_eq_true_eq] at hok
      apply hreg j _ ho hok.1
      intro q hq
      have hb := has j
      rw [ho, hq] at hb
      have hb : some (AOp.reg ty x y) = some (AOp.reg q.ty _ _) := hb
      simp only [Option.some.injEq, AOp.reg.injEq] at hb
      have := (ty_ok (hregs q (List.mem_of_getElem? hq))).2.1
      rw [← hb.1] at this
      exact this.mp hok.2
  have hZ : ∀ j : Nat, ∀ o, as[j]? = some o → okOp 4 (slots .xchg f as[0]? as[1]?) (.Z .v) j o = true → ops[j]? = some (.reg ⟨.d, 0, false⟩) := by
    intro j o ho hok
    simp only [okOp, Bool.and_eq_true, decide_eq_true_eq] at hok
    apply hreg j _ ho hok.2
    intro q hq
    rw [hz] at hok
    simp only [Option.some.injEq] at hok
    rw [← hok.1, hi] at hq
    simp only [Option.some.injEq, Src.reg.injEq] at hq
    rw [← hq]; exact h0
  match a, hal2 with
  | [x, y], _ =>
    simp only [okArr, Bool.and_eq_true] at hops
    obtain ⟨o1, o2, -⟩ := hops
    cases hx : as[x]? with
    | none => rw [hx] at o1; simp at o1
    | some ox =>
      cases hy : as[y]? with
      | none => rw [hy] at o2; simp at o2
      | some oy =>
        rw [hx] at o1
        rw [hy] at o2
        have e1 := hZ x ox hx o1
        have e2 := hA y oy hy o2
        have ha := hc.arr
        unfold arrs at ha
        simp only [or_true, if_true, List.mem_cons, List.not_mem_nil, or_false] at ha
        have hlen : as.length = 2 := by
          rcases ha with ha | ha
          · have := congrArg List.length ha; simpa using this.symm
          · have := congrArg List.length ha; simpa using this.symm
        rw [hlen] at ha
        rw [hal] at hlen
        match ops, hlen with
        | [u, v], _ =>
          rcases ha with ha | ha
          · have hx0 : x = 0 ∧ y = 1 := by simpa [List.range_succ] using ha
            obtain ⟨rfl, rfl⟩ := hx0
            simp only [List.getElem?_cons_zero, List.getElem?_cons_succ, Option.some.injEq] at e1 e2
            rw [e1, e2]
          · have hx0 : x = 1 ∧ y = 0 := by simpa [List.range_succ] using ha
            obtain ⟨rfl, rfl⟩ := hx0
            simp only [List.getElem?_cons_zero, List.getElem?_cons_succ, Option.some.injEq] at e1 e2
            rw [e1, e2]

theorem agree_base {cx : Ctx} {mn : Mn} {ops : List Src} {as : List AOp} {p : Plan} {f : Form} {e : Entry} {osz : Nat} {a : List Nat} {rxb : Nat}
    (hs : Source cx mn ops) (has : ∀ i : Nat, as[i]? = ops[i]?.bind (Src.abs cx.mode)) (hc : Checked cx.mode mn.fam as p f e osz a)
    (hrxb : rxb < 8) (hhi : p.hi = true → p.rex40 = false ∧ p.rexW = false ∧ rxb = 0) (h64 : cx.mode ≠ .u64 → rexByte cx.mode mn p rxb = 0)
    (seg : Option Seg) (opc : Nat) (rm : RM)
    (he : ∀ i, (slots mn.fam f as[0]? as[1]?).e = some i → rm.isOp cx seg ops[i]?)
    (hg : ∀ j, (slots mn.fam f as[0]? as[1]?).g = some j → rm ≠ .none ∧ ∃ r, ops[j]? = some (.reg r) ∧ rm.regNo = r.no)
    (hz : ∀ j, (slots mn.fam f as[0]? as[1]?).z = some j → ∃ r, ops[j]? = some (.reg r) ∧
      opc % 8 + 8 * (rexByte cx.mode mn p rxb % 16 % 2) = r.no) :
    Agree cx ops (slots mn.fam f as[0]? as[1]?)
      ⟨osz, decide (rexByte cx.mode mn p rxb ≠ 0), rexByte cx.mode mn p rxb % 16, seg, opc, rm⟩ where
  regs := hs.regs
  high := fun i r hi hr hb => high_ok hs.regs has hc.regs hrxb hhi h64 (slots_lt _ _ _ _ i hi) hr hb
  e := he
  g := hg
  z := hz
  nums := hs.nums
  long := fun h8 => long_ok hs has hc h8

theorem encode_decode {cx : Ctx} {mn : Mn} {ops : List Src} {as : List AOp} {p : Plan} {f : Form} {e : Entry} {osz : Nat} {a : List Nat}
    {bytes : List Nat} (hs : Source cx mn ops) (has : ∀ i : Nat, as[i]? = ops[i]?.bind (Src.abs cx.mode)) (hal : as.length = ops.length)
    (hc : Checked cx.mode mn.fam as p f e osz a) (hlen : ∀ v z, ops[1]? = some (.imm v z) → ops.length = 2)
    (h : encode cx mn p ops = some bytes) (tail : List Nat) :
    ∃ d ops', decode cx.mode (bytes ++ tail) = some (d, tail) ∧ d.mn = mn.canon ∧ SameOps mn ops ops' ∧ List.Forall₂ (fun s d => Means cx s d ∧ Fits s d) ops' d.ops := by
  have hrc := rowCheck_all cx.mode mn p.row (row_lt hc.form) p.wide
  unfold rowCheck at hrc
  unfold encode at h
  rw [hc.form] at h hrc
  simp only [Option.bind_eq_bind, Option.bind_some] at h
  cases hcode : (codes cx.mode mn)[p.row]? with
  | none => rw [hcode] at h; simp at h
  | some c =>
    rw [hcode] at h hrc
    simp only [Option.bind_some] at h
    rw [hc.entry] at hrc
    simp only [Bool.or_eq_true, Bool.and_eq_true, Bool.not_eq_true'] at hrc
    rcases hrc with ⟨w1, w2⟩ | hrc
    · rw [hc.wide w1] at w2; exact absurd w2 (by simp)
    have hkind := hc.kind
    unfold okKind at hkind
    -- the operands are read
    have done : ∀ (opc : Nat) (enc : ModRM.Enc) (rm : RM) (bs : List Nat), enc.rex < 8 → opcOk cx.mode f.esc opc = true →
        finish cx.mode mn p f.esc opc enc ops = some bytes →
        (∀ nop, nop = (cx.mode == .u64 && operandSize cx.mode p.opsiz (rexByte cx.mode mn p enc.rex % 16 / 8 % 2 == 1) false == 4 &&
            rexByte cx.mode mn p enc.rex % 16 % 2 == 0) →
          mapAt cx.mode f.esc nop opc ((enc.bytes ++ (immBytes ops p.imms ++ tail)).headD 0 / 8 % 8) = some { e with mn := mn.canon }) →
        (if e.ops.any OE.usesRM then readRM cx.mode enc.p67 (rexByte cx.mode mn p enc.rex % 16) (enc.bytes ++ (immBytes ops p.imms ++ tail))
          else some (.none, enc.bytes ++ (immBytes ops p.imms ++ tail))) = some (rm, immBytes ops p.imms ++ tail) →
        (∀ i, (slots mn.fam f as[0]? as[1]?).e = some i → rm.isOp cx enc.seg ops[i]?) →
        (∀ j, (slots mn.fam f as[0]? as[1]?).g = some j → rm ≠ .none ∧ ∃ r, ops[j]? = some (.reg r) ∧ rm.regNo = r.no) →
        (∀ j, (slots mn.fam f as[0]? as[1]?).z = some j → ∃ r, ops[j]? = some (.reg r) ∧
          opc % 8 + 8 * (rexByte cx.mode mn p enc.rex % 16 % 2) = r.no) →
        ∃ d ops', decode cx.mode (bytes ++ tail) = some (d, tail) ∧ d.mn = mn.canon ∧ SameOps mn ops ops' ∧
          List.Forall₂ (fun s d => Means cx s d ∧ Fits s d) ops' d.ops := by
      intro opc enc rm bs hr ho hf hmap hrm he hg hz
      obtain ⟨q1, q2, q3⟩ := finish_decode ho hr hf tail
      have ag := agree_base hs has hc hr q1 q2 enc.seg opc rm he hg hz
      obtain ⟨ds, ops', g1, g2, g3⟩ := readOps_ok ag has tail e.ops a hc.ops
      refine ⟨⟨mn.canon, ds⟩, ops', ?_, rfl, arrs_same has hal hc g2, g3⟩
      rw [q3]
      refine decodeOp_eq (e := { e with mn := mn.canon }) (rm := rm) hmap hrm ?_
      simp only
      rw [osz_ok hr, ← hc.size, ← hc.imms]
      exact g1
    cases hk : f.kind with
    | rm =>
      rw [hk] at h hrc hkind
      simp only [Option.bind_eq_some_iff] at h
      obtain ⟨enc, henc, hfin⟩ := h
      simp only [Bool.and_eq_true, decide_eq_true_eq] at hrc hkind
      obtain ⟨⟨c1, c2⟩, c3⟩ := hrc
      obtain ⟨⟨k1, k2⟩, k3⟩ := hkind
      have hg0 : (slots mn.fam f as[0]? as[1]?).g.isSome = true → c.2 = 0 := by
        intro w
        rw [k3] at w
        rw [if_pos w, Bool.and_eq_true, decide_eq_true_eq] at c3
        exact c3.1
      have hrlt : enc.rex < 8 := (modrm_ok hs.opsOk has hal hk c2 k2 hg0 hlen henc enc.rex rfl []).1
      have hlow := (rex_ok cx.mode mn p enc.rex hrlt).1
      obtain ⟨-, rm, r1, r2, r3, r4⟩ := modrm_ok hs.opsOk has hal hk c2 k2 hg0 hlen henc (rexByte cx.mode mn p enc.rex % 16)
        (by rw [hlow]; omega) (immBytes ops p.imms ++ tail)
      refine done _ enc rm [] hrlt c1 hfin ?_ ?_ r3 ?_ ?_
      · intro nop _
        by_cases hG : e.ops.any OE.isG = true
        · rw [if_pos hG, Bool.and_eq_true] at c3
          have := both_at (allD_at c3.2 (d := (enc.bytes ++ (immBytes ops p.imms ++ tail)).headD 0 / 8 % 8) (by omega)) nop
          simpa using this
        · rw [if_neg hG] at c3
          have hgn : (slots mn.fam f as[0]? as[1]?).g = none := by
            rw [Bool.not_eq_true] at hG
            rw [hG] at k3
            simpa using k3
          rw [r2 hgn]
          have := both_at c3 nop
          simpa using this
      · rw [if_pos k1]; exact r1
      · intro j hj
        refine ⟨?_, r4 j hj⟩
        intro w
        rw [w] at r3
        cases he : (slots mn.fam f as[0]? as[1]?).e with
        | none => rw [he] at k2; simp at k2
        | some i =>
          have := r3 i he
          cases ho : ops[i]? with
          | none => rw [ho] at this; exact this
          | some o => rw [ho] at this; cases o <;> simp [RM.isOp] at this
      · intro j hj
        rw [slots_e_rm hk] at hj
        simp at hj
    | noRM =>
      rw [hk] at h hrc hkind
      simp only [Bool.and_eq_true, Bool.not_eq_true'] at h hrc hkind
      have hsl := slots_noRM (fam := mn.fam) (o1 := as[0]?) (o2 := as[1]?) hk
      refine done _ _ .none [] (rmRegs_lt mn ops) hrc.1 h ?_ ?_ ?_ ?_ ?_
      · intro nop _
        have := both_at (allD_at hrc.2 (d := (([] : List Nat) ++ (immBytes ops p.imms ++ tail)).headD 0 / 8 % 8) (by omega)) nop
        simpa using this
      · rw [hkind]; simp
      · intro i hi; rw [hsl] at hi; simp at hi
      · intro i hi; rw [hsl] at hi; simp at hi
      · intro i hi; rw [hsl] at hi; simp at hi
    | inOp =>
      rw [hk] at h hrc hkind
      simp only [Bool.not_eq_true'] at h hkind
      obtain ⟨sl1, sl2⟩ := slots_inOp (fam := mn.fam) (o1 := as[0]?) (o2 := as[1]?) hk
      have hhead := inOpRows cx.mode (mem_modes _) mn.fam (mem_fams _) p.row (by simpa using row_lt hc.form) p.wide (by cases p.wide <;> simp) f
        hc.form hk e hc.entry
      obtain ⟨i, hz⟩ : ∃ i, (slots mn.fam f as[0]? as[1]?).z = some i := by
        have ho := hc.ops
        cases hes : e.ops with
        | nil => rw [hes] at hhead; simp at hhead
        | cons e0 es =>
          rw [hes] at hhead ho
          simp only [List.head?_cons, Option.some.injEq] at hhead
          subst hhead
          cases a with
          | nil => simp [okArr] at ho
          | cons i is =>
            simp only [okArr, Bool.and_eq_true] at ho
            cases hi : as[i]? with
            | none => rw [hi] at ho; simp at ho
            | some o =>
              rw [hi] at ho
              simp only [okOp, Bool.and_eq_true, decide_eq_true_eq] at ho
              exact ⟨i, ho.1.1⟩
      obtain ⟨r, hr1, hrok, hr2, hr3⟩ := inOp_ok hs.regs has hal hk (List.mem_of_getElem? hc.form) hz
      have hn8 : (rmRegs mn ops).1 &&& 0x3F < 8 := by rw [hr2]; omega
      have hrn := allD_at hrc hn8
      simp only [Bool.and_eq_true, decide_eq_true_eq] at hrn
      obtain ⟨⟨n1, n2⟩, n3⟩ := hrn
      have hr16 := hrok.1
      have hlow := (rex_ok cx.mode mn p (rmRegs mn ops).2 (rmRegs_lt mn ops)).1
      refine done _ _ .none [] (rmRegs_lt mn ops) n2 h ?_ ?_ ?_ ?_ ?_
      · intro nop hnop
        have hd := both_at (allD_at n3 (d := (([] : List Nat) ++ (immBytes ops p.imms ++ tail)).headD 0 / 8 % 8) (by omega)) nop
        simp only [Bool.or_eq_true, Bool.and_eq_true, decide_eq_true_eq, beq_iff_eq] at hd
        rcases hd with ⟨⟨d1, d2⟩, d3⟩ | hd
        · exfalso
          rw [d1] at hnop
          symm at hnop
          simp only [Bool.and_eq_true, beq_iff_eq] at hnop
          obtain ⟨⟨w1, w2⟩, w3⟩ := hnop
          subst d3
          have h0 : r.no = 0 := by rw [hr2] at d2; omega
          obtain ⟨-, hd64⟩ := xchgRows cx.mode (mem_modes _) p.row (by simpa using row_lt hc.form) p.wide (by cases p.wide <;> simp) f hc.form hk e hc.entry
          have hsz : osz = 4 := by
            rw [hc.size, ← osz_ok (rxb := (rmRegs .xchg ops).2) (rmRegs_lt _ _), hd64]
            exact w2
          subst hsz
          exact hs.nop w1 rfl (xchg_nop hs.regs has hal hk hc hz hr1 h0)
        · exact hd
      · rw [hkind]; simp
      · intro j hj; rw [sl1] at hj; simp at hj
      · intro j hj; rw [sl2] at hj; simp at hj
      · intro j hj
        rw [hz] at hj
        simp only [Option.some.injEq] at hj
        subst hj
        refine ⟨r, hr1, ?_⟩
        simp only
        rw [n1, hr2]
        omega

end Verif.Ins
