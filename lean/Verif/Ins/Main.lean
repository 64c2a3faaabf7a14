import Verif.Ins.Ops
/-! # C64: the bytes are decoded to the instruction -/
namespace Verif.Ins
open Verif.ModRM (Mode Seg EA Term Ctx leUnsigned leSigned leBytes)

/-- What the source says is within these limits. The clauses after `mems` exclude cases in which the output is wrong, see the
theorems `C64_finding_...`. -/
structure Source (cx : Ctx) (mn : Mn) (ops : List Src) : Prop where
  /-- addresses are made of registers and numbers -/
  fixup : cx.fixup = false
  /-- the registers exist in this mode -/
  regs : ∀ r, .reg r ∈ ops → r.ok cx.mode
  /-- memory operands as in C19 -/
  mems : ∀ z ts, .mem z ts ∈ ops → ModRM.Source cx ts ∧
    (cx.mode = .u64 → ∀ r, .reg r ∈ ts → r.cls = .r64 → ¬ (2 ^ 31 ≤ ModRM.numSum ts ∧ ModRM.numSum ts < 2 ^ 32))
  /-- C64_finding_low -/
  nums : ∀ v z, .imm v z ∈ ops → -2 ^ 31 ≤ v
  /-- C64_finding_long -/
  long : ((∃ r, .reg r ∈ ops ∧ r.size = .q) ∨ (∃ ts, .mem (some .q) ts ∈ ops) ∨ (cx.mode = .u64 ∧ (mn = .push ∨ mn = .pop))) →
    ∀ v z, .imm v z ∈ ops → v < 2 ^ 31
  /-- C64_finding_byte -/
  byte : ∀ v, .imm v (some .b) ∈ ops → -128 ≤ v ∧ v < 128
  /-- C65_finding_word -/
  coerced : ∀ v, .imm v (some .w) ∈ ops → -65535 ≤ v ∧ v ≤ 65535
  /-- C64_finding_word -/
  word : cx.mode ≠ .u16 → ∀ ts v z, ops = [.mem none ts, .imm v z] → ¬ (0xFF80 ≤ v ∧ v ≤ 0xFFFF)
  /-- C64_finding_nop -/
  nop : cx.mode = .u64 → mn = .xchg → ops ≠ [.reg ⟨.d, 0, false⟩, .reg ⟨.d, 0, false⟩]

theorem Source.opsOk {cx : Ctx} {mn : Mn} {ops : List Src} (h : Source cx mn ops) : OpsOk cx ops :=
  ⟨h.fixup, h.regs, fun z ts hm => ⟨(h.mems z ts hm).1, (h.mems z ts hm).2⟩⟩

/-! ### REX -/

theorem rex_num : ∀ (a b c : Bool) (r : Fin 8),
    let x := (if a then 0x40 else 0) + (if b then 8 else 0) + r.val
    let y := if c then x &&& 7 else x
    y % 16 % 8 = r.val ∧ (y % 16 / 8 % 2 == 1) = (b && !c) ∧ (y ≠ 0 → 0x40 ≤ y ||| 0x40 ∧ y ||| 0x40 < 0x50 ∧ (y ||| 0x40) % 16 = y % 16) ∧
    (a = true → c = false → y ≠ 0) ∧ (a = false → b = false → r.val = 0 → y = 0) ∧ (c = false → y = 0 → a = false ∧ b = false ∧ r.val = 0) := by
  decide +kernel

theorem rex_ok (m : Mode) (mn : Mn) (p : Plan) (rxb : Nat) (h : rxb < 8) :
    rexByte m mn p rxb % 16 % 8 = rxb ∧
    (rexByte m mn p rxb % 16 / 8 % 2 == 1) = (p.rexW && !(decide (m = .u64 ∧ (mn = .push ∨ mn = .pop)))) ∧
    (rexByte m mn p rxb ≠ 0 → 0x40 ≤ rexByte m mn p rxb ||| 0x40 ∧ rexByte m mn p rxb ||| 0x40 < 0x50 ∧
      (rexByte m mn p rxb ||| 0x40) % 16 = rexByte m mn p rxb % 16) ∧
    (p.rex40 = true → ¬ (m = .u64 ∧ (mn = .push ∨ mn = .pop)) → rexByte m mn p rxb ≠ 0) ∧
    (p.rex40 = false → p.rexW = false → rxb = 0 → rexByte m mn p rxb = 0) ∧
    (m ≠ .u64 → rexByte m mn p rxb = 0 → p.rex40 = false ∧ p.rexW = false ∧ rxb = 0) := by
  have key := rex_num p.rex40 p.rexW (decide (m = .u64 ∧ (mn = .push ∨ mn = .pop))) ⟨rxb, h⟩
  simp only [decide_eq_true_eq, decide_eq_false_iff_not] at key
  have e : rexByte m mn p rxb = (if m = .u64 ∧ (mn = .push ∨ mn = .pop) then
    ((if p.rex40 then 0x40 else 0) + (if p.rexW then 8 else 0) + rxb) &&& 7 else
    (if p.rex40 then 0x40 else 0) + (if p.rexW then 8 else 0) + rxb) := rfl
  rw [← e] at key
  obtain ⟨k1, k2, k3, k4, k5, k6⟩ := key
  exact ⟨k1, k2, k3, k4, k5, fun hm => k6 (fun w => hm w.1)⟩

/-! ### The bytes -/

theorem opcOk_facts {m : Mode} {opc : Nat} (h : opcOk m false opc = true) :
    opc ≠ 0x66 ∧ opc ≠ 0x67 ∧ segOf opc = none ∧ opc ≠ 0x0F ∧ ¬ (m = .u64 ∧ 0x40 ≤ opc ∧ opc < 0x50) := by
  unfold opcOk at h
  simp only [Bool.false_or, Bool.and_eq_true, decide_eq_true_eq, Bool.or_eq_true, Bool.not_eq_true', decide_eq_false_iff_not] at h
  obtain ⟨⟨⟨⟨h1, h2⟩, h3⟩, h4⟩, h5⟩ := h
  refine ⟨h1, h2, h3, h4, fun w => ?_⟩
  rcases h5 with q | q
  · exact q w.1
  · exact q w.2

/-- What the processor finds after the prefixes. -/
theorem finish_decode {m : Mode} {mn : Mn} {p : Plan} {esc : Bool} {opc : Nat} {e : ModRM.Enc} {ops : List Src} {bytes : List Nat}
    (ho : opcOk m esc opc = true) (hr : e.rex < 8) (h : finish m mn p esc opc e ops = some bytes) (tail : List Nat) :
    (p.hi = true → p.rex40 = false ∧ p.rexW = false ∧ e.rex = 0) ∧ (m ≠ .u64 → rexByte m mn p e.rex = 0) ∧
    decode m (bytes ++ tail) = decodeOp m ⟨p.opsiz, e.p67, e.seg⟩ (decide (rexByte m mn p e.rex ≠ 0)) (rexByte m mn p e.rex % 16) esc opc
      (e.bytes ++ (immBytes ops p.imms ++ tail)) := by
  obtain ⟨-, -, r3, -, -, -⟩ := rex_ok m mn p e.rex hr
  unfold finish at h
  simp only at h
  generalize hrex : rexByte m mn p e.rex = rex at *
  split at h
  · exact absurd h (by simp)
  rename_i hhi
  split at h
  · exact absurd h (by simp)
  rename_i hm
  refine ⟨?_, ?_, ?_⟩
  · intro q
    rw [not_and] at hhi
    have := hhi q
    simp only [not_or, Bool.not_eq_true, not_not] at this
    exact this
  · intro q
    by_contra w
    exact hm ⟨w, q⟩
  · simp only [Option.some.injEq] at h
    subst h
    have tl : ∀ bs : List Nat, (if esc then [0x0F] else []) ++ [opc] ++ bs = (if esc then [0x0F] else []) ++ opc :: bs := by simp
    have e1 : (if e.p67 then [0x67] else []) ++ (if p.opsiz then [0x66] else []) ++ (e.seg.map segPrefix).toList ++
        (if rex ≠ 0 then [rex ||| 0x40] else []) ++ (if esc then [0x0F] else []) ++ [opc] ++ e.bytes ++
        (p.imms.flatMap fun q => leBytes (immVal ops q.1) q.2) ++ tail =
        (if e.p67 then [0x67] else []) ++ (if p.opsiz then [0x66] else []) ++ (e.seg.map segPrefix).toList ++
        ((if rex ≠ 0 then [rex ||| 0x40] else []) ++ ((if esc then [0x0F] else []) ++ opc :: (e.bytes ++ (immBytes ops p.imms ++ tail)))) := by
      simp [immBytes, List.append_assoc]
    rw [e1]
    by_cases hz : rex = 0
    · subst hz
      simp only [ne_eq, not_true_eq_false, if_false, List.nil_append, decide_false]
      cases esc with
      | true =>
        simp only [if_true, List.cons_append, List.nil_append]
        unfold decode
        rw [prefixes_eq _ _ _ _ _ (by decide) (by decide) (by decide)]
        simp only [rexOf]
        rw [if_neg (by omega)]
        simp
      | false =>
        obtain ⟨o1, o2, o3, o4, o5⟩ := opcOk_facts ho
        simp only [Bool.false_eq_true, if_false, List.nil_append]
        unfold decode
        rw [prefixes_eq _ _ _ _ _ o1 o2 o3]
        simp only [rexOf]
        rw [if_neg o5]
        simp [if_neg o4]
    · obtain ⟨r4, r5, r6⟩ := r3 hz
      have hm : m = .u64 := by
        by_contra w; exact hm ⟨hz, w⟩
      rw [if_pos hz]
      simp only [List.cons_append, List.nil_append]
      unfold decode
      have hpre : (rex ||| 0x40) ≠ 0x66 ∧ (rex ||| 0x40) ≠ 0x67 ∧ segOf (rex ||| 0x40) = none := by
        refine ⟨by omega, by omega, ?_⟩
        unfold segOf
        rw [if_neg (by omega), if_neg (by omega), if_neg (by omega), if_neg (by omega), if_neg (by omega), if_neg (by omega)]
      rw [prefixes_eq _ _ _ _ _ hpre.1 hpre.2.1 hpre.2.2]
      simp only [rexOf]
      rw [if_pos ⟨hm, r4, r5⟩]
      cases esc with
      | true => simp [r6, hz]
      | false =>
        obtain ⟨o1, o2, o3, o4, o5⟩ := opcOk_facts ho
        simp [r6, hz, o4]

/-! ### Slots -/

theorem slots_lt (fam : Fam) (f : Form) (o1 o2 : Option AOp) (i : Nat)
    (h : (slots fam f o1 o2).e = some i ∨ (slots fam f o1 o2).g = some i ∨ (slots fam f o1 o2).z = some i) : i < 2 := by
  unfold slots at h
  repeat' split at h
  all_goals simp only [reduceCtorEq, Option.some.injEq, false_or, or_false] at h
  all_goals omega

theorem slots_e_rm {fam : Fam} {f : Form} {o1 o2 : Option AOp} (h : f.kind = .rm) : (slots fam f o1 o2).z = none := by
  unfold slots
  rw [h]
  rcases o1 with _ | o1 <;> rcases o2 with _ | o2
  · rfl
  · rfl
  · cases o1 <;> simp only <;> (repeat' split) <;> first | rfl | simp_all
  · cases o1 <;> cases o2 <;> simp only <;> (repeat' split) <;> first | rfl | simp_all

theorem slots_noRM {fam : Fam} {f : Form} {o1 o2 : Option AOp} (h : f.kind = .noRM) : slots fam f o1 o2 = ⟨none, none, none⟩ := by
  unfold slots
  rw [h]

theorem slots_inOp {fam : Fam} {f : Form} {o1 o2 : Option AOp} (h : f.kind = .inOp) :
    (slots fam f o1 o2).e = none ∧ (slots fam f o1 o2).g = none := by
  unfold slots
  rw [h]
  rcases o1 with _ | o1 <;> rcases o2 with _ | o2
  · exact ⟨rfl, rfl⟩
  · exact ⟨rfl, rfl⟩
  · cases o1 <;> exact ⟨rfl, rfl⟩
  · cases o1 <;> cases o2 <;> simp only <;> (repeat' split) <;> first | exact ⟨rfl, rfl⟩ | exact ⟨trivial, trivial⟩

/-! ### The plan -/

/-- What the finite check says. -/
structure Checked (m : Mode) (fam : Fam) (as : List AOp) (p : Plan) (f : Form) (e : Entry) (osz : Nat) (a : List Nat) : Prop where
  form : (forms m fam)[p.row]? = some f
  entry : famEntry m fam p.row p.wide = some e
  size : osz = operandSize m p.opsiz (p.rexW && !(fam = .push || fam = .pop)) e.d64
  wide : p.wide = true → f.wds = true
  kind : okKind f e (slots fam f as[0]? as[1]?) = true
  regs : ∀ i, i < 2 → ∀ o, as[i]? = some o → okReg fam p o = true
  long : osz = 8 → fam = .push ∨ fam = .pop ∨ as.any AOp.isLong = true
  arr : a ∈ arrs fam as
  ops : okArr osz (slots fam f as[0]? as[1]?) as e.ops a = true
  imms : needs osz e.ops a = p.imms

theorem okPlan_checked {m : Mode} {fam : Fam} {as : List AOp} {p : Plan} (h : okPlan m fam as p = true) :
    (m ≠ .u64 ∧ (p.rexW = true ∨ p.rex40 = true)) ∨ (p.hi = true ∧ (p.rexW = true ∨ p.rex40 = true)) ∨
    ∃ f e osz a, Checked m fam as p f e osz a := by
  unfold okPlan at h
  simp only [Bool.or_eq_true, Bool.and_eq_true, decide_eq_true_eq] at h
  rcases h with (h | h) | h
  · exact Or.inl h
  · exact Or.inr (Or.inl h)
  · right; right
    split at h
    · rename_i f e hf he
      simp only [Bool.and_eq_true, Bool.or_eq_true, Bool.not_eq_true', List.any_eq_true, List.all_eq_true, decide_eq_true_eq] at h
      obtain ⟨⟨⟨⟨h1, h2⟩, h3⟩, h4⟩, a, ha, h5, h6⟩ := h
      refine ⟨f, e, _, a, hf, he, rfl, ?_, h2, ?_, ?_, ha, h5, h6⟩
      · intro q; rcases h1 with h1 | h1
        · rw [q] at h1; simp at h1
        · exact h1
      · intro i hi o ho
        apply h3
        rw [List.mem_iff_getElem?]
        exact ⟨i, by rw [List.getElem?_take]; simp [hi, ho]⟩
      · intro q
        rcases h4 with ((h4 | h4) | h4) | ⟨o, h4, h4'⟩
        · rw [q] at h4; simp at h4
        · exact Or.inl h4
        · exact Or.inr (Or.inl h4)
        · exact Or.inr (Or.inr (List.any_eq_true.mpr ⟨o, h4, h4'⟩))
    · simp at h

theorem range_map (ops : List Src) : (List.range ops.length).map (ops[·]?) = ops.map some := by
  apply List.ext_getElem?
  intro i
  by_cases h : i < ops.length
  · simp [h]
  · simp [h]

theorem map_some_inj {a b : List Src} (h : a.map some = b.map some) : a = b :=
  List.map_injective_iff.mpr (Option.some_injective _) h

theorem imul3 : ∀ m ∈ modes, ∀ i ∈ List.range 8, ∀ w ∈ [true, false], ∀ e ∈ famEntry m .imul i w, e.ops.length = 3 → e.ops.any OE.isG = true := by
  decide +kernel

theorem imulRm : ∀ m ∈ modes, ∀ f ∈ forms m .imul, f.kind = .rm := by decide +kernel

theorem okArr_length {osz : Nat} {s : Slots} {as : List AOp} : ∀ {es : List OE} {is : List Nat}, okArr osz s as es is = true → es.length = is.length := by
  intro es
  induction es with
  | nil => intro is h; cases is <;> simp [okArr] at h ⊢
  | cons e es ih =>
    intro is h
    cases is with
    | nil => simp [okArr] at h
    | cons i is =>
      simp only [okArr, Bool.and_eq_true] at h
      simp [ih h.2]

/-- The order of the operands. -/
theorem arrs_same {mn : Mn} {ops ops' : List Src} {as : List AOp} {m : Mode} {p : Plan} {f : Form} {e : Entry} {osz : Nat} {a : List Nat}
    (has : ∀ i : Nat, as[i]? = ops[i]?.bind (Src.abs m)) (hal : as.length = ops.length) (hc : Checked m mn.fam as p f e osz a)
    (hm : a.map (ops[·]?) = ops'.map some) : SameOps mn ops ops' := by
  have ha := hc.arr
  have hid : a = List.range as.length → ops' = ops := by
    intro q
    rw [q, hal, range_map] at hm
    exact map_some_inj hm.symm
  unfold arrs at ha
  simp only at ha
  split at ha
  · rename_i hf
    simp only [List.mem_cons, List.not_mem_nil, or_false] at ha
    rcases ha with q | q
    · exact Or.inl (hid q)
    · right; left
      refine ⟨?_, ?_⟩
      · rcases hf with hf | hf
        · left; revert hf; cases mn <;> simp [Mn.fam]
        · right; exact fam_xchg.mp hf
      · rw [q, hal, List.map_reverse, range_map, ← List.map_reverse] at hm
        exact map_some_inj hm.symm
  split at ha
  · rename_i hf hi
    simp only [List.mem_cons, List.not_mem_nil, or_false] at ha
    right; right
    have hmn := fam_imul.mp hi.1
    refine ⟨hmn, ?_⟩
    obtain ⟨-, hl, hi2⟩ := hi
    obtain ⟨o0, o1, rfl⟩ : ∃ o0 o1, ops = [o0, o1] := by
      rw [hal] at hl
      match ops, hl with
      | [x, y], _ => exact ⟨x, y, rfl⟩
    have h1 := has 1
    have h0 := has 0
    simp only [List.getElem?_cons_succ, List.getElem?_cons_zero, Option.bind_some] at h1 h0
    cases hx1 : as[1]? with
    | none => rw [hx1] at hi2; simp at hi2
    | some x1 =>
      rw [hx1] at hi2 h1
      simp only [Option.any_some] at hi2
      cases x1 with
      | reg ty a b => simp [AOp.isImm] at hi2
      | mem z => simp [AOp.isImm] at hi2
      | imm fc z =>
        obtain ⟨v, rfl, -⟩ := abs_imm h1.symm
        have hlen : e.ops.length = 3 := by rw [okArr_length hc.ops, ha]; rfl
        have hrow : p.row < 8 := by
          have := (List.getElem?_eq_some_iff.mp hc.form).1
          have := forms_length m (mem_modes m) mn.fam (mem_fams _)
          omega
        have hk : f.kind = .rm := by
          apply imulRm m (mem_modes m)
          rw [← fam_imul.mpr hmn]
          exact List.mem_of_getElem? hc.form
        have hent := hc.entry
        rw [fam_imul.mpr hmn] at hent
        have hG := imul3 m (mem_modes m) p.row (by simpa using hrow) p.wide (by cases p.wide <;> simp) e hent hlen
        have hkind := hc.kind
        unfold okKind at hkind
        rw [hk] at hkind
        simp only [Bool.and_eq_true, decide_eq_true_eq] at hkind
        rw [hG, hx1] at hkind
        obtain ⟨⟨-, k1⟩, k2⟩ := hkind
        unfold slots at k1 k2
        rw [hk] at k1 k2
        cases o0 with
        | reg r =>
          refine ⟨r, v, z, rfl, ?_⟩
          rw [ha] at hm
          apply map_some_inj
          rw [← hm]
          rfl
        | mem z' ts =>
          simp only [Src.abs] at h0
          rw [h0] at k2
          simp at k2
        | imm v' z' =>
          simp only [Src.abs] at h0
          split at h0 <;> rw [h0] at k1 <;> simp at k1
  · simp only [List.mem_cons, List.not_mem_nil, or_false] at ha
    exact Or.inl (hid ha)

end Verif.Ins
