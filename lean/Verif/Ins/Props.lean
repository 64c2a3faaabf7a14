import Verif.Ins.Enc
import Verif.Ins.All
/-! # C64, C65: the instruction assembled is the instruction written; constants that do not fit are refused -/
namespace Verif.Ins
open Verif.ModRM (Mode Seg EA Term Ctx leUnsigned leSigned leBytes)

theorem finish_flags {m : Mode} {mn : Mn} {p : Plan} {esc : Bool} {opc : Nat} {e : ModRM.Enc} {ops : List Src} {bytes : List Nat}
    (h : finish m mn p esc opc e ops = some bytes) :
    ¬ (m ≠ .u64 ∧ (p.rexW = true ∨ p.rex40 = true)) ∧ ¬ (p.hi = true ∧ (p.rexW = true ∨ p.rex40 = true)) := by
  unfold finish at h
  simp only at h
  split at h
  · exact absurd h (by simp)
  rename_i hhi
  split at h
  · exact absurd h (by simp)
  rename_i hm
  refine ⟨?_, ?_⟩
  · rintro ⟨q, w⟩
    apply hm
    refine ⟨?_, q⟩
    unfold rexByte
    simp only
    rw [if_neg (fun z => q z.1)]
    rcases w with w | w <;> rw [w] <;> simp only [if_true] <;> omega
  · rintro ⟨q, w⟩
    apply hhi
    exact ⟨q, by rcases w with w | w <;> simp [w]⟩

theorem encode_flags {cx : Ctx} {mn : Mn} {p : Plan} {ops : List Src} {bytes : List Nat} (h : encode cx mn p ops = some bytes) :
    ¬ (cx.mode ≠ .u64 ∧ (p.rexW = true ∨ p.rex40 = true)) ∧ ¬ (p.hi = true ∧ (p.rexW = true ∨ p.rex40 = true)) := by
  unfold encode at h
  simp only [Option.bind_eq_bind, Option.bind_eq_some_iff] at h
  obtain ⟨f, -, c, -, h⟩ := h
  split at h
  · simp only [Option.bind_eq_some_iff] at h
    obtain ⟨e, -, h⟩ := h
    exact finish_flags h
  · exact finish_flags h
  · exact finish_flags h

theorem plan_len {m : Mode} {fam : Fam} {as : List AOp} {p : Plan} (hw : ∀ o ∈ as, o.wf) (h : plan m fam as = some p) {f : Facts} {z : Option Sz}
    (h1 : as[1]? = some (.imm f z)) : as.length = 2 := by
  match as, h1, hw, h with
  | [_, _], _, _, _ => rfl
  | [o1, .imm _ _, o3], rfl, hw, h =>
    rw [plan_imm_second m fam f z o1 o3 (hw o1 (by simp)) (hw o3 (by simp))] at h
    simp at h
  | _ :: _ :: _ :: _ :: _, _, _, h => simp [plan] at h

/-- What C64 and C65 say together. -/
theorem assemble_decode {cx : Ctx} {mn : Mn} {ops : List Src} {bytes : List Nat} (hs : Source cx mn ops) (h : assemble cx mn ops = some bytes)
    (tail : List Nat) :
    ∃ d ops', decode cx.mode (bytes ++ tail) = some (d, tail) ∧ d.mn = mn.canon ∧ SameOps mn ops ops' ∧
      List.Forall₂ (fun s d => Means cx s d ∧ Fits s d) ops' d.ops := by
  unfold assemble at h
  simp only [Option.bind_eq_bind, Option.bind_eq_some_iff] at h
  obtain ⟨as, has, p, hp, h⟩ := h
  obtain ⟨hal, has⟩ := mapM_get has
  have hin : ∀ a ∈ as, ∃ o ∈ ops, o.abs cx.mode = some a := by
    intro a ha
    obtain ⟨i, hi, rfl⟩ := List.getElem_of_mem ha
    have := has i
    rw [List.getElem?_eq_getElem hi, List.getElem?_eq_getElem (by omega)] at this
    simp only [Option.bind_some] at this
    exact ⟨_, List.getElem_mem _, this.symm⟩
  have hk : ∀ a ∈ as, a ∈ kinds ∨ ∃ f, a = .imm f (some .q) := by
    intro a ha
    obtain ⟨o, ho, hoa⟩ := hin a ha
    exact abs_mem (fun r hr => hs.regs r (hr ▸ ho)) hoa
  have hk2 : ∀ a ∈ as, a ∈ kinds := by
    intro a ha
    rcases hk a ha with q | ⟨f, rfl⟩
    · exact q
    · rw [plan_q ha] at hp; simp at hp
  have hlen : ∀ v z, ops[1]? = some (.imm v z) → ops.length = 2 := by
    intro v z hv
    have h1 := has 1
    rw [hv] at h1
    simp only [Option.bind_some, Src.abs] at h1
    have h1lt : 1 < as.length := by rw [hal]; exact (List.getElem?_eq_some_iff.mp hv).1
    split at h1
    · rw [List.getElem?_eq_getElem h1lt] at h1; simp at h1
    rw [← hal]
    exact plan_len (fun o ho => (kinds_cases (hk2 o ho)).1) hp h1
  have hc := check_all cx.mode mn.fam as hk
  unfold check at hc
  rw [hp] at hc
  have hs1 : as.any skipImm = false := by
    rw [Bool.eq_false_iff]
    intro q
    rw [List.any_eq_true] at q
    obtain ⟨a, ha, q⟩ := q
    obtain ⟨o, ho, hoa⟩ := hin a ha
    cases a with
    | reg ty a b => simp [skipImm] at q
    | mem z => simp [skipImm] at q
    | imm f z =>
      obtain ⟨v, rfl, rfl, hmax⟩ := abs_imm hoa
      rcases z with _ | z
      · simp [skipImm] at q
      cases z with
      | b =>
        have := hs.byte v ho
        rw [low32_self ⟨by omega, by omega⟩] at q
        simp only [skipImm, Facts.of, Bool.not_eq_true', decide_eq_false_iff_not] at q
        omega
      | w =>
        have := hs.coerced v ho
        rw [low32_self ⟨by omega, by omega⟩] at q
        simp only [skipImm, Facts.of, Bool.not_eq_true', decide_eq_false_iff_not] at q
        omega
      | d => simp [skipImm] at q
      | q => simp [skipImm] at q
  have hs2 : skipOps cx.mode as = false := by
    rw [Bool.eq_false_iff]
    intro q
    unfold skipOps at q
    split at q
    · rename_i f _
      simp only [Bool.and_eq_true, decide_eq_true_eq, Bool.not_eq_true'] at q
      obtain ⟨⟨⟨q0, q1⟩, q2⟩, q3⟩ := q
      obtain ⟨o1, o2, rfl⟩ : ∃ o1 o2, ops = [o1, o2] := by
        match ops, hal with
        | [x, y], _ => exact ⟨x, y, rfl⟩
      have h0 := has 0
      have h1 := has 1
      simp only [List.getElem?_cons_zero, List.getElem?_cons_succ, Option.bind_some] at h0 h1
      obtain ⟨v, rfl, rfl, hmax⟩ := abs_imm h1.symm
      cases o1 with
      | reg r => simp [Src.abs, GReg.abs] at h0
      | imm v' z' => simp only [Src.abs] at h0; split at h0 <;> simp at h0
      | mem z' ts =>
        simp only [Src.abs, Option.some.injEq, AOp.mem.injEq] at h0
        subst h0
        have hn := hs.word q0 ts v _ rfl
        have hv := hs.nums v f (by simp)
        simp only [Facts.of, decide_eq_true_eq, decide_eq_false_iff_not] at q1 q2 q3
        have lc := low32_cases hv hmax
        have lr := low32_range v
        rw [bmod256, bmod65536] at q1
        apply hn
        norm_num at *
        rcases lc with lc | lc <;> rw [lc] at q1 q2 q3 lr <;> (repeat' split at q1) <;> omega
    · simp at q
  rw [hs1, hs2, Bool.false_or, Bool.false_or] at hc
  obtain ⟨n1, n2⟩ := encode_flags h
  rcases okPlan_checked hc with w | w | ⟨f, e, osz, a, w⟩
  · exact absurd w n1
  · exact absurd w n2
  · exact encode_decode hs has hal w hlen h tail

/-- **C64.** Whatever bytes the assembler writes for a line `mn op, op, …`, the processor reads exactly these bytes as one instruction,
and this is the instruction written: the mnemonic, the registers, sizes and addresses of memory, the constants as numbers of
the operand size. (`Source`: see the theorems `C64_finding_…` for what is left out. TEST and XCHG may exchange the operands, `imul r, n` is
`imul r, r, n`.) -/
theorem C64_the_instruction_assembled_is_the_instruction_written {cx : Ctx} {mn : Mn} {ops : List Src} {bytes : List Nat}
    (hs : Source cx mn ops) (h : assemble cx mn ops = some bytes) (tail : List Nat) :
    ∃ d ops', decode cx.mode (bytes ++ tail) = some (d, tail) ∧ d.mn = mn.canon ∧ SameOps mn ops ops' ∧ List.Forall₂ (Means cx) ops' d.ops := by
  obtain ⟨d, ops', h1, h2, h3, h4⟩ := assemble_decode hs h tail
  exact ⟨d, ops', h1, h2, h3, h4.imp fun _ _ q => q.1⟩

/-- **C65.** A constant that does not fit in the operand that the instruction written for it has is refused. -/
theorem C65_a_constant_that_does_not_fit_is_refused {cx : Ctx} {mn : Mn} {ops : List Src} {bytes : List Nat}
    (hs : Source cx mn ops) (h : assemble cx mn ops = some bytes) (tail : List Nat) :
    ∃ d ops', decode cx.mode (bytes ++ tail) = some (d, tail) ∧ SameOps mn ops ops' ∧ List.Forall₂ Fits ops' d.ops := by
  obtain ⟨d, ops', h1, -, h3, h4⟩ := assemble_decode hs h tail
  exact ⟨d, ops', h1, h3, h4.imp fun _ _ q => q.2⟩

/-! ### C65 for registers -/

/-- Mnemonics with a register and a constant of the same size. -/
def Mn.arith : Mn → Prop
  | .add | .or | .adc | .sbb | .and | .sub | .xor | .cmp | .test => True
  | _ => False

theorem shifts_arith {n : Nat} {mn : Mn} (h : shifts n = some mn) : ¬ mn.arith := by
  unfold shifts at h
  split at h <;> first | (simp only [Option.some.injEq] at h; subst h; simp [Mn.arith]) | simp at h

theorem group3_arith {n : Nat} {mn : Mn} (h : group3 n = some mn) : ¬ mn.arith := by
  unfold group3 at h
  split at h <;> first | (simp only [Option.some.injEq] at h; subst h; simp [Mn.arith]) | simp at h

theorem bits_arith {n : Nat} {mn : Mn} (h : bits n = some mn) : ¬ mn.arith := by
  unfold bits at h
  split at h <;> first | (simp only [Option.some.injEq] at h; subst h; simp [Mn.arith]) | simp at h

/-- The entry has operands of one size. -/
def Entry.even (e : Entry) : Prop :=
  ∃ x, ∀ o ∈ e.ops, o = .E x ∨ o = .G x ∨ o = .A x ∨ o = .I x ∨ o = .Ib x

theorem ite_imp {α : Type} {c : Prop} [Decidable c] {a b : Option α} {e : α} {P : Prop} (ha : a = some e → P) (hb : b = some e → P) :
    (if c then a else b) = some e → P := by
  split
  · exact ha
  · exact hb

theorem map1_arith {m : Mode} {nop : Bool} {opc digit : Nat} {e : Entry} (h : map1 m nop opc digit = some e) (ha : e.mn.arith) : e.even := by
  unfold map1 at h
  revert h
  simp only
  repeat' apply ite_imp
  all_goals intro h
  all_goals try split at h
  all_goals first
    | (simp only [Option.some.injEq] at h
       subst h
       first
         | exact False.elim ha
         | (refine ⟨wbit opc, ?_⟩; simp; done)
         | (refine ⟨.v, ?_⟩; simp))
    | (simp only [Option.map_eq_some_iff] at h
       obtain ⟨n, hn, rfl⟩ := h
       first
         | exact absurd ha (shifts_arith hn)
         | exact absurd ha (group3_arith hn))
    | simp at h

theorem map2_arith {opc digit : Nat} {e : Entry} (h : map2 opc digit = some e) : ¬ e.mn.arith := by
  unfold map2 at h
  revert h
  simp only
  repeat' apply ite_imp
  all_goals intro h
  all_goals first
    | (simp only [Option.some.injEq] at h
       subst h
       simp [Mn.arith])
    | (simp only [Option.map_eq_some_iff] at h
       obtain ⟨n, hn, rfl⟩ := h
       exact bits_arith hn)
    | simp at h

theorem readOp_even {c : DCx} {bs rest : List Nat} {o : OE} {d : Opn} {x : W} (hw : o = .E x ∨ o = .G x ∨ o = .A x ∨ o = .I x ∨ o = .Ib x)
    (h : readOp c bs o = some (d, rest)) :
    (∀ r, d = .reg r → r.size = szOf (width c.osz x)) ∧ ∀ v n, d = .imm v n → n = width c.osz x := by
  rcases hw with rfl | rfl | rfl | rfl | rfl <;> simp only [readOp, takeS] at h
  · split at h
    · simp only [Option.some.injEq, Prod.mk.injEq] at h
      obtain ⟨rfl, -⟩ := h
      exact ⟨by rintro r ⟨⟩; rfl, by rintro v n ⟨⟩⟩
    · simp only [Option.some.injEq, Prod.mk.injEq] at h
      obtain ⟨rfl, -⟩ := h
      exact ⟨by rintro r ⟨⟩, by rintro v n ⟨⟩⟩
    · simp at h
  · split at h
    · simp only [Option.some.injEq, Prod.mk.injEq] at h
      obtain ⟨rfl, -⟩ := h
      exact ⟨by rintro r ⟨⟩; rfl, by rintro v n ⟨⟩⟩
    · simp only [Option.some.injEq, Prod.mk.injEq] at h
      obtain ⟨rfl, -⟩ := h
      exact ⟨by rintro r ⟨⟩; rfl, by rintro v n ⟨⟩⟩
    · simp at h
  · simp only [Option.some.injEq, Prod.mk.injEq] at h
    obtain ⟨rfl, -⟩ := h
    exact ⟨by rintro r ⟨⟩; rfl, by rintro v n ⟨⟩⟩
  · split at h
    · simp at h
    · simp only [Option.some.injEq, Prod.mk.injEq] at h
      obtain ⟨rfl, -⟩ := h
      exact ⟨by rintro r ⟨⟩, by rintro v n ⟨⟩; rfl⟩
  · split at h
    · simp at h
    · simp only [Option.some.injEq, Prod.mk.injEq] at h
      obtain ⟨rfl, -⟩ := h
      exact ⟨by rintro r ⟨⟩, by rintro v n ⟨⟩; rfl⟩

theorem readOps_two {c : DCx} {bs rest : List Nat} {es : List OE} {d1 d2 : Opn} (h : readOps c bs es = some ([d1, d2], rest)) :
    ∃ e1 e2 bs1 bs2, es = [e1, e2] ∧ readOp c bs e1 = some (d1, bs1) ∧ readOp c bs1 e2 = some (d2, bs2) := by
  match es, h with
  | [], h => simp [readOps] at h
  | [e1], h =>
    simp only [readOps] at h
    split at h <;> simp at h
  | e1 :: e2 :: e3 :: es, h =>
    simp only [readOps] at h
    split at h
    · simp at h
    split at h
    · simp at h
    rename_i h1 h2
    split at h2
    · simp at h2
    split at h2
    · simp at h2
    rename_i h3
    split at h3
    · simp at h3
    split at h3
    · simp at h3
    simp only [Option.some.injEq, Prod.mk.injEq] at h h2 h3
    obtain ⟨rfl, -⟩ := h3
    obtain ⟨rfl, -⟩ := h2
    simp at h
  | [e1, e2], h =>
    simp only [readOps] at h
    split at h
    · simp at h
    rename_i o1 bs1 h1
    split at h
    · simp at h
    rename_i h2
    split at h2
    · simp at h2
    rename_i o2 bs2 h3
    simp only [Option.some.injEq, Prod.mk.injEq] at h h2
    obtain ⟨rfl, rfl⟩ := h2
    obtain ⟨h, -⟩ := h
    simp only [List.cons.injEq, and_true] at h
    obtain ⟨rfl, rfl⟩ := h
    exact ⟨e1, e2, bs1, _, rfl, h1, h3⟩

/-- The operands have one size. -/
def EvenOps (d1 d2 : Opn) : Prop :=
  ∃ n, (n = 1 ∨ n = 2 ∨ n = 4 ∨ n = 8) ∧ (∀ r, d1 = .reg r ∨ d2 = .reg r → r.size = szOf n) ∧ ∀ v k, d1 = .imm v k ∨ d2 = .imm v k → k = n

theorem decodeOp_even {m : Mode} {p : Pre} {hasRex : Bool} {rex : Nat} {esc : Bool} {opc : Nat} {bs rest : List Nat} {mn : Mn} {d1 d2 : Opn}
    (h : decodeOp m p hasRex rex esc opc bs = some (⟨mn, [d1, d2]⟩, rest)) (ha : mn.arith) : EvenOps d1 d2 := by
  unfold decodeOp at h
  simp only at h
  split at h
  · simp at h
  rename_i e he
  split at h
  · simp at h
  split at h
  · simp at h
  rename_i ops bs' ho
  simp only [Option.some.injEq, Prod.mk.injEq, Dec.mk.injEq] at h
  obtain ⟨⟨rfl, rfl⟩, rfl⟩ := h
  have hev : e.even := by
    split at he
    · exact absurd ha (map2_arith he)
    · exact map1_arith he ha
  obtain ⟨x, hx⟩ := hev
  obtain ⟨e1, e2, bs1, bs2, he2, h1, h2⟩ := readOps_two ho
  rw [he2] at hx
  obtain ⟨a1, b1⟩ := readOp_even (hx e1 (by simp)) h1
  obtain ⟨a2, b2⟩ := readOp_even (hx e2 (by simp)) h2
  refine ⟨_, ?_, fun r hr => hr.elim (a1 r) (a2 r), fun v k hk => hk.elim (b1 v k) (b2 v k)⟩
  cases x with
  | b => simp [width]
  | w => simp [width]
  | v =>
    simp only [width]
    unfold operandSize
    cases m <;> simp only <;> (repeat' split) <;> simp

theorem decode_even {m : Mode} {bs rest : List Nat} {mn : Mn} {d1 d2 : Opn}
    (h : decode m bs = some (⟨mn, [d1, d2]⟩, rest)) (ha : mn.arith) : EvenOps d1 d2 := by
  unfold decode at h
  simp only at h
  split at h
  · simp at h
  split at h
  · split at h
    · simp at h
    · exact decodeOp_even h ha
  · exact decodeOp_even h ha

/-- **C65**, for `add reg, number` and the like: what is refused. A number is accepted as itself or, from 80000000h to 0FFFFFFFFh, as
a negative one (C65_finding_limits). -/
theorem C65_a_number_too_large_for_the_register_is_refused {cx : Ctx} {mn : Mn} {r : GReg} {v : Int} (ha : mn.arith)
    (hs : Source cx mn [.reg r, .imm v none])
    (hv : (r.size = .b → (v < -128 ∨ 255 < v) ∧ v < 0xFFFFFF80) ∧ (r.size = .w → (v < -65535 ∨ 65535 < v) ∧ v < 0xFFFF0001) ∧
      (r.size = .d → 0xFFFFFFFF < v) ∧ r.size ≠ .q) :
    assemble cx mn [.reg r, .imm v none] = none := by
  cases h : assemble cx mn [.reg r, .imm v none] with
  | none => rfl
  | some bytes =>
    exfalso
    obtain ⟨⟨mn', dops⟩, ops', h1, h2, h3, h4⟩ := assemble_decode hs h []
    have hmn : mn' = mn := by
      simp only at h2
      rw [h2]
      revert ha
      cases mn <;> simp [Mn.arith, Mn.canon]
    subst hmn
    have fit : ∀ d1 d2, decode cx.mode (bytes ++ []) = some (⟨mn', [d1, d2]⟩, []) → ∀ n v', (d1 = .imm v' n ∨ d2 = .imm v' n) →
        (d1 = .reg r ∨ d2 = .reg r) → Fits (.imm v none) (.imm v' n) → False := by
      intro d1 d2 hd n v' hi hr hf
      obtain ⟨k, hk, q1, q2⟩ := decode_even hd ha
      have q1 := q1 r hr
      have q2 := q2 v' n hi
      subst q2
      obtain ⟨f4, x, hx, hlo, f1, f2, f8⟩ := hf
      obtain ⟨v1, v2, v4, v8⟩ := hv
      norm_num at *
      rcases hk with rfl | rfl | rfl | rfl
      · have := v1 q1; have := f1 rfl; omega
      · have := v2 q1; have := f2 rfl; omega
      · have := v4 q1; omega
      · exact v8 q1
    have isReg : ∀ d, Means cx (.reg r) d → d = .reg r := by
      intro d hd
      cases d with
      | reg r' => simp only [Means] at hd; rw [hd]
      | mem _ _ _ => exact absurd hd (by simp [Means])
      | imm _ _ => exact absurd hd (by simp [Means])
    have isImm : ∀ d, Means cx (.imm v none) d → ∃ v' n, d = .imm v' n := by
      intro d hd
      cases d with
      | reg r' => exact absurd hd (by simp [Means])
      | mem _ _ _ => exact absurd hd (by simp [Means])
      | imm v' n => exact ⟨v', n, rfl⟩
    rcases h3 with rfl | ⟨-, rfl⟩ | ⟨rfl, -⟩
    · match dops, h4 with
      | [d1, d2], .cons ⟨m1, _⟩ (.cons ⟨m2, m3⟩ .nil) =>
        obtain rfl := isReg d1 m1
        obtain ⟨v', n, rfl⟩ := isImm d2 m2
        exact fit _ _ h1 n v' (Or.inr rfl) (Or.inl rfl) m3
    · match dops, h4 with
      | [d1, d2], .cons ⟨m2, m3⟩ (.cons ⟨m1, _⟩ .nil) =>
        obtain rfl := isReg d2 m1
        obtain ⟨v', n, rfl⟩ := isImm d1 m2
        exact fit _ _ h1 n v' (Or.inl rfl) (Or.inr rfl) m3
    · exact ha

/-! ### Cases that meet the hypotheses -/

section Examples
private def c16 : Ctx := { mode := .u16, dir := .u16 }
private def c32 : Ctx := { mode := .u32, dir := .u32 }
private def c64 : Ctx := { mode := .u64, dir := .u64, seg := some .gs }
private def ax : Src := .reg ⟨.w, 0, false⟩
private def eax : Src := .reg ⟨.d, 0, false⟩
private def al : Src := .reg ⟨.b, 0, false⟩
private def rax : Src := .reg ⟨.q, 0, false⟩
private def atEbx : Src := .mem none [.reg ⟨.r32, 3⟩]

/-- `imul r10, gs:[r13 + r9*4 + 16], 1000` -/
private def ex1 : List Src := [.reg ⟨.q, 10, false⟩, .mem (some .q) [.reg ⟨.r64, 13⟩, .mul ⟨.r64, 9⟩ 4, .num 16], .imm 1000 none]

example : assemble c64 .imul ex1 = some [0x65, 0x4F, 0x69, 0x54, 0x8D, 0x10, 0xE8, 0x03, 0, 0] := by decide +kernel

example : Source c64 .imul ex1 := by
  refine ⟨rfl, ?_, ?_, ?_, ?_, ?_, ?_, ?_, ?_⟩
  · simp [ex1, c64, GReg.ok]
  · simp only [ex1, List.mem_cons, Src.mem.injEq, reduceCtorEq, List.not_mem_nil, or_false, false_or]
    rintro z ts ⟨rfl, rfl⟩
    refine ⟨by constructor <;> simp [ModRM.regsOf, Term.regs, ModRM.Reg.ok, c64], ?_⟩
    intro _ _ _ _
    have : ModRM.numSum [.reg ⟨.r64, 13⟩, .mul ⟨.r64, 9⟩ 4, .num 16] = 16 := by decide
    rw [this]; omega
  · simp [ex1]
  · simp [ex1]
  · simp [ex1]
  · simp [ex1]
  · simp [ex1]
  · simp

/-- `shl dword ptr [ebx], cl`, `cmp bh, -128`, `push 70000` in 32-bit code; `adc cx, 0FFF0h` in 16-bit code -/
example : assemble c32 .shl [.mem (some .d) [.reg ⟨.r32, 3⟩], .reg ⟨.b, 1, false⟩] = some [0xD3, 0x23] ∧
    assemble c32 .cmp [.reg ⟨.b, 7, true⟩, .imm (-128) none] = some [0x80, 0xFF, 0x80] ∧
    assemble c32 .push [.imm 70000 none] = some [0x68, 0x70, 0x11, 1, 0] ∧
    assemble c16 .adc [.reg ⟨.w, 1, false⟩, .imm 0xFFF0 none] = some [0x83, 0xD1, 0xF0] := by decide +kernel

example : Source c16 .adc [.reg ⟨.w, 1, false⟩, .imm 0xFFF0 none] := by
  constructor <;> simp [c16, GReg.ok]

/-- C65: `add al, 256`, `add al, -129`, `add ax, 65536`, `int 256`, `shl eax, 256`, `add eax, 100000000h` -/
example : assemble c32 .add [al, .imm 256 none] = none ∧ assemble c32 .add [al, .imm (-129) none] = none ∧
    assemble c32 .add [ax, .imm 65536 none] = none ∧ assemble c32 .int [.imm 256 none] = none ∧
    assemble c32 .shl [eax, .imm 256 none] = none ∧ assemble c32 .add [eax, .imm 0x100000000 none] = none := by decide +kernel

example : Source c32 .add [al, .imm 256 none] := by
  constructor <;> simp [c32, al, GReg.ok]

/-- C65: `add al, 256` meets the hypotheses. -/
example : assemble c32 .add [al, .imm 256 none] = none :=
  C65_a_number_too_large_for_the_register_is_refused (by simp [Mn.arith])
    (by constructor <;> simp [c32, GReg.ok]) (by simp)

/-! ### Findings: what `Source` leaves out -/

/-- Numbers below -2^31 lose their upper half silently: `add eax, -100000005h` is `add eax, -5` (idata_nofixup tests only
numbers above 0FFFFFFFFh). -/
theorem C64_finding_low :
    assemble c32 .add [eax, .imm (-0x100000005) none] = some [0x83, 0xC0, 0xFB] ∧
    decode .u32 [0x83, 0xC0, 0xFB] = some (⟨.add, [.reg ⟨.d, 0, false⟩, .imm (-5) 4]⟩, []) := by decide +kernel

/-- `add rax, 80000000h` adds 0FFFFFFFF80000000h; so does `push 80000000h`. -/
theorem C64_finding_long :
    assemble c64 .add [rax, .imm 0x80000000 none] = some [0x48, 0x05, 0, 0, 0, 0x80] ∧
    decode .u64 [0x48, 0x05, 0, 0, 0, 0x80] = some (⟨.add, [.reg ⟨.q, 0, false⟩, .imm (-0x80000000) 8]⟩, []) ∧
    assemble c64 .push [.imm 0x80000000 none] = some [0x68, 0, 0, 0, 0x80] := by decide +kernel

/-- BYTE PTR before a constant is not checked: `add ax, byte ptr 200` adds -56, `add ax, byte ptr 300` adds 44. -/
theorem C64_finding_byte :
    assemble c32 .add [ax, .imm 200 (some .b)] = some [0x66, 0x83, 0xC0, 200] ∧
    decode .u32 [0x66, 0x83, 0xC0, 200] = some (⟨.add, [.reg ⟨.w, 0, false⟩, .imm (-56) 2]⟩, []) ∧
    assemble c32 .add [ax, .imm 300 (some .b)] = some [0x66, 0x83, 0xC0, 44] := by decide +kernel

/-- WORD PTR before a constant is not checked either: `add ax, word ptr 100000` adds 86A0h. -/
theorem C65_finding_word :
    assemble c32 .add [ax, .imm 100000 (some .w)] = some [0x66, 0x05, 0xA0, 0x86] := by decide +kernel

/-- `add [ebx], 0FFFFh` in 32-bit code: a WORD is assumed, but the bytes are `add dword ptr [ebx], -1`. -/
theorem C64_finding_word :
    assemble c32 .add [atEbx, .imm 0xFFFF none] = some [0x83, 0x03, 0xFF] ∧
    decode .u32 [0x83, 0x03, 0xFF] = some (⟨.add, [.mem 4 ⟨32, [(3, 1)], false, 0, false⟩ none, .imm (-1) 4]⟩, []) := by decide +kernel

/-- `xchg eax, eax` in 64-bit code clears the upper half of RAX; the byte written is NOP. -/
theorem C64_finding_nop :
    assemble c64 .xchg [eax, eax] = some [0x90] ∧ decode .u64 [0x90] = none := by decide +kernel

/-- WORD PTR before a constant does not give memory without a size the size WORD: `add [ebx], word ptr 5` is
`add byte ptr [ebx], 5`. -/
theorem C64_finding_ptr :
    assemble c32 .add [atEbx, .imm 5 (some .w)] = some [0x80, 0x03, 5] := by decide +kernel

/-- The limits of C65 are wider than the operands: `add ax, -65535` adds 1; `add al, 0FFFFFFFFh` adds -1. -/
theorem C65_finding_limits :
    assemble c32 .add [ax, .imm (-65535) none] = some [0x66, 0x83, 0xC0, 1] ∧
    assemble c32 .add [al, .imm 0xFFFFFFFF none] = some [0x04, 0xFF] := by decide +kernel

end Examples

end Verif.Ins
