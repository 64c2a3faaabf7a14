import Verif.Ins.Lemmas
/-! # C64: reading the operands -/
namespace Verif.Ins
open Verif.ModRM (Mode Seg EA Term Ctx leUnsigned leSigned leBytes)

/-- The decoder's state agrees with the operands. -/
structure Agree (cx : Ctx) (ops : List Src) (s : Slots) (c : DCx) : Prop where
  regs : ∀ r, .reg r ∈ ops → r.ok cx.mode
  high : ∀ i r, (s.e = some i ∨ s.g = some i ∨ s.z = some i) → ops[i]? = some (.reg r) → r.size = .b →
    r.high = (!c.hasRex && decide (4 ≤ r.no ∧ r.no ≤ 7))
  e : ∀ i, s.e = some i → c.rm.isOp cx c.seg ops[i]?
  g : ∀ j, s.g = some j → c.rm ≠ .none ∧ ∃ r, ops[j]? = some (.reg r) ∧ c.rm.regNo = r.no
  z : ∀ j, s.z = some j → ∃ r, ops[j]? = some (.reg r) ∧ c.opc % 8 + 8 * (c.rex % 2) = r.no
  nums : ∀ v z, .imm v z ∈ ops → -2 ^ 31 ≤ v
  long : c.osz = 8 → ∀ v z, .imm v z ∈ ops → v < 2 ^ 31

/-- The constants. -/
def immBytes (ops : List Src) (l : List (Nat × Nat)) : List Nat := l.flatMap fun q => leBytes (immVal ops q.1) q.2

theorem immBytes_cons (ops : List Src) (i n : Nat) (l : List (Nat × Nat)) :
    immBytes ops ((i, n) :: l) = leBytes (immVal ops i) n ++ immBytes ops l := rfl

theorem immBytes_nil (ops : List Src) : immBytes ops [] = [] := rfl

theorem takeS_le (v : Int) (n size : Nat) (tail : List Nat) :
    takeS n size (leBytes v n ++ tail) = some (.imm (Int.bmod v (2 ^ (8 * n))) size, tail) := by
  have hl := ModRM.leBytes_length v n
  have h1 : (leBytes v n ++ tail).take n = leBytes v n := by
    rw [List.take_append_of_le_length (by omega), List.take_of_length_le (by omega)]
  have h2 : (leBytes v n ++ tail).drop n = tail := by
    rw [List.drop_append_of_le_length (by omega), List.drop_of_length_le (by omega)]; rfl
  unfold takeS
  rw [if_neg (by rw [List.length_append]; omega), h1, h2, ModRM.leSigned_leBytes]

theorem takeU_le (v : Int) (n : Nat) (tail : List Nat) : takeU n (leBytes v n ++ tail) = some (.imm (v % 2 ^ (8 * n)) n, tail) := by
  have hl := ModRM.leBytes_length v n
  have h1 : (leBytes v n ++ tail).take n = leBytes v n := by
    rw [List.take_append_of_le_length (by omega), List.take_of_length_le (by omega)]
  have h2 : (leBytes v n ++ tail).drop n = tail := by
    rw [List.drop_append_of_le_length (by omega), List.drop_of_length_le (by omega)]; rfl
  unfold takeU
  rw [if_neg (by rw [List.length_append]; omega), h1, h2, ModRM.leUnsigned_leBytes]

theorem bmod_emod_pow (v : Int) (n : Nat) : Int.bmod v (2 ^ n) % 2 ^ n = v % 2 ^ n := by
  have := Int.bmod_emod (x := v) (m := 2 ^ n)
  push_cast at this
  exact this

/-- Congruent modulo 2^32, hence modulo smaller powers. -/
theorem low32_mod (v : Int) (n : Nat) (h : n ≤ 32) : low32 v % 2 ^ n = v % 2 ^ n := by
  have h1 := low32_emod v
  have hd : (2 : Int) ^ n ∣ 2 ^ 32 := pow_dvd_pow 2 h
  rw [← Int.emod_emod_of_dvd (low32 v) hd, h1, Int.emod_emod_of_dvd v hd]

theorem szOf_bytes {n : Nat} (h : n = 1 ∨ n = 2 ∨ n = 4 ∨ n = 8) : (szOf n).bytes = n := by
  rcases h with rfl | rfl | rfl | rfl <;> rfl

theorem sizeBit_inj {a b : Sz} (h : sizeBit a = sizeBit b) : a = b := by
  cases a <;> cases b <;> first | rfl | (exact absurd h (by decide))

theorem hasSize_reg {m : Mode} {r : GReg} {n : Nat} (hr : r.ok m) (h : (r.abs m).hasSize n = true) :
    szOf n = r.size ∧ (n = 1 ∨ n = 2 ∨ n = 4 ∨ n = 8) := by
  obtain ⟨-, -, -, t4, -⟩ := ty_ok hr
  unfold GReg.abs AOp.hasSize at h
  simp only [Bool.and_eq_true, decide_eq_true_eq, Bool.or_eq_true, beq_iff_eq] at h
  have h1 : r.ty &&& 0xF = sizeBit (szOf n) := h.1
  rw [t4] at h1
  exact ⟨(sizeBit_inj h1).symm, by omega⟩

theorem gpr_eq {m : Mode} {r : GReg} {n : Nat} {hasRex : Bool} (hr : r.ok m) (h : (r.abs m).hasSize n = true)
    (hh : r.size = .b → r.high = (!hasRex && decide (4 ≤ r.no ∧ r.no ≤ 7))) : gpr hasRex n r.no = r := by
  obtain ⟨h1, h2⟩ := hasSize_reg hr h
  unfold gpr
  obtain ⟨z, no, hi⟩ := r
  simp only at h1 hh ⊢
  rw [h1]
  congr 1
  by_cases hz : z = .b
  · rw [hh hz]
    have : n = 1 := by
      rcases h2 with rfl | rfl | rfl | rfl <;> first | rfl | (rw [hz] at h1; simp [szOf] at h1)
    simp [this]
  · have : n ≠ 1 := by rintro rfl; exact hz h1.symm
    have hf : hi = false := by
      cases hi
      · rfl
      · exact absurd (hr.2.1 rfl).1 hz
    simp [this, hf]

theorem mem_size {z : Option Sz} {n : Nat} (h : (AOp.mem z).memSize n = true) : ∀ y, z = some y → n = y.bytes ∨ n = 0 := by
  intro y hy
  subst hy
  simp only [AOp.memSize, beq_iff_eq] at h
  exact Or.inl h.symm

theorem abs_reg {m : Mode} {src : Src} {ty : Nat} {a b : Bool} (h : src.abs m = some (.reg ty a b)) : ∃ r, src = .reg r ∧ r.abs m = .reg ty a b := by
  cases src with
  | reg r => simp only [Src.abs, Option.some.injEq] at h; exact ⟨r, rfl, h⟩
  | mem z ts => simp [Src.abs] at h
  | imm v z => simp only [Src.abs] at h; split at h <;> simp at h

theorem abs_imm {m : Mode} {src : Src} {f : Facts} {z : Option Sz} (h : src.abs m = some (.imm f z)) : ∃ v, src = .imm v z ∧ f = Facts.of (low32 v) ∧ v ≤ 0xFFFFFFFF := by
  cases src with
  | reg r => simp [Src.abs, GReg.abs] at h
  | mem z ts => simp [Src.abs] at h
  | imm v z =>
    simp only [Src.abs] at h
    split at h
    · simp at h
    · simp only [Option.some.injEq, AOp.imm.injEq] at h
      exact ⟨v, by rw [h.2], h.1.symm, by omega⟩

theorem abs_mem' {m : Mode} {src : Src} {z : Option Sz} (h : src.abs m = some (.mem z)) : ∃ ts, src = .mem z ts := by
  cases src with
  | reg r => simp [Src.abs, GReg.abs] at h
  | mem z ts => simp only [Src.abs, Option.some.injEq, AOp.mem.injEq] at h; exact ⟨ts, by rw [h]⟩
  | imm v z => simp only [Src.abs] at h; split at h <;> simp at h

theorem width_cases (osz : Nat) (w : W) : width osz w = 1 ∨ width osz w = 2 ∨ width osz w = osz := by cases w <;> simp [width]

theorem low32_cases {v : Int} (h1 : -2 ^ 31 ≤ v) (h2 : v ≤ 0xFFFFFFFF) : low32 v = v ∨ low32 v = v - 2 ^ 32 := by
  have := low32_emod v
  have := low32_range v
  norm_num at *
  omega

theorem readOp_ok {cx : Ctx} {ops : List Src} {s : Slots} {c : DCx} (ag : Agree cx ops s c) {e : OE} {i : Nat} {src : Src} {o : AOp}
    (hi : ops[i]? = some src) (ho : src.abs cx.mode = some o) (h : okOp c.osz s e i o = true) (tail : List Nat) :
    ∃ d, readOp c (immBytes ops (needs c.osz [e] [i]) ++ tail) e = some (d, tail) ∧ Means cx src d ∧ Fits src d := by
  have hmem : src ∈ ops := List.mem_of_getElem? hi
  -- a register or memory operand in ModRM.rm
  have caseE : ∀ w, s.e = some i → (o.hasSize (width c.osz w) || o.memSize (width c.osz w)) = true →
      ∃ d, readOp c tail (.E w) = some (d, tail) ∧ Means cx src d ∧ Fits src d := by
    intro w hs hsz
    have hrm := ag.e i hs
    rw [hi] at hrm
    cases src with
    | imm v z => exact absurd hrm (by simp [RM.isOp])
    | reg r =>
      obtain ⟨b, hb⟩ := hrm
      simp only [Src.abs, Option.some.injEq] at ho
      subst ho
      have hr := ag.regs r hmem
      have hsz : (r.abs cx.mode).hasSize (width c.osz w) = true := by
        rcases Bool.or_eq_true _ _ |>.mp hsz with q | q
        · exact q
        · simp [GReg.abs, AOp.memSize] at q
      refine ⟨_, by simp only [readOp, hb]; rfl, ?_⟩
      exact ⟨gpr_eq hr hsz (ag.high i r (Or.inl hs) hi), trivial⟩
    | mem z ts =>
      obtain ⟨ea, b, hb, hm⟩ := hrm
      simp only [Src.abs, Option.some.injEq] at ho
      subst ho
      have hsz : (AOp.mem z).memSize (width c.osz w) = true := by
        rcases Bool.or_eq_true _ _ |>.mp hsz with q | q
        · simp [AOp.hasSize] at q
        · exact q
      exact ⟨.mem (width c.osz w) ea c.seg, by simp only [readOp, hb], ⟨mem_size hsz, hm⟩, trivial⟩
  cases e with
  | E w =>
    simp only [okOp, Bool.and_eq_true, decide_eq_true_eq] at h
    exact caseE w h.1 h.2
  | M =>
    simp only [okOp, Bool.and_eq_true, decide_eq_true_eq] at h
    have hrm := ag.e i h.1
    rw [hi] at hrm
    cases src with
    | imm v z => exact absurd hrm (by simp [RM.isOp])
    | reg r =>
      simp only [Src.abs, Option.some.injEq] at ho
      subst ho
      exact absurd h.2 (by simp [GReg.abs, AOp.isMem])
    | mem z ts =>
      obtain ⟨ea, b, hb, hm⟩ := hrm
      exact ⟨.mem 0 ea c.seg, by simp only [readOp, hb]; rfl, ⟨fun _ _ => Or.inr rfl, hm⟩, trivial⟩
  | G w =>
    simp only [okOp, Bool.and_eq_true, decide_eq_true_eq] at h
    obtain ⟨hne, r, hr1, hr2⟩ := ag.g i h.1
    rw [hi] at hr1
    simp only [Option.some.injEq] at hr1
    subst hr1
    simp only [Src.abs, Option.some.injEq] at ho
    subst ho
    have hr := ag.regs r hmem
    have hg := gpr_eq (hasRex := c.hasRex) hr h.2 (ag.high i r (Or.inr (Or.inl h.1)) hi)
    cases hrm : c.rm with
    | none => exact absurd hrm hne
    | reg a b =>
      rw [hrm] at hr2
      simp only [RM.regNo] at hr2
      exact ⟨_, by simp only [readOp, hrm]; rfl, by rw [hr2]; exact hg, trivial⟩
    | mem a b =>
      rw [hrm] at hr2
      simp only [RM.regNo] at hr2
      exact ⟨_, by simp only [readOp, hrm]; rfl, by rw [hr2]; exact hg, trivial⟩
  | Z w =>
    simp only [okOp, Bool.and_eq_true, decide_eq_true_eq] at h
    obtain ⟨r, hr1, hr2⟩ := ag.z i h.1
    rw [hi] at hr1
    simp only [Option.some.injEq] at hr1
    subst hr1
    simp only [Src.abs, Option.some.injEq] at ho
    subst ho
    have hr := ag.regs r hmem
    exact ⟨_, rfl, by rw [hr2]; exact gpr_eq hr h.2 (ag.high i r (Or.inr (Or.inr h.1)) hi), trivial⟩
  | A w =>
    cases o with
    | mem z => simp [okOp] at h
    | imm f z => simp [okOp] at h
    | reg ty a b =>
      simp only [okOp, Bool.and_eq_true, decide_eq_true_eq] at h
      obtain ⟨r, rfl, hra⟩ := abs_reg ho
      have hr := ag.regs r hmem
      have hty : r.ty = ty := by
        have : AOp.reg r.ty _ _ = AOp.reg ty a b := hra
        simp only [AOp.reg.injEq] at this
        exact this.1
      obtain ⟨-, t2, -⟩ := ty_ok hr
      rw [hty] at t2
      have h0 := t2.mp h.2
      have hsz : (r.abs cx.mode).hasSize (width c.osz w) = true := by rw [hra]; exact h.1
      refine ⟨_, rfl, ?_⟩
      have hg := gpr_eq (hasRex := c.hasRex) hr hsz (by
        intro _
        cases hh : r.high with
        | false => simp [h0]
        | true => have := (hr.2.1 hh).2.1; omega)
      rw [h0] at hg
      exact ⟨hg, trivial⟩
  | cl =>
    cases o with
    | mem z => simp [okOp] at h
    | imm f z => simp [okOp] at h
    | reg ty a b =>
      simp only [okOp, decide_eq_true_eq] at h
      obtain ⟨r, rfl, hra⟩ := abs_reg ho
      have hr := ag.regs r hmem
      have hty : r.ty = ty := by
        have : AOp.reg r.ty _ _ = AOp.reg ty a b := hra
        simp only [AOp.reg.injEq] at this
        exact this.1
      obtain ⟨t1, -⟩ := ty_ok hr
      rw [hty] at t1
      exact ⟨_, rfl, (t1.mp h).symm, trivial⟩
  | Ib w =>
    cases o with
    | mem z => simp [okOp] at h
    | reg ty a b => simp [okOp] at h
    | imm f z =>
      obtain ⟨v, rfl, rfl, hmax⟩ := abs_imm ho
      have lc := low32_cases (ag.nums v z hmem) hmax
      have lr := low32_range v
      have osz8 : ∀ {w}, width c.osz w = 8 → c.osz = 8 := by
        intro w q; rcases width_cases c.osz w with q' | q' | q' <;> omega
      have hv : immVal ops i = low32 v := by unfold immVal opAt; rw [hi]
      simp only [okOp] at h
      refine ⟨_, by simp only [readOp, needs, immBytes_cons, immBytes_nil, List.append_nil, hv]; exact takeS_le _ _ _ _, ?_, ?_⟩
      swap
      · exact ⟨by norm_num; omega, low32 v, lc, lr.1, fun q => by rw [q] at h; exact absurd h (by simp), fun q => by rw [q] at h; simp only [Facts.of, Bool.and_eq_true, decide_eq_true_eq] at h; omega, fun q => ⟨lr.2, low32_self ⟨ag.nums v z hmem, ag.long (osz8 q) v z hmem⟩⟩⟩
      simp only [Means]
      have n := ag.nums v z hmem
      split at h
      · rename_i hw
        rw [hw]
        simp only [Facts.of, Bool.and_eq_true, decide_eq_true_eq] at h
        replace h := h.1
        have h16 := low32_mod v 16 (by omega)
        have := bmod_emod_pow (low32 v) 16
        norm_num at *
        rw [h, this, h16]
      · rename_i hw
        rw [hw]
        simp only [Facts.of, decide_eq_true_eq] at h
        have h32 := low32_mod v 32 (by omega)
        norm_num at *
        rw [bmod256]
        split <;> omega
      · rename_i hw
        rw [hw]
        simp only [Facts.of, decide_eq_true_eq] at h
        have ho8 : c.osz = 8 := by rcases width_cases c.osz w with q | q | q <;> omega
        have hl := ag.long ho8 v z hmem
        have hs := low32_self ⟨n, hl⟩
        rw [hs] at h ⊢
        norm_num at *
        rw [bmod256]
        split <;> omega
      · exact absurd h (by simp)
  | I w =>
    cases o with
    | mem z => simp [okOp] at h
    | reg ty a b => simp [okOp] at h
    | imm f z =>
      obtain ⟨v, rfl, rfl, hmax⟩ := abs_imm ho
      have lc := low32_cases (ag.nums v z hmem) hmax
      have lr := low32_range v
      have osz8 : ∀ {w}, width c.osz w = 8 → c.osz = 8 := by
        intro w q; rcases width_cases c.osz w with q' | q' | q' <;> omega
      have hv : immVal ops i = low32 v := by unfold immVal opAt; rw [hi]
      simp only [okOp] at h
      refine ⟨_, by simp only [readOp, needs, immBytes_cons, immBytes_nil, List.append_nil, hv]; exact takeS_le _ _ _ _, ?_, ?_⟩
      swap
      · exact ⟨by norm_num; omega, low32 v, lc, lr.1, fun q => by rw [q] at h; (simp only [Facts.of, Bool.and_eq_true, decide_eq_true_eq] at h; omega), fun q => by rw [q] at h; (simp only [Facts.of, Bool.and_eq_true, decide_eq_true_eq] at h; omega), fun q => ⟨lr.2, low32_self ⟨ag.nums v z hmem, ag.long (osz8 q) v z hmem⟩⟩⟩
      simp only [Means]
      have n := ag.nums v z hmem
      split at h
      · rename_i hw
        rw [hw]
        have := low32_mod v 8 (by omega)
        have h2 := bmod_emod_pow (low32 v) 8
        norm_num at *
        rw [h2, this]
      · rename_i hw
        rw [hw]
        have := low32_mod v 16 (by omega)
        have h2 := bmod_emod_pow (low32 v) 16
        norm_num at *
        rw [h2, this]
      · rename_i hw
        rw [hw]
        have := low32_mod v 32 (by omega)
        have h2 := bmod_emod_pow (low32 v) 32
        norm_num at *
        rw [h2, this]
      · rename_i hw
        rw [hw]
        have ho8 : c.osz = 8 := by rcases width_cases c.osz w with q | q | q <;> omega
        have hl := ag.long ho8 v z hmem
        have hs := low32_self ⟨n, hl⟩
        rw [hs]
        have h3 : Int.bmod v (2 ^ (8 * min 8 4)) = v := hs
        rw [h3]
      · exact absurd h (by simp)
  | U =>
    cases o with
    | mem z => simp [okOp] at h
    | reg ty a b => simp [okOp] at h
    | imm f z =>
      obtain ⟨v, rfl, rfl, hmax⟩ := abs_imm ho
      have lc := low32_cases (ag.nums v z hmem) hmax
      have lr := low32_range v
      have osz8 : ∀ {w}, width c.osz w = 8 → c.osz = 8 := by
        intro w q; rcases width_cases c.osz w with q' | q' | q' <;> omega
      have hv : immVal ops i = low32 v := by unfold immVal opAt; rw [hi]
      refine ⟨_, by simp only [readOp, needs, immBytes_cons, immBytes_nil, List.append_nil, hv]; exact takeU_le _ _ _, ?_, ?_⟩
      swap
      · exact ⟨by norm_num; omega, low32 v, lc, lr.1, fun _ => by simp only [okOp, Facts.of, decide_eq_true_eq] at h; omega, fun q => by omega, fun q => by omega⟩
      simp only [Means]
      have := low32_mod v 8 (by omega)
      norm_num at *
      exact this
  | one =>
    cases o with
    | mem z => simp [okOp] at h
    | reg ty a b => simp [okOp] at h
    | imm f z =>
      obtain ⟨v, rfl, rfl, hmax⟩ := abs_imm ho
      have lc := low32_cases (ag.nums v z hmem) hmax
      have lr := low32_range v
      simp only [okOp, Facts.of, decide_eq_true_eq] at h
      refine ⟨_, rfl, ?_, ⟨by norm_num; omega, low32 v, lc, lr.1, fun _ => by omega, fun q => by omega, fun q => by omega⟩⟩
      have := low32_mod v 8 (by omega)
      rw [h] at this
      exact this
  | three =>
    cases o with
    | mem z => simp [okOp] at h
    | reg ty a b => simp [okOp] at h
    | imm f z =>
      obtain ⟨v, rfl, rfl, hmax⟩ := abs_imm ho
      have lc := low32_cases (ag.nums v z hmem) hmax
      have lr := low32_range v
      simp only [okOp, Facts.of, decide_eq_true_eq] at h
      refine ⟨_, rfl, ?_, ⟨by norm_num; omega, low32 v, lc, lr.1, fun _ => by omega, fun q => by omega, fun q => by omega⟩⟩
      have := low32_mod v 8 (by omega)
      rw [h] at this
      exact this

theorem needs_cons (osz : Nat) (e : OE) (es : List OE) (i : Nat) (is : List Nat) :
    needs osz (e :: es) (i :: is) = needs osz [e] [i] ++ needs osz es is := by
  cases e <;> simp [needs]

theorem immBytes_append (ops : List Src) (a b : List (Nat × Nat)) : immBytes ops (a ++ b) = immBytes ops a ++ immBytes ops b := by
  simp [immBytes]

theorem readOps_ok {cx : Ctx} {ops : List Src} {as : List AOp} {s : Slots} {c : DCx} (ag : Agree cx ops s c)
    (has : ∀ i : Nat, as[i]? = ops[i]?.bind (Src.abs cx.mode)) (tail : List Nat) : ∀ (es : List OE) (is : List Nat), okArr c.osz s as es is = true →
    ∃ ds ops', readOps c (immBytes ops (needs c.osz es is) ++ tail) es = some (ds, tail) ∧ is.map (ops[·]?) = ops'.map some ∧
      List.Forall₂ (fun s d => Means cx s d ∧ Fits s d) ops' ds := by
  intro es
  induction es with
  | nil =>
    intro is h
    cases is with
    | nil => exact ⟨[], [], rfl, rfl, .nil⟩
    | cons i is => simp [okArr] at h
  | cons e es ih =>
    intro is h
    cases is with
    | nil => simp [okArr] at h
    | cons i is =>
      simp only [okArr, Bool.and_eq_true] at h
      obtain ⟨h1, h2⟩ := h
      cases ha : as[i]? with
      | none => rw [ha] at h1; simp at h1
      | some o =>
        rw [ha] at h1
        simp only at h1
        have hb := has i
        rw [ha] at hb
        symm at hb
        rw [Option.bind_eq_some_iff] at hb
        obtain ⟨src, hsrc, hso⟩ := hb
        obtain ⟨ds, ops', r1, r2, r3⟩ := ih is h2
        obtain ⟨d, q1, q2⟩ := readOp_ok ag hsrc hso h1 (immBytes ops (needs c.osz es is) ++ tail)
        refine ⟨d :: ds, src :: ops', ?_, by simp [hsrc, r2], .cons q2 r3⟩
        rw [needs_cons, immBytes_append, List.append_assoc, readOps, q1]
        simp only [r1]

end Verif.Ins
