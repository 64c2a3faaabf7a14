import Verif.Cgv2.EncVex

/-!
# EVEX encoded instructions
-/

namespace Verif.Cgv2

open Isa

theorem evex_head (m64 aso : Bool) (sp : List Nat) (hsp : SegBytes sp)
    (er ex eb enr mm w v pp z nl l br nv aaa : Nat)
    (h1 : er < 2) (h2 : ex < 2) (h3 : eb < 2) (h4 : enr < 2) (h5 : mm < 4) (h6 : w < 2) (h7 : v < 16)
    (h8 : pp < 4) (h9 : z < 2) (h10 : nl < 2) (h11 : l < 2) (h12 : br < 2) (h13 : nv < 2)
    (h14 : aaa < 8) (h32 : m64 = false → er = 1 ∧ ex = 1) (op : Nat) (rest : List Nat) :
    head m64 ((if aso then [0x67] else []) ++ (if false then [0x66] else []) ++ sp ++
      ([0x62, (er <<< 7) ||| (ex <<< 6) ||| (eb <<< 5) ||| (enr <<< 4) ||| (mm &&& 3),
        (w <<< 7) ||| ((15 - v) <<< 3) ||| 4 ||| (pp &&& 3),
        (z <<< 7) ||| (nl <<< 6) ||| (l <<< 5) ||| (br <<< 4) ||| (nv <<< 3) ||| aaa] ++ op :: rest)) =
    some (⟨.evex, ⟨false, aso, false, 0, sp.headD 0⟩, false, decide (w = 1),
      addIf (decide (er = 0)) 8 + addIf (decide (enr = 0)) 16, decide (ex = 0), decide (eb = 0),
      v + addIf (decide (nv = 0)) 16, decide (nv = 0), nl * 2 + l, pp, mm, op, aaa, decide (z = 1),
      decide (br = 1)⟩, rest) := by
  have e (a : Nat) (h : a < 2) : (!decide (a = 1)) = decide (a = 0) := by
    rcases (by omega : a = 0 ∨ a = 1) with h | h <;> subst h <;> rfl
  obtain ⟨f1, f2, f3, f4, f5, f6, f7, f8⟩ := evex_fields1 ⟨er, h1⟩ ⟨ex, h2⟩ ⟨eb, h3⟩ ⟨enr, h4⟩ ⟨mm, h5⟩
  obtain ⟨g1, g2, g3, g4⟩ := evex_fields2 ⟨w, h6⟩ ⟨v, h7⟩ ⟨pp, h8⟩
  obtain ⟨i1, i2, i3, i4, i5⟩ := evex_fields3 ⟨z, h9⟩ ⟨nl, h10⟩ ⟨l, h11⟩ ⟨br, h12⟩ ⟨nv, h13⟩ ⟨aaa, h14⟩
  simp only at f1 f2 f3 f4 f5 f6 f7 f8 g1 g2 g3 g4 i1 i2 i3 i4 i5
  generalize ((er <<< 7) ||| (ex <<< 6) ||| (eb <<< 5) ||| (enr <<< 4) ||| (mm &&& 3)) = b1 at *
  generalize ((w <<< 7) ||| ((15 - v) <<< 3) ||| 4 ||| (pp &&& 3)) = b2 at *
  generalize ((z <<< 7) ||| (nl <<< 6) ||| (l <<< 5) ||| (br <<< 4) ||| (nv <<< 3) ||| aaa) = b3 at *
  have hp := prefixes_eq aso false sp [] hsp (Or.inl rfl) 0x62 (b1 :: b2 :: b3 :: op :: rest) (by decide)
  have hall : vexAllowed m64 (b1 :: b2 :: b3 :: op :: rest) = true := by
    unfold vexAllowed
    cases hm : m64 with
    | true => rfl
    | false =>
      obtain ⟨q1, q2⟩ := h32 hm
      simpa using f8 q1 q2
  simp only [List.nil_append, List.cons_append, Bool.false_eq_true, if_false, List.append_nil] at hp ⊢
  unfold head
  rw [hp]
  simp only [hall]
  simp [evex, plain, f1, f2, f3, f4, f5, f6, f7, g1, g2, g3, g4, i1, i2, i3, i4, i5, e _ h1, e _ h2, e _ h3,
    e _ h4, e _ h13]

/-! ## Row check -/

/-- The operand in V'vvvv. -/
def vOkE (r : Instr) (f : Form) : Bool :=
  let nds := has r.vexflags VEX_NDSF
  let dds := has r.vexflags VEX_DDSF
  match f.v with
  | some k => regType (r.op k) && ((k == 1 && nds) || (k == 2 && !nds && dds)) && !f.vsib
  | none => !nds && !dds

/-- EVEX.W column. -/
def evexW (r : Instr) : Nat :=
  if has r.evexflags EVEX_W0F then 0 else if has r.evexflags EVEX_W1F then 1 else 0

/-- Vector length column. -/
def evexLen (r : Instr) : Nat := (if r.opSize == 64 then 1 else 0) * 2 + vecLen r

/-- A row is an EVEX encoding of a form. -/
def okEvex (r : Instr) (f : Form) (e : Enc) : Bool :=
  rowCommon r f true && f.evex == some e && f.osz.isNone &&
  has r.vexflags EVEXF && noLegacy r && (r.opcode.getD 0 0 == e.opcode) &&
  !has r.vexflags VEX_RF && !has r.vexflags VEX_XF && !has r.vexflags VEX_BF &&
  vexMap r == e.map && decide (1 ≤ e.map) && decide (e.map < 4) && e.pp == some (vexPP r) &&
  agrees e.w (evexW r == 1) && agrees e.l (evexLen r) && vOkE r f && srcOk r f &&
  (f.vsib == has r.evexflags EVEX_VSIBF) && decide (f.rm < 3) &&
  (!has r.evexflags EVEX_BRDF || isMem (r.op f.rm)) && !(r.evexflags == 0) &&
  (!f.vsib || isMem (r.op f.rm))

theorem evexW_lt (r : Instr) : evexW r < 2 := by
  unfold evexW; repeat' split
  all_goals omega

/-- The context after `PromoteBroadcast`. -/
def promoted (r : Instr) (c : Ctx) : Ctx := { c with broad := promoteBroadcast r c.broad }

/-- The decorators written on the instruction.  Masks, broadcast and rounding that do not fit the
row are an error of the assembler, except for rounding: a row without rounding accepts it silently,
and so do the 128- and 256-bit rows. -/
structure Deco (r : Instr) (e : Enc) (c : Ctx) : Prop where
  evex : c.evexFlag = true ∨ has r.evexflags EVEX_ONLYF = true
  sae : c.sae = 0 ∨ (has r.evexflags EVEX_RNDF = true ∧ has r.evexflags EVEX_SAEF = false ∧
    agrees e.l 2 = true ∧ (c.sae = 0x20 ∨ c.sae = 0x40 ∨ c.sae = 0x60 ∨ c.sae = 0x80))

/-- Rounding control of {rn-sae}, {rd-sae}, {ru-sae}, {rz-sae}. -/
def rounding (sae : Nat) : Option Nat :=
  if sae = 0x20 then some 0 else if sae = 0x40 then some 1 else if sae = 0x60 then some 2
  else if sae = 0x80 then some 3 else none

/-- V' of a gather. -/
def gatherV (m : Opnd) : Nat := if m.idx.isSome && decide (getRegisterNo m.idx > 15) then 0 else 1

def gatherX (m : Opnd) : Nat := if m.idx.isSome && decide (getRegisterNo m.idx > 23) then 0 else 1

theorem z_eq (d : Nat) : (d &&& 0x80) >>> 7 = d / 128 % 2 := by
  rw [Nat.shiftRight_and_distrib]
  have : (0x80 : Nat) >>> 7 = 2 ^ 1 - 1 := by decide
  rw [this, Nat.and_two_pow_sub_one_eq_mod, Nat.shiftRight_eq_div_pow]

theorem regAbove_mem15 {m64 vsib : Bool} {x : Opnd} {b i : Option Nat} {s : Nat} {d : Int} {rip : Bool}
    {w m : Nat} (h : IsMem m64 vsib x b i s d rip w) (hm : 15 ≤ m) : regAbove x m = false := by
  obtain ⟨b1, b2, _⟩ := isMem_base h
  have := h.hbase
  unfold regAbove
  cases hb : b with
  | none => rw [hb] at this; simp only at this; simp [this]
  | some b' =>
    have h1 := b2 b' hb
    rw [hb] at b1
    simp only [Option.getD_some] at b1
    simp only [b1, Bool.and_eq_false_iff, decide_eq_false_iff_not]
    right; omega

/-- EVEX.X, EVEX.B (not inverted) of the ModRM operand. -/
def evB : RM → Bool
  | .reg n => decide (8 ≤ n % 16)
  | .mem b i s d rip w => rmB (.mem b i s d rip w)

def evX : RM → Bool
  | .reg n => decide (16 ≤ n)
  | .mem _ i _ _ _ _ => decide (8 ≤ i.getD 0 % 16)

/-- V' (not inverted). -/
def evV (f : Form) (rm : RM) (v : Nat) : Bool :=
  if f.vsib then (match rm with
    | .reg _ => false
    | .mem _ i _ _ _ _ => decide (16 ≤ i.getD 0))
  else decide (16 ≤ v)

theorem evexRR_eq : ∀ n : Fin 32, evexRR n.1 = (if 8 ≤ n.1 % 16 then 0 else 1, if 16 ≤ n.1 then 0 else 1) ∧
    evexBX n.1 = (if 8 ≤ n.1 % 16 then 0 else 1, if 16 ≤ n.1 then 0 else 1) := by decide +kernel

/-- V'vvvv as `BuildEVEX` finds it. -/
def evexV (r : Instr) (o : Nat → Opnd) : Nat :=
  if has r.vexflags VEX_NDSF then getRegisterNo (o 1).base
  else if has r.vexflags VEX_DDSF then getRegisterNo (o 2).base else 0

/-- A store needs a register in its address for the assembler to see that it is an address. -/
def Indirect (r : Instr) (f : Form) (o : Nat → Opnd) : Prop :=
  isMem (r.op f.rm) = true → r.opDir = RM_DST ∨ f.vsib = true → (o f.rm).indirect = true

theorem typeRange_le (t : OpType) : (typeRange t).2 ≤ 31 := by cases t <;> decide

theorem evex_bx (r : Instr) (f : Form) (m64 : Bool) (rm : RM) (x : Opnd)
    (ht : regType (r.op f.rm) = true ∨ isMem (r.op f.rm) = true)
    (hrm : Holds m64 f.vsib (r.op f.rm) x rm) (hvs : f.vsib = has r.evexflags EVEX_VSIBF)
    (hvm : f.vsib = true → isMem (r.op f.rm) = true)
    (hind : f.vsib = true → x.indirect = true) (st : Bool)
    (hst : st = true → isMem (r.op f.rm) = true → x.indirect = true) (ex0 : Nat)
    (hex : ex0 = if f.vsib then gatherX x else 1) :
    let bx : Nat × Nat := if !x.indirect then
          (if st then evexBX (getRegisterNo x.base) else
            if x.base.isSome then evexBX (getRegisterNo x.base) else (1, 1)) else (1, ex0)
    (if rmB rm then 0 else bx.1) = (if evB rm then 0 else 1) ∧
    (if rmX r rm then 0 else bx.2) = (if evX rm then 0 else 1) := by
  cases rm with
  | reg n =>
    have hnm := isReg_not_mem hrm
    have ht' : regType (r.op f.rm) = true := by
      rcases ht with h | h
      · exact h
      · rw [hnm] at h; simp at h
    obtain ⟨h1, h2, h3, h4, h5⟩ := isReg_no ht' hrm
    have := typeRange_le (r.op f.rm)
    have hbx := (evexRR_eq ⟨n, by omega⟩).2
    simp only at hbx
    simp only [h1, h4, h5, Bool.not_false, if_true, hbx, ite_self, rmB, rmX, evB, evX,
      Bool.false_eq_true, if_false]
    refine ⟨?_, ?_⟩ <;> (split <;> simp_all)
  | mem b i s d rip w =>
    have hM : IsMem m64 f.vsib x b i s d rip w := hrm.2
    obtain ⟨i1, i2, i3, i4, i5⟩ := isMem_idx hM
    have hbx : (if !x.indirect then
          (if st then evexBX (getRegisterNo x.base) else
            if x.base.isSome then evexBX (getRegisterNo x.base) else (1, 1)) else (1, ex0))
        = ((1 : Nat), if f.vsib then ex0 else 1) := by
      cases hi : x.indirect with
      | true =>
        cases hv : f.vsib with
        | true => simp
        | false => rw [hv] at hex; simp only [Bool.false_eq_true, if_false] at hex; simp [hex]
      | false =>
        have hv : f.vsib = false := by
          cases hv : f.vsib with
          | false => rfl
          | true => rw [hind hv] at hi; simp at hi
        have hs : st = false := by
          cases hs : st with
          | false => rfl
          | true => rw [hst hs hrm.1] at hi; simp at hi
        have hb := hM.hbase
        cases b with
        | none => simp only at hb; simp [hb, hs, hv]
        | some b => simp only at hb; obtain ⟨_, _, _, hb⟩ := hb; rw [hb] at hi; simp at hi
    intro bx
    have hbx' : bx = ((1 : Nat), if f.vsib then ex0 else 1) := hbx
    rw [hbx']
    refine ⟨rfl, ?_⟩
    simp only [rmX, evX, encIdx, ← hvs]
    cases hv : f.vsib with
    | false =>
      simp only [Bool.false_eq_true, if_false]
      cases i with
      | none => simp
      | some i =>
        have := i2 i rfl
        rw [hv] at this
        simp only [Bool.false_eq_true, if_false] at this
        simp only [Option.getD_some]
        by_cases h : 7 < i ∧ i < 16
        · have h2 : 8 ≤ i % 16 := by omega
          simp [h, h2]
        · have h2 : ¬ 8 ≤ i % 16 := by omega
          simp only [h, h2, decide_false]
    | true =>
      rw [hv] at hex
      simp only [if_true] at hex ⊢
      rw [hex]
      unfold gatherX
      rw [i5, i1]
      cases i with
      | none => simp [idxLow]
      | some i =>
        have := i2 i rfl
        rw [hv] at this
        simp only [if_true] at this
        simp only [Option.getD_some, Option.isSome_some, Bool.true_and]
        have key : (if decide (7 < idxLow i ∧ idxLow i < 16) = true then 0 else
            if decide (i > 23) = true then 0 else 1) = if decide (8 ≤ i % 16) = true then 0 else 1 := by
          unfold idxLow
          by_cases h1 : i > 15
          · rw [if_pos h1]
            have h3 : ¬ (7 < i % 8 ∧ i % 8 < 16) := by omega
            by_cases h2 : i > 23
            · have : 8 ≤ i % 16 := by omega
              simp [h3, h2, this]
            · have : ¬ 8 ≤ i % 16 := by omega
              simp only [h3, h2, this, decide_false]; rfl
          · rw [if_neg h1]
            by_cases h2 : 7 < i
            · have h3 : 7 < i ∧ i < 16 := by omega
              have : 8 ≤ i % 16 := by omega
              simp [h3, this]
            · have h3 : ¬ (7 < i ∧ i < 16) := by omega
              have h4 : ¬ i > 23 := by omega
              have : ¬ 8 ≤ i % 16 := by omega
              simp only [h3, h4, this, decide_false]; rfl
        exact key

theorem gather_above {m64 vsib : Bool} {x : Opnd} {b i : Option Nat} {s : Nat} {d : Int} {rip : Bool}
    {w : Nat} (h : IsMem m64 vsib x b i s d rip w) (m : Nat) (hm : 15 ≤ m) :
    ((x.idx.isSome && decide (getRegisterNo x.idx > m)) || regAbove x m) =
      (x.idx.isSome && decide (getRegisterNo x.idx > m)) := by
  rw [regAbove_mem15 h hm, Bool.or_false]

theorem buildEVEX_eq (r : Instr) (f : Form) (o : Nat → Opnd) (m64 : Bool) (rm : RM) (k n : Nat) (c : Ctx)
    (hrow : rowCommon r f true = true) (hsrc : srcOk r f = true)
    (hR : has r.vexflags VEX_RF = false) (hX : has r.vexflags VEX_XF = false)
    (hB : has r.vexflags VEX_BF = false) (hk : f.reg = some k) (hn : IsReg (r.op k) (o k) n)
    (hrm : Holds m64 f.vsib (r.op f.rm) (o f.rm) rm) (hvs : f.vsib = has r.evexflags EVEX_VSIBF)
    (hvm : f.vsib = true → isMem (r.op f.rm) = true) (hind : Indirect r f o) (rr : Bool)
    (hacc : evexErr r c = false) :
    buildEVEX r o (rmB rm) (rmX r rm) rr c = some [0x62,
      ((if decide (8 ≤ n % 16) then 0 else 1) <<< 7) ||| ((if evX rm then 0 else 1) <<< 6) |||
        ((if evB rm then 0 else 1) <<< 5) ||| ((if decide (16 ≤ n) then 0 else 1) <<< 4) |||
        (vexMap r &&& 3),
      (evexW r <<< 7) ||| ((15 - evexV r o % 16) <<< 3) ||| 4 ||| (vexPP r &&& 3),
      (((c.deco &&& 0x80) >>> 7) <<< 7) ||| ((evexLLb r c).1 <<< 6) ||| ((evexLLb r c).2.1 <<< 5) |||
        ((evexLLb r c).2.2 <<< 4) |||
        ((if evV f rm (evexV r o) then 0 else 1) <<< 3) ||| (c.deco &&& 7)] := by
  obtain ⟨t1, t2, t3, t4, t5, t6, t7, t8, t9, t10⟩ := rowCommon_types hrow
  obtain ⟨hno, hlo, hhi, hsome, hni⟩ := isReg_no (t2 k hk) hn
  have := typeRange_le (r.op k)
  have hrr := (evexRR_eq ⟨n, by omega⟩).1
  simp only at hrr
  unfold srcOk at hsrc
  rw [hk] at hsrc
  -- V', X of a gather
  have hvx : (if has r.evexflags EVEX_VSIBF = true then
        ((if ((o r.memOpnd).idx.isSome && decide (getRegisterNo (o r.memOpnd).idx > 15) ||
            regAbove (o r.memOpnd) 15) = true then 0 else 1 : Nat),
          (if ((o r.memOpnd).idx.isSome && decide (getRegisterNo (o r.memOpnd).idx > 23) ||
            regAbove (o r.memOpnd) 23) = true then 0 else 1 : Nat))
      else ((if has r.vexflags VEX_NDSF = true then
          (getRegisterNo (o 1).base, if getRegisterNo (o 1).base > 15 then 0 else 1)
        else if has r.vexflags VEX_DDSF = true then
          (getRegisterNo (o 2).base, if getRegisterNo (o 2).base > 15 then 0 else 1)
        else (0, 1)).2, 1)) =
      ((if evV f rm (evexV r o) then 0 else 1), (if f.vsib then gatherX (o f.rm) else 1)) := by
    rw [← hvs]
    cases hv : f.vsib with
    | true =>
      have hmm := t10 (hvm hv)
      rw [hmm]
      cases rm with
      | reg m => have := isReg_not_mem hrm; rw [hvm hv] at this; simp at this
      | mem b i s d rip w =>
        have hM := hrm.2
        rw [gather_above hM 15 (by omega), gather_above hM 23 (by omega)]
        obtain ⟨i1, i2, i3, i4, i5⟩ := isMem_idx hM
        simp only [if_true, evV, hv, gatherX]
        congr 1
        rw [i1, i5]
        cases i with
        | none => simp
        | some i =>
          simp only [Option.isSome_some, Option.getD_some, Bool.true_and]
          by_cases h : i > 15
          · have : 16 ≤ i := h
            simp [h, this]
          · have : ¬ 16 ≤ i := h
            simp [h]; omega
    | false =>
      simp only [Bool.false_eq_true, if_false, evV, hv, evexV]
      congr 1
      split
      · by_cases h : getRegisterNo (o 1).base > 15
        · have h2 : 16 ≤ getRegisterNo (o 1).base := h
          simp [h, h2]
        · have h2 : ¬ 16 ≤ getRegisterNo (o 1).base := h
          simp [h]; omega
      · split
        · by_cases h : getRegisterNo (o 2).base > 15
          · have h2 : 16 ≤ getRegisterNo (o 2).base := h
            simp [h, h2]
          · have h2 : ¬ 16 ≤ getRegisterNo (o 2).base := h
            simp [h]; omega
        · simp
  have hv1 : (if has r.vexflags VEX_NDSF = true then
          (getRegisterNo (o 1).base, if getRegisterNo (o 1).base > 15 then 0 else 1)
        else if has r.vexflags VEX_DDSF = true then
          (getRegisterNo (o 2).base, if getRegisterNo (o 2).base > 15 then 0 else 1)
        else (0, 1)).1 = evexV r o := by
    unfold evexV
    split
    · rfl
    · split <;> rfl
  unfold buildEVEX
  rw [hacc]
  simp only [Bool.false_eq_true, if_false, hR, hX, hB, Bool.false_or, t6]
  rw [hvx, hv1]
  simp only
  rcases t4 with hd | hd
  · have hd' : (r.opDir == REG_DST) = true := by simp [hd]
    have hd2 : ¬ r.opDir = RM_DST := by rw [hd]; decide
    rw [hd'] at hsrc ⊢
    simp only [if_true, Bool.and_eq_true] at hsrc ⊢
    have h0 : k = 0 := by simpa using hsrc.1
    have hs : r.srcidx = f.rm := by simpa using hsrc.2
    subst h0
    have hbx := evex_bx r f m64 rm (o f.rm) t1 hrm hvs hvm
      (fun hv => hind (hvm hv) (Or.inr hv)) false (by simp) _ rfl
    simp only [Bool.false_eq_true, if_false] at hbx
    rw [hs, hni, hno]
    simp only [Bool.not_false, if_true]
    rw [hbx.1, hbx.2, hrr]
    simp only [decide_eq_true_eq]
    rfl
  · have hd' : (r.opDir == REG_DST) = false := by rw [hd]; rfl
    have hd2 : (r.opDir == RM_DST) = true := by simp [hd]
    rw [hd'] at hsrc
    rw [hd', hd2]
    simp only [if_true, Bool.false_eq_true, if_false, Bool.and_eq_true] at hsrc ⊢
    have h0 : f.rm = 0 := by simpa using hsrc.1
    have hs : r.srcidx = k := by simpa using hsrc.2
    have hbx := evex_bx r f m64 rm (o f.rm) t1 hrm hvs hvm
      (fun hv => hind (hvm hv) (Or.inr hv)) true (fun _ hm => hind hm (Or.inl hd)) _ rfl
    simp only [if_true] at hbx
    rw [hs, hni, hno]
    simp only [Bool.not_false, if_true]
    rw [h0] at hbx
    rw [h0]
    rw [hbx.1, hbx.2, hrr]
    simp only [decide_eq_true_eq]
    rfl

theorem evexV_ok (r : Instr) (f : Form) (o : Nat → Opnd) (m64 : Bool) (h : vOkE r f = true)
    (hv : ∀ i, f.v = some i → ∃ n, IsReg (r.op i) (o i) n ∧ Fits m64 .evex n) :
    evexV r o < 32 ∧
    (∀ i, f.v = some i → IsReg (r.op i) (o i) (evexV r o)) ∧ (f.v = none → evexV r o = 0) ∧
    (f.vsib = true → f.v = none) := by
  unfold vOkE at h
  cases hf : f.v with
  | none =>
    rw [hf] at h
    simp only [Bool.and_eq_true, Bool.not_eq_true'] at h
    have : evexV r o = 0 := by unfold evexV; simp [h.1, h.2]
    rw [this]
    exact ⟨by omega, by intro i h; simp at h, fun _ => rfl, fun _ => rfl⟩
  | some k =>
    rw [hf] at h
    simp only [Bool.and_eq_true, Bool.not_eq_true'] at h
    obtain ⟨⟨h1, h2⟩, h3⟩ := h
    obtain ⟨n, hn, hfit⟩ := hv k hf
    obtain ⟨hno, _, hhi, _⟩ := isReg_no h1 hn
    have := typeRange_le (r.op k)
    have hV : evexV r o = n := by
      rw [← hno]
      unfold evexV
      simp only [Bool.or_eq_true, Bool.and_eq_true, Bool.not_eq_true'] at h2
      rcases h2 with ⟨h1, h2⟩ | ⟨⟨h1, h2⟩, h4⟩
      · have : k = 1 := by simpa using h1
        simp [h2, this]
      · have : k = 2 := by simpa using h1
        simp [h2, h4, this]
    rw [hV]
    refine ⟨by omega, ?_, by intro h; simp at h, by intro h; rw [h3] at h; simp at h⟩
    intro i hi
    simp only [Option.some.injEq] at hi
    subst hi; exact hn

theorem evexLLb_lt (r : Instr) (c : Ctx) :
    (evexLLb r c).1 < 2 ∧ (evexLLb r c).2.1 < 2 ∧ (evexLLb r c).2.2 < 2 := by
  unfold evexLLb
  simp only
  repeat' split
  all_goals (refine ⟨?_, ?_, ?_⟩ <;> simp)

theorem evexLLb_nosae (r : Instr) (c : Ctx) (h : c.sae = 0) :
    (evexLLb r c).1 * 2 + (evexLLb r c).2.1 = evexLen r ∧
    decide ((evexLLb r c).2.2 = 1) = (c.broad != 0) := by
  unfold evexLLb evexLen vecLen
  simp only [h]
  refine ⟨rfl, ?_⟩
  cases hb : (c.broad != 0) <;> simp [hb]

theorem evexLLb_sae (r : Instr) (c : Ctx)
    (h : c.sae = 0x20 ∨ c.sae = 0x40 ∨ c.sae = 0x60 ∨ c.sae = 0x80) :
    rounding c.sae = some ((evexLLb r c).1 * 2 + (evexLLb r c).2.1) ∧ (evexLLb r c).2.2 = 1 := by
  unfold evexLLb rounding
  rcases h with h | h | h | h <;> simp [h]

/-- What `BuildEVEX` has checked when it reports no error. -/
theorem evexErr_facts {r : Instr} {c : Ctx} (h : evexErr r c = false) :
    (c.broad ≠ 0 → has r.evexflags EVEX_BRDF = true) ∧
    (c.deco % 8 ≠ 0 → has r.evexflags EVEX_MASKF = true) ∧
    (has r.evexflags EVEX_KF = true → c.deco % 8 ≠ 0) ∧
    (c.deco / 128 % 2 = 1 → has r.evexflags EVEX_ZF = true) ∧
    (c.sae ≠ 0 → has r.evexflags EVEX_SAEF = false → has r.evexflags EVEX_RNDF = true →
      3 ≤ r.memOpnd) := by
  have ha : c.deco &&& 7 = c.deco % 8 := Nat.and_two_pow_sub_one_eq_mod c.deco 3
  unfold evexErr at h
  simp only [z_eq, ha, Bool.or_eq_false_iff, Bool.and_eq_false_iff] at h
  obtain ⟨⟨⟨⟨⟨⟨⟨⟨⟨h1, h2⟩, h3⟩, h4⟩, h5⟩, h6⟩, h7⟩, h8⟩, h9⟩, h10⟩ := h
  refine ⟨?_, ?_, ?_, ?_, ?_⟩
  · intro hb
    rcases h7 with h | h
    · simp at h; exact absurd h hb
    · simpa using h
  · intro hb
    rcases h8 with h | h
    · simpa using h
    · simp at h; exact absurd h hb
  · intro hb
    rcases h1 with h | h
    · rw [hb] at h; simp at h
    · simpa using h
  · intro hb
    rcases h9 with h | h
    · simpa using h
    · simp at h; omega
  · intro hs hsa hr
    rcases h10 with h | h
    · simp at h; exact absurd h hs
    · rw [hsa, hr] at h
      simp at h
      omega

theorem okEvex_evex {r : Instr} {f : Form} {e : Enc} (hok : okEvex r f e = true) :
    has r.vexflags EVEXF = true := by
  unfold okEvex at hok
  simp only [Bool.and_eq_true] at hok
  obtain ⟨⟨⟨⟨⟨⟨⟨⟨⟨⟨⟨⟨⟨⟨⟨⟨⟨⟨⟨⟨⟨k1, k2⟩, k3⟩, k4⟩, k5⟩, k6⟩, k7⟩, k8⟩, k9⟩, k10⟩, k11⟩, k12⟩, k13⟩, k14⟩, k15⟩,
    k16⟩, k17⟩, k18⟩, k19⟩, k20⟩, k21⟩, k22⟩ := hok
  exact k4

/-- Decorators that pass the tests of `BuildEVEX` are no error elsewhere. -/
theorem evex_accepts (r : Instr) (f : Form) (e : Enc) (hok : okEvex r f e = true) (o : Nat → Opnd)
    (c : Ctx) (rm : RM) (hd : Deco r e c) (ops : Operands r f o c .evex rm) (hind : Indirect r f o)
    (hacc : evexErr r (promoted r c) = false) : ∃ bs, emit r o c = some bs := by
  unfold okEvex noLegacy at hok
  simp only [Bool.and_eq_true, Bool.not_eq_true'] at hok
  obtain ⟨⟨⟨⟨⟨⟨⟨⟨⟨⟨⟨⟨⟨⟨⟨⟨⟨⟨⟨⟨⟨k1, k2⟩, k3⟩, k4⟩, k5⟩, k6⟩, k7⟩, k8⟩, k9⟩, k10⟩, k11⟩, k12⟩, k13⟩, k14⟩, k15⟩,
    k16⟩, k17⟩, k18⟩, k19⟩, k20⟩, k21⟩, k22⟩ := hok
  obtain ⟨⟨⟨⟨⟨⟨l1, l2⟩, l3⟩, l4⟩, l5⟩, l6⟩, l7⟩ := k5
  obtain ⟨t1, t2, t3, t4, t5, t6, t7, t8, t9, t10⟩ := rowCommon_types k1
  have hreg : ∃ k, f.reg = some k := by
    unfold srcOk at k17
    cases hf : f.reg with
    | none => rw [hf] at k17; simp at k17
    | some k => exact ⟨k, rfl⟩
  obtain ⟨k, hk⟩ := hreg
  obtain ⟨n, hn, hnf⟩ := ops.reg k hk
  obtain ⟨sp, hsp, hsb, hseg⟩ := segPrefix_ok r c ops.seg
  have hvsib : f.vsib = has r.evexflags EVEX_VSIBF := by simpa using k18
  have hvm : f.vsib = true → isMem (r.op f.rm) = true := by
    intro h; rw [h] at k22; simpa using k22
  obtain ⟨me, hme, a1, a2, a3, a4, a5, a6⟩ := tail_read r f o (promoted r c) .evex rm true k1 ops.hrm
    ops.rmFits ops.vsib (by simp) (fun _ => hvsib)
  obtain ⟨v1, v2, v3, v4⟩ := evexV_ok r f o c.m64 k16 ops.v
  -- the EVEX bytes are built
  have hvp : vexPart r o (promoted r c) me = buildEVEX r o me.needB me.needX me.needRR (promoted r c) := by
    unfold vexPart
    have hev : (promoted r c).evexFlag = c.evexFlag := rfl
    rw [hev]
    rcases hd.evex with h | h
    · simp [h, k4]
    · simp [h]
  rw [a2, a3, buildEVEX_eq r f o c.m64 rm k n (promoted r c) k1 k17 k7 k8 k9 hk hn ops.hrm hvsib hvm hind
    me.needRR hacc] at hvp
  exact ⟨_, emit_shape r o c me _ sp hme hvp (Or.inr k21) ops.pfx hsp a5⟩

/-- C47: an EVEX row that passes `okEvex`, when accepted, is emitted as exactly the EVEX
instruction of its form, with the mask, zeroing, broadcast and rounding written. -/
theorem evex_encodes (r : Instr) (f : Form) (e : Enc) (hok : okEvex r f e = true) (o : Nat → Opnd)
    (c : Ctx) (rm : RM) (hd : Deco r e c) (ops : Operands r f o c .evex rm) (hind : Indirect r f o)
    (hs : RMScale r (o f.rm) (promoted r c) (if (promoted r c).broad ≠ 0 then f.nb else f.n) rm)
    (bs : List Nat) (hemit : emit r o c = some bs) :
    ∃ rd, readForm f c.m64 bs = some rd ∧ rd.kind = .evex ∧ rd.rm = rm ∧ Says r f o c rd ∧
      rd.aaa = c.deco % 8 ∧ rd.z = (c.deco / 128 % 2 == 1) ∧ rd.bcast = ((promoted r c).broad != 0) ∧
      rd.rounding = rounding c.sae := by
  unfold okEvex noLegacy at hok
  simp only [Bool.and_eq_true, Bool.not_eq_true'] at hok
  obtain ⟨⟨⟨⟨⟨⟨⟨⟨⟨⟨⟨⟨⟨⟨⟨⟨⟨⟨⟨⟨⟨k1, k2⟩, k3⟩, k4⟩, k5⟩, k6⟩, k7⟩, k8⟩, k9⟩, k10⟩, k11⟩, k12⟩, k13⟩, k14⟩, k15⟩,
    k16⟩, k17⟩, k18⟩, k19⟩, k20⟩, k21⟩, k22⟩ := hok
  obtain ⟨⟨⟨⟨⟨⟨l1, l2⟩, l3⟩, l4⟩, l5⟩, l6⟩, l7⟩ := k5
  obtain ⟨t1, t2, t3, t4, t5, t6, t7, t8, t9, t10⟩ := rowCommon_types k1
  have hreg : ∃ k, f.reg = some k := by
    unfold srcOk at k17
    cases hf : f.reg with
    | none => rw [hf] at k17; simp at k17
    | some k => exact ⟨k, rfl⟩
  obtain ⟨k, hk⟩ := hreg
  obtain ⟨n, hn, hnf⟩ := ops.reg k hk
  obtain ⟨sp, hsp, hsb, hseg⟩ := segPrefix_ok r c ops.seg
  have hvsib : f.vsib = has r.evexflags EVEX_VSIBF := by simpa using k18
  have hvm : f.vsib = true → isMem (r.op f.rm) = true := by
    intro h; rw [h] at k22; simpa using k22
  obtain ⟨me, hme, a1, a2, a3, a4, a5, a6⟩ := tail_read r f o (promoted r c) .evex rm true k1 ops.hrm
    ops.rmFits ops.vsib (by simp) (fun _ => hvsib)
  obtain ⟨v1, v2, v3, v4⟩ := evexV_ok r f o c.m64 k16 ops.v
  -- the EVEX bytes are built
  have hvp : vexPart r o (promoted r c) me = buildEVEX r o me.needB me.needX me.needRR (promoted r c) := by
    unfold vexPart
    have hev : (promoted r c).evexFlag = c.evexFlag := rfl
    rw [hev]
    rcases hd.evex with h | h
    · simp [h, k4]
    · simp [h]
  have hacc : evexErr r (promoted r c) = false := by
    cases hE : evexErr r (promoted r c) with
    | false => rfl
    | true =>
      exfalso
      have hnone : vexPart r o (promoted r c) me = none := by
        rw [hvp]; unfold buildEVEX; rw [hE]; rfl
      unfold emit front at hemit
      have h1 : memPart r o { c with broad := promoteBroadcast r c.broad } = some me := hme
      have h2 : vexPart r o { c with broad := promoteBroadcast r c.broad } me = none := hnone
      simp only [h1, h2] at hemit
      exact absurd hemit (by simp)
  rw [a2, a3, buildEVEX_eq r f o c.m64 rm k n (promoted r c) k1 k17 k7 k8 k9 hk hn ops.hrm hvsib hvm hind
    me.needRR hacc] at hvp
  have hsh := emit_shape r o c me _ sp hme hvp (Or.inr k21) ops.pfx hsp a5
  have hrv : rowV r = true := by unfold rowV; simp [k4]
  have hrex : me.rex = 0 := by rw [a4, has_ne_zero k4]; rfl
  have hmp : mandatory1 r.mandatoryPrefix = [] ∧ mandatory2 r.mandatoryPrefix = [] := by simpa using l4
  rw [rexBytes_none r o c me hrex l1 l2 l3, hmp.1, hmp.2, hrv,
    opcodeBytes_one r o t5 (by simpa using l6) (by simpa using l7), a1, l5] at hsh
  simp only [List.nil_append] at hsh
  rw [hemit] at hsh
  have hmap : vexMap r = e.map := by simpa using k10
  have hmap1 : 1 ≤ e.map := by simpa using k11
  have hmap4 : e.map < 4 := by simpa using k12
  have hn32 : c.m64 = false → n < 8 := by
    intro hm; unfold Fits at hnf; rw [hm] at hnf; simpa using hnf
  have hnlt : n < 32 := by
    obtain ⟨_, _, hhi, _⟩ := isReg_no (t2 k hk) hn
    have := typeRange_le (r.op k)
    omega
  have hx32 : c.m64 = false → evX rm = false := by
    intro hm
    cases hrmv : rm with
    | reg m =>
      have := ops.rmFits
      rw [hrmv] at this
      unfold RMFits Fits at this
      rw [hm] at this
      simp only [Bool.false_eq_true, if_false] at this
      simp only [evX]
      simp; omega
    | mem b i s d rip w =>
      have hM := ops.hrm
      rw [hrmv] at hM
      have := (hM.2.h32 hm).2
      simp only [evX]
      cases i with
      | none => rfl
      | some i => have := this i rfl; simp; omega
  obtain ⟨b1, b2, b3⟩ := evexLLb_lt r (promoted r c)
  have ha8 : c.deco &&& 7 = c.deco % 8 := Nat.and_two_pow_sub_one_eq_mod c.deco 3
  have hpd : (promoted r c).deco = c.deco := rfl
  have hhead := evex_head c.m64 (rmAso c.m64 rm) sp hsb (if decide (8 ≤ n % 16) then 0 else 1)
    (if evX rm then 0 else 1) (if evB rm then 0 else 1) (if decide (16 ≤ n) then 0 else 1)
    (vexMap r) (evexW r) (evexV r o % 16) (vexPP r) ((c.deco &&& 0x80) >>> 7)
    (evexLLb r (promoted r c)).1 (evexLLb r (promoted r c)).2.1 (evexLLb r (promoted r c)).2.2
    (if evV f rm (evexV r o) then 0 else 1) (c.deco &&& 7)
    (by split <;> omega) (by split <;> omega) (by split <;> omega) (by split <;> omega) (by omega)
    (evexW_lt r) (by omega) (vexPP_lt r) (by rw [z_eq]; omega) b1 b2 b3 (by split <;> omega)
    (by rw [ha8]; omega)
    (by
      intro h
      have := hn32 h
      refine ⟨?_, by simp [hx32 h]⟩
      have : ¬ (8 ≤ n % 16) := by omega
      simp [this])
    (r.opcode.getD 0 0) (tailBytes r o me true)
  have hbs : bs = _ := Option.some.inj hsh
  subst hbs
  obtain ⟨x1, x2, x3, x4, x5⟩ := evexErr_facts hacc
  -- static rounding means a register operand
  have hsaeReg : c.sae ≠ 0 → rm.isReg = true ∧ (promoted r c).broad = 0 := by
    intro h
    rcases hd.sae with h0 | ⟨h1, h2, _, _⟩
    · exact absurd h0 h
    · have h3 := x5 h h2 h1
      have hnm : isMem (r.op f.rm) = false := by
        cases hm : isMem (r.op f.rm) with
        | false => rfl
        | true => have := t10 hm; have h19 : f.rm < 3 := by simpa using k19
                  omega
      have hb0 : (promoted r c).broad = 0 := by
        apply Decidable.byContradiction
        intro hb
        have := x1 hb
        rw [this, hnm] at k20
        simp at k20
      obtain ⟨m, hm, _⟩ := isReg_regType ops.hrm hnm
      rw [hm]
      exact ⟨rfl, hb0⟩
  have hbcReg : rm.isReg = true → (promoted r c).broad = 0 := by
    intro h
    apply Decidable.byContradiction
    intro hb
    have := x1 hb
    rw [this] at k20
    have hm : isMem (r.op f.rm) = true := by simpa using k20
    cases hrmv : rm with
    | reg m => have hM := ops.hrm; rw [hrmv] at hM; have := isReg_not_mem hM; rw [hm] at this; simp at this
    | mem b i s d rip w => rw [hrmv] at h; simp [RM.isReg] at h
  have hbr : decide ((evexLLb r (promoted r c)).2.2 = 1) =
      (((promoted r c).broad != 0) || c.sae != 0) := by
    by_cases h : c.sae = 0
    · rw [(evexLLb_nosae r (promoted r c) h).2]; simp [h]
    · rcases hd.sae with h0 | ⟨_, _, _, h4⟩
      · exact absurd h0 h
      · rw [(evexLLb_sae r (promoted r c) h4).2]; simp [h]
  refine Exists.elim (finish r f o (promoted r c) e rm _ true k1
    ⟨?_, ?_, ?_, ?_, ?_, ?_, ⟨rfl, fun _ => rfl⟩, ?_, ?_, ?_, ?_, ?_, ?_, ?_, ?_⟩ ops.hrm ?_ me _ a6 hhead) ?_
  rotate_right
  · rintro rd ⟨h1, h2, h3, _, _, h4, h5, h6, h7, h8⟩
    refine ⟨rd, h1, h3, h4, ⟨h2.reg, h2.rm, h2.v, h2.imm, h2.is4, h2.seg⟩, ?_, ?_, ?_, ?_⟩
    · rw [h5]; exact ha8
    · rw [h6]; simp only [z_eq]; by_cases hq : c.deco / 128 % 2 = 1 <;> simp [hq]
    · rw [h7]; simp only [hbr]
      cases hrmv : rm.isReg with
      | true => rw [hbcReg hrmv]; simp
      | false =>
        have : c.sae = 0 := by
          apply Decidable.byContradiction
          intro h; have := (hsaeReg h).1; rw [hrmv] at this; simp at this
        simp [this]
    · rw [h8]; simp only [hbr]
      by_cases h : c.sae = 0
      · cases hrmv : rm.isReg with
        | true => rw [hbcReg hrmv, h]; simp [rounding]
        | false => simp [h, rounding]
      · rw [(hsaeReg h).1]
        rcases hd.sae with h0 | ⟨_, _, _, h4⟩
        · exact absurd h0 h
        · have hq := (evexLLb_sae r (promoted r c) h4).1
          have hq' : rounding c.sae = _ := hq
          rw [hq']; simp [h]
  · simpa [Form.enc] using k2
  · exact hmap
  · simpa using k6
  · have : e.pp = some (vexPP r) := by simpa using k13
    rw [this]; simp [agrees]
  · have := k14
    have hq : (evexW r == 1) = decide (evexW r = 1) := by
      by_cases hq : evexW r = 1 <;> simp [hq]
    rw [hq] at this
    exact this
  · have : f.osz = none := by simpa using k3
    rw [this]; rfl
  · simp only [hbr]
    by_cases h : c.sae = 0
    · rw [(evexLLb_nosae r (promoted r c) h).1]
      cases hrmv : rm.isReg with
      | true => rw [hbcReg hrmv, h]; simpa using k15
      | false => simpa using k15
    · rw [(hsaeReg h).1]
      rcases hd.sae with h0 | ⟨_, _, h3, _⟩
      · exact absurd h0 h
      · simp [h, h3]
  · intro i hi
    have : i = k := by rw [hk] at hi; simpa using hi.symm
    subst this
    refine ⟨n, hn, ?_⟩
    by_cases h : 8 ≤ n % 16 <;> by_cases h2 : 16 ≤ n <;> simp [h, h2, addIf] <;> omega
  · intro h; rw [hk] at h; simp at h
  · intro i hi
    have hvs : f.vsib = false := by
      cases hv : f.vsib with
      | false => rfl
      | true => have := v4 hv; rw [this] at hi; simp at hi
    have : evexV r o % 16 + addIf (decide ((if evV f rm (evexV r o) = true then 0 else 1) = 0)) 16 =
        evexV r o := by
      unfold evV addIf
      rw [hvs]
      by_cases h : 16 ≤ evexV r o <;> simp [h] <;> omega
    simp only [this]
    exact v2 i hi
  · intro h
    rw [v3 h]
    refine ⟨?_, ?_⟩
    · simp only [addIf]
      split <;> rfl
    · cases hv : f.vsib with
      | true => exact Or.inl rfl
      | false => right; simp [evV, hv]
  · cases hrmv : rm with
    | reg m =>
      have hm := ops.hrm
      rw [hrmv] at hm
      have hnm := isReg_not_mem hm
      have ht' : regType (r.op f.rm) = true := by
        rcases t1 with h | h
        · exact h
        · rw [hnm] at h; simp at h
      obtain ⟨_, _, hhi, _⟩ := isReg_no ht' hm
      have := typeRange_le (r.op f.rm)
      simp only [RMHead, evB, evX]
      by_cases h : 8 ≤ m % 16 <;> by_cases h2 : 16 ≤ m <;> simp [h, h2, addIf] <;> omega
    | mem b i s d rip w =>
      refine ⟨rfl, ?_, ?_, ?_⟩
      · simp only [evB, rmB]
        by_cases h : 8 ≤ b.getD 0 ∧ b.getD 0 < 16
        · simp [h]
        · simp only [h, decide_false]; simp
      · simp only [evX]
        by_cases h : 8 ≤ i.getD 0 % 16 <;> simp [h]
      · intro hv
        simp only [evV, hv]
        by_cases h : 16 ≤ i.getD 0 <;> simp [h]
  · simp only [if_true, hbr]
    by_cases h : c.sae = 0
    · simpa [h] using hs
    · have := (hsaeReg h).1
      cases hrmv : rm with
      | reg m => trivial
      | mem b i s d rip w => rw [hrmv] at this; simp [RM.isReg] at this
  · exact hseg
  · intro i hi
    obtain ⟨m, h1, h2, h3⟩ := ops.is4 i hi
    refine ⟨m, h1, ?_, h3⟩
    unfold Fits at h2
    cases hm : c.m64 <;> rw [hm] at h2 <;> simp at h2 <;> omega

end Verif.Cgv2
