import Verif.Cgv2.EncMem

/-!
# Prefix bytes read back
-/

namespace Verif.Cgv2

open Isa

/-! ## Legacy prefixes -/

/-- Not a legacy prefix byte. -/
def noPrefix (b : Nat) : Bool :=
  b ∉ [0x66, 0x67, 0xf0, 0xf2, 0xf3, 0x26, 0x2e, 0x36, 0x3e, 0x64, 0x65]

theorem prefixes_stop (p : Legacy) (b : Nat) (rest : List Nat) (h : noPrefix b = true) :
    prefixes p (b :: rest) = (p, b :: rest) := by
  simp [noPrefix] at h
  simp [prefixes, h]

/-- A segment prefix, or nothing. -/
def SegBytes (sp : List Nat) : Prop := sp = [] ∨ ∃ s, sp = [segByte s]

theorem prefixes_eq (aso oso : Bool) (sp m : List Nat) (hsp : SegBytes sp)
    (hm : m = [] ∨ m = [0x66] ∨ m = [0xf2] ∨ m = [0xf3]) (b : Nat) (rest : List Nat)
    (hb : noPrefix b = true) :
    prefixes {} ((if aso then [0x67] else []) ++ (if oso then [0x66] else []) ++ sp ++
      (m ++ b :: rest)) =
    (⟨oso || m == [0x66], aso, false, if m = [0xf2] then 0xf2 else if m = [0xf3] then 0xf3 else 0,
      sp.headD 0⟩, b :: rest) := by
  have hs := prefixes_stop
  rcases hsp with rfl | ⟨s, rfl⟩
  · rcases hm with rfl | rfl | rfl | rfl <;> cases aso <;> cases oso <;>
      simp [prefixes.eq_2, hs _ b rest hb]
  · rcases hm with rfl | rfl | rfl | rfl <;> cases aso <;> cases oso <;> cases s <;>
      simp [prefixes.eq_2, segByte, hs _ b rest hb]

/-! ## VEX bytes -/

theorem vex2_fields : ∀ (pp : Fin 4) (l : Fin 2) (v : Fin 16) (vr : Fin 2),
    let b := pp.1 ||| (l.1 <<< 2) ||| ((15 - v.1) <<< 3) ||| (vr.1 <<< 7)
    bit b 7 = decide (vr.1 = 1) ∧ 15 - b / 8 % 16 = v.1 ∧ bit b 2 = decide (l.1 = 1) ∧
      b % 4 = pp.1 ∧ (vr.1 = 1 → v.1 < 8 → 0xc0 ≤ b) := by decide +kernel

theorem vex3_fields1 : ∀ (vr vx vb : Fin 2) (mm : Fin 4),
    let b := (vr.1 <<< 7) ||| (vx.1 <<< 6) ||| (vb.1 <<< 5) ||| mm.1
    bit b 7 = decide (vr.1 = 1) ∧ bit b 6 = decide (vx.1 = 1) ∧ bit b 5 = decide (vb.1 = 1) ∧
      b % 32 = mm.1 ∧ (vr.1 = 1 → vx.1 = 1 → 0xc0 ≤ b) := by decide +kernel

theorem vex3_fields2 : ∀ (w : Fin 2) (v : Fin 16) (l : Fin 2) (pp : Fin 4),
    let b := (w.1 <<< 7) ||| ((15 - v.1) <<< 3) ||| (l.1 <<< 2) ||| pp.1
    bit b 7 = decide (w.1 = 1) ∧ 15 - b / 8 % 16 = v.1 ∧ bit b 2 = decide (l.1 = 1) ∧
      b % 4 = pp.1 := by decide +kernel

theorem evex_fields1 : ∀ (er ex eb enr : Fin 2) (mm : Fin 4),
    let b := (er.1 <<< 7) ||| (ex.1 <<< 6) ||| (eb.1 <<< 5) ||| (enr.1 <<< 4) ||| (mm.1 &&& 3)
    bit b 7 = decide (er.1 = 1) ∧ bit b 6 = decide (ex.1 = 1) ∧ bit b 5 = decide (eb.1 = 1) ∧
      bit b 4 = decide (enr.1 = 1) ∧ bit b 3 = false ∧ bit b 2 = false ∧ b % 4 = mm.1 ∧
      (er.1 = 1 → ex.1 = 1 → 0xc0 ≤ b) := by decide +kernel

theorem evex_fields2 : ∀ (w : Fin 2) (v : Fin 16) (pp : Fin 4),
    let b := (w.1 <<< 7) ||| ((15 - v.1) <<< 3) ||| 4 ||| (pp.1 &&& 3)
    bit b 7 = decide (w.1 = 1) ∧ 15 - b / 8 % 16 = v.1 ∧ bit b 2 = true ∧ b % 4 = pp.1 := by
  decide +kernel

theorem evex_fields3 : ∀ (z nl l br nv : Fin 2) (aaa : Fin 8),
    let b := (z.1 <<< 7) ||| (nl.1 <<< 6) ||| (l.1 <<< 5) ||| (br.1 <<< 4) ||| (nv.1 <<< 3) ||| aaa.1
    bit b 7 = decide (z.1 = 1) ∧ b / 32 % 4 = nl.1 * 2 + l.1 ∧ bit b 4 = decide (br.1 = 1) ∧
      bit b 3 = decide (nv.1 = 1) ∧ b % 8 = aaa.1 := by decide +kernel

/-! ## REX -/

/-- `buildREX` as a function of its tests. -/
def rexVal (needB needX rexf fb fr fw erex d0 ds regdst pm : Bool) : Nat :=
  let rex := (if needB then 0x41 else 0) ||| (if needX then 0x42 else 0)
  let rex := if rexf then rex ||| 0x40 ||| (if fb then 1 else 0) ||| (if false then 2 else 0) |||
      (if fr then 4 else 0) ||| (if fw then 8 else 0) else rex
  let rex := if erex then
      if regdst then rex ||| (if d0 then 0x44 else 0) ||| (if ds then 0x41 else 0)
      else rex ||| (if d0 then 0x41 else 0) ||| (if ds then 0x44 else 0)
    else rex
  if pm then rex ||| 0x48 else rex

theorem rexVal_fields : ∀ (needB needX rexf fb fr fw erex d0 ds regdst pm : Bool),
    let v := rexVal needB needX rexf fb fr fw erex d0 ds regdst pm
    bit v 3 = ((rexf && fw) || pm) ∧
    bit v 2 = ((rexf && fr) || (erex && (if regdst then d0 else ds))) ∧
    bit v 1 = needX ∧
    bit v 0 = (needB || (rexf && fb) || (erex && (if regdst then ds else d0))) ∧
    (v ≠ 0 → 0x40 ≤ v ∧ v < 0x50) ∧
    decide (v ≠ 0) = (needB || needX || rexf || (erex && (d0 || ds)) || pm) := by
  decide +kernel

end Verif.Cgv2
