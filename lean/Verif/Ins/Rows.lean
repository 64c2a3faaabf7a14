import Verif.Ins.Check
/-! # C64: the opcodes of all mnemonics, for all rows -/
namespace Verif.Ins
open Verif.ModRM (Mode)

def allMn : List Mn :=
  [.add, .or, .adc, .sbb, .and, .sub, .xor, .cmp, .rol, .ror, .rcl, .rcr, .sal, .shl, .shr, .sar, .not, .neg, .mul, .div, .idiv,
   .inc, .dec, .test, .xchg, .imul, .lea, .movsx, .movzx, .bt, .bts, .btr, .btc, .bsf, .bsr, .cmpxchg, .xadd, .shld, .shrd, .push,
   .pop, .int] ++ (List.range 16).map (fun n => .set (cc n)) ++ (List.range 16).map (fun n => .cmov (cc n))

theorem mem_allMn (mn : Mn) : mn ∈ allMn := by
  cases mn with
  | set c => revert c; decide
  | cmov c => revert c; decide
  | _ => decide

def mapAt (m : Mode) (esc nop : Bool) (opc d : Nat) : Option Entry := if esc then map2 opc d else map1 m nop opc d

/-- The byte after the prefixes is not a prefix. -/
def opcOk (m : Mode) (esc : Bool) (opc : Nat) : Bool :=
  esc || (decide (opc ≠ 0x66) && decide (opc ≠ 0x67) && decide (segOf opc = none) && decide (opc ≠ 0x0F) &&
    (decide (m ≠ .u64) || !(decide (0x40 ≤ opc ∧ opc < 0x50))))

def allD (P : Nat → Bool) : Bool := (List.range 8).all P

def rowCheck (m : Mode) (mn : Mn) (i : Nat) (wide : Bool) : Bool :=
  match (forms m mn.fam)[i]?, (codes m mn)[i]?, famEntry m mn.fam i wide with
  | some f, some c, some e =>
    (wide && !f.wds) ||
    match f.kind with
    | .rm =>
      opcOk m f.esc (c.1 ||| (if wide then 1 else 0)) && decide (c.2 < 8) &&
      (if e.ops.any OE.isG then decide (c.2 = 0) && allD fun d => [true, false].all fun nop =>
          mapAt m f.esc nop (c.1 ||| (if wide then 1 else 0)) d == some { e with mn := mn.canon }
        else [true, false].all fun nop => mapAt m f.esc nop (c.1 ||| (if wide then 1 else 0)) c.2 == some { e with mn := mn.canon })
    | .noRM =>
      opcOk m f.esc (c.1 ||| (if wide then 1 else 0)) && allD fun d => [true, false].all fun nop =>
        mapAt m f.esc nop (c.1 ||| (if wide then 1 else 0)) d == some { e with mn := mn.canon }
    | .inOp =>
      allD fun n => decide ((c.1 ||| n) % 8 = n) && opcOk m f.esc (c.1 ||| n) && allD fun d => [true, false].all fun nop =>
        (nop && decide (n = 0) && decide (mn = .xchg)) || mapAt m f.esc nop (c.1 ||| n) d == some { e with mn := mn.canon }
  | some _, none, _ => false
  | _, _, _ => true

set_option maxRecDepth 100000 in
theorem rows16 : (allMn.all fun mn => (List.range 8).all fun i => [true, false].all fun w => rowCheck .u16 mn i w) = true := by decide +kernel
set_option maxRecDepth 100000 in
theorem rows32 : (allMn.all fun mn => (List.range 8).all fun i => [true, false].all fun w => rowCheck .u32 mn i w) = true := by decide +kernel
set_option maxRecDepth 100000 in
theorem rows64 : (allMn.all fun mn => (List.range 8).all fun i => [true, false].all fun w => rowCheck .u64 mn i w) = true := by decide +kernel

theorem forms_length : ∀ m ∈ modes, ∀ fam ∈ fams, (forms m fam).length ≤ 8 := by decide +kernel

theorem rowCheck_all (m : Mode) (mn : Mn) (i : Nat) (hi : i < 8) (w : Bool) : rowCheck m mn i w = true := by
  have key : ∀ m, (allMn.all fun mn => (List.range 8).all fun i => [true, false].all fun w => rowCheck m mn i w) = true := by
    intro m; cases m
    · exact rows16
    · exact rows32
    · exact rows64
  have h := key m
  rw [List.all_eq_true] at h
  have h := h mn (mem_allMn mn)
  rw [List.all_eq_true] at h
  have h := h i (by simp [hi])
  rw [List.all_eq_true] at h
  exact h w (by cases w <;> simp)

end Verif.Ins
