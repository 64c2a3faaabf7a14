import Verif.Ins.Spec
namespace Verif.Ins
open Verif.ModRM (Mode Seg EA Term Ctx leUnsigned leSigned leBytes)
/-! ### PUSH of a number -/

/-- What is decided for `push n`: prefix 66 for a dword in 16-bit code, one byte or a whole number. -/
theorem plan_push (m : Mode) (f : Facts) : plan m .push [.imm f none] = some
    { opsiz := decide (m = .u16) && !f.i8 && !f.word, wide := false, rexW := false, rex40 := false, hi := false,
      row := if f.i8 then 1 else 2, imms := [(0, if f.i8 then 1 else if m = .u16 ∧ f.word = true then 2 else 4)] } := by
  rcases f with ⟨i8, word, b, o, t, s, u, u8, g⟩
  revert i8 word b o t s u u8 g
  cases m <;> decide +kernel

theorem leBytes_len (v : Int) (n : Nat) : (leBytes v n).length = n := by
  induction n generalizing v with
  | zero => rfl
  | succ n ih => simp [leBytes, ih]

theorem decode_push1 (m : Mode) (b tail : List Nat) (hb : b.length = 1) :
    decode m ([0x6A] ++ b ++ tail) = some (⟨.push, [.imm (leSigned b) (match m with | .u16 => 2 | .u32 => 4 | .u64 => 8)]⟩, tail) := by
  obtain ⟨x, rfl⟩ := List.length_eq_one_iff.1 hb
  cases m <;> simp [decode, prefixes, segOf, rexOf, decodeOp, map1, OE.usesRM, readOps, readOp, takeS, width, operandSize]

theorem decode_push4 (m : Mode) (b tail : List Nat) (hb : b.length = (match m with | .u16 => 2 | _ => 4)) :
    decode m ([0x68] ++ b ++ tail) = some (⟨.push, [.imm (leSigned b) (match m with | .u16 => 2 | .u32 => 4 | .u64 => 8)]⟩, tail) := by
  cases m <;> simp at hb <;>
    simp [decode, prefixes, segOf, rexOf, decodeOp, map1, OE.usesRM, readOps, readOp, takeS, width, operandSize, hb, show ∀ k n : Nat, ¬ (k + n < k) from fun k n => by omega]

theorem decode_push66 (b tail : List Nat) (hb : b.length = 4) :
    decode .u16 ([0x66, 0x68] ++ b ++ tail) = some (⟨.push, [.imm (leSigned b) 4]⟩, tail) := by
  simp [decode, prefixes, segOf, rexOf, decodeOp, map1, OE.usesRM, readOps, readOp, takeS, width, operandSize, hb, show ∀ k n : Nat, ¬ (k + n < k) from fun k n => by omega]

/-- `push n` without a size pushes what the code's mode says: a dword in 32-bit code, a qword in 64-bit code; in 16-bit code a word, or a
dword if the number is not one of 16 bits. -/
theorem C64_push_of_a_number {cx : Ctx} {v : Int} {bytes : List Nat} (h : assemble cx .push [.imm v none] = some bytes) (tail : List Nat) :
    ∃ v' n, decode cx.mode (bytes ++ tail) = some (⟨.push, [.imm v' n]⟩, tail) ∧ (cx.mode = .u32 → n = 4) ∧ (cx.mode = .u64 → n = 8) ∧
      (cx.mode = .u16 → -65535 ≤ v → v ≤ 65535 → n = 2) ∧ (cx.mode = .u16 → 65535 < v → v < 2 ^ 31 → n = 4) ∧
      (cx.mode = .u16 → -2 ^ 31 ≤ v → v < -65535 → n = 4) := by
  simp only [assemble, Option.bind_eq_bind, Option.bind_eq_some_iff] at h
  obtain ⟨as, ha, p, hp, he⟩ := h
  have ha' : as = [.imm (Facts.of (low32 v)) none] := by
    simp only [List.mapM_cons, List.mapM_nil, Src.abs] at ha
    split at ha <;> simp at ha
    exact ha.symm
  subst ha'
  rw [show Mn.push.fam = .push from rfl, plan_push] at hp
  have hw : (Facts.of (low32 v)).i8 = true → (Facts.of (low32 v)).word = true := by
    simp only [Facts.of, decide_eq_true_eq]; omega
  have hword : -65535 ≤ v → v ≤ 65535 → (Facts.of (low32 v)).word = true := by
    intro a b
    have : low32 v = v := by unfold low32; exact Int.bmod_eq_of_le (by omega) (by omega)
    simp only [Facts.of, decide_eq_true_eq, this]; omega
  have hword' : 65535 < v ∨ v < -65535 → -2 ^ 31 ≤ v → v < 2 ^ 31 → (Facts.of (low32 v)).word = false := by
    intro a b c
    have : low32 v = v := by unfold low32; exact Int.bmod_eq_of_le (by omega) (by omega)
    simp only [Facts.of, decide_eq_false_iff_not, this]; omega
  generalize Facts.of (low32 v) = f at *
  have hp := (Option.some.inj hp).symm
  have key : bytes = (if (decide (cx.mode = .u16) && !f.i8 && !f.word) = true then [0x66] else []) ++ [if f.i8 then 0x6A else 0x68] ++
      leBytes (immVal [.imm v none] 0) (if f.i8 then 1 else if cx.mode = .u16 ∧ f.word = true then 2 else 4) := by
    subst hp
    rcases cx with ⟨m, c, fx, sg⟩
    cases m <;> cases hi : f.i8 <;>
      simp [encode, forms, codes, Mn.fam, finish, rexByte, rmRegs, opAt, hi] at he ⊢ <;> exact he.symm
  have hb := leBytes_len (immVal [.imm v none] 0) (if f.i8 then 1 else if cx.mode = .u16 ∧ f.word = true then 2 else 4)
  generalize leBytes (immVal [.imm v none] 0) (if f.i8 then 1 else if cx.mode = .u16 ∧ f.word = true then 2 else 4) = b at *
  subst key
  generalize cx.mode = m at *
  cases hi : f.i8
  · simp only [hi, Bool.false_eq_true, if_false] at hb ⊢
    by_cases h16 : m = .u16 ∧ f.word = false
    · obtain ⟨rfl, hf⟩ := h16
      simp only [hf] at hb hword ⊢
      exact ⟨_, 4, decode_push66 b tail (by simpa using hb), by simp, by simp, fun _ a b => by simpa using hword a b, by simp, by simp⟩
    · have h66 : (decide (m = .u16) && !false && !f.word) = false := by
        cases m <;> simp at h16 ⊢; exact h16
      rw [h66]
      refine ⟨_, _, decode_push4 m b tail ?_, ?_⟩
      · cases m <;> simp at h16 hb ⊢ <;> first | exact hb | simpa [h16] using hb
      · cases m <;> simp at h16 ⊢
        refine ⟨fun a => ?_, fun a => ?_⟩
        · by_cases c : v < 2147483648
          · have := hword' (Or.inl a) (by omega) (by omega); simp [h16] at this
          · omega
        · by_cases c : v < -65535
          · have := hword' (Or.inr c) (by omega) (by omega); simp [h16] at this
          · omega
  · simp only [hi, if_true] at hb ⊢
    have hf := hw hi
    rw [show (decide (m = .u16) && !true && !f.word) = false by simp]
    refine ⟨_, _, decode_push1 m b tail hb, ?_⟩
    cases m <;> simp
    refine ⟨fun a => ?_, fun a => ?_⟩
    · by_cases c : v < 2147483648
      · have := hword' (Or.inl a) (by omega) (by omega); simp [hf] at this
      · omega
    · by_cases c : v < -65535
      · have := hword' (Or.inr c) (by omega) (by omega); simp [hf] at this
      · omega

/-- `push 1000` in 16-bit code writes a word. -/
example : assemble { mode := .u16, dir := .u16 } .push [.imm 1000 none] = some [0x68, 0xE8, 3] ∧
    assemble { mode := .u16, dir := .u16 } .push [.imm 100000 none] = some [0x66, 0x68, 0xA0, 0x86, 1, 0] := by decide +kernel

end Verif.Ins
