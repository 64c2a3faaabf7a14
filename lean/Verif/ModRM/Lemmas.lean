import Verif.ModRM.Spec
import Mathlib.Tactic.Ring
import Mathlib.Tactic.IntervalCases
import Mathlib.Data.Int.ModEq
/-! # Lemmas for C19 -/
namespace Verif.ModRM

/-! ### Little endian fields -/

theorem leBytes_length (v : Int) (n : Nat) : (leBytes v n).length = n := by
  induction n generalizing v with
  | zero => rfl
  | succ n ih => simp [leBytes, ih]

theorem leUnsigned_leBytes (v : Int) (n : Nat) : (leUnsigned (leBytes v n) : Int) = v % 2 ^ (8 * n) := by
  induction n generalizing v with
  | zero => simp [leBytes, leUnsigned]
  | succ n ih =>
    simp only [leBytes, leUnsigned]
    push_cast
    rw [ih]
    have h1 : (2 : Int) ^ (8 * (n + 1)) = 256 * 2 ^ (8 * n) := by
      rw [show 8 * (n + 1) = 8 * n + 8 by omega, pow_add]; norm_num; ring
    rw [h1, Int.mul_emod_mul_of_pos_helper v n]
where
  Int.mul_emod_mul_of_pos_helper (v : Int) (n : Nat) :
      ((v % 256).toNat : Int) + 256 * (v / 256 % 2 ^ (8 * n)) = v % (256 * 2 ^ (8 * n)) := by
    rw [Int.toNat_of_nonneg (by omega)]
    have hp : (0 : Int) < 2 ^ (8 * n) := by positivity
    have := Int.emod_emod_of_dvd v (show (256:Int) ∣ 256 * 2 ^ (8*n) from ⟨_, rfl⟩)
    have h2 : v % (256 * 2 ^ (8 * n)) / 256 = v / 256 % 2 ^ (8 * n) := by
      rw [Int.emod_def, Int.emod_def, ← Int.ediv_ediv_of_nonneg (by norm_num)]
      rw [show v - 256 * 2 ^ (8*n) * (v / 256 / 2 ^ (8*n)) = v + 256 * (-(2 ^ (8*n) * (v / 256 / 2 ^ (8*n)))) by ring]
      rw [Int.add_mul_ediv_left _ _ (by norm_num)]
      ring
    rw [← h2, ← this]
    omega

theorem leSigned_leBytes (v : Int) (n : Nat) : leSigned (leBytes v n) = Int.bmod v (2 ^ (8 * n)) := by
  unfold leSigned
  rw [leBytes_length, leUnsigned_leBytes]
  have := Int.emod_bmod (x := v) (n := 2 ^ (8 * n))
  push_cast at this
  exact this

/-- The displacement field of `n` bytes gives the value. -/
def DispOk (n bits : Nat) (v : Int) : Prop := Int.bmod v (2 ^ (8 * n)) % 2 ^ bits = v % 2 ^ bits

theorem dispOk_full16 (v : Int) : DispOk 2 16 v := by unfold DispOk; rw [Int.bmod_def]; norm_num; split <;> omega
theorem dispOk_full32 (v : Int) : DispOk 4 32 v := by unfold DispOk; rw [Int.bmod_def]; norm_num; split <;> omega
theorem dispOk_full64 (v : Int) (h : -2 ^ 31 ≤ v ∧ v < 2 ^ 31) : DispOk 4 64 v := by
  unfold DispOk; rw [Int.bmod_def]; norm_num at *; split <;> omega

/-! ### ModRM and REX from both operands -/

/-- A well formed result of memory_operand. -/
structure CI.WF (ci : CI) : Prop where
  mod : ci.mod = 0 ∨ ci.mod = 0x40 ∨ ci.mod = 0x80
  rm : ci.rm < 8
  rex : ci.rex < 4

/-- The effective mod field. -/
def CI.md (ci : CI) : Nat := if ci.rip then 0 else ci.mod / 64

def Other.no : Other → Nat
  | .regFirst n => n
  | .regSecond n => n
  | .digit n => n

/-- Registers 0-15, digits 0-7. -/
def Other.ok : Other → Prop
  | .regFirst n => n < 16
  | .regSecond n => n < 16
  | .digit n => n < 8

def mk (mod : Fin 3) (rm : Fin 8) (rex : Fin 4) (rip : Bool) : CI :=
  { adrsiz := false, regOverride := none, mod := mod.val * 64, rm := rm.val, sib := 0, rex := rex.val, rip }

theorem combine_first : ∀ (mod : Fin 3) (rm : Fin 8) (rex : Fin 4) (rip : Bool) (n : Fin 16),
    combine (mk mod rm rex rip) (.regFirst n.val) =
      ((if rip then 0 else mod.val) * 64 + n.val % 8 * 8 + rm.val, rex.val + 4 * (n.val / 8)) := by decide +kernel
theorem combine_second : ∀ (mod : Fin 3) (rm : Fin 8) (rex : Fin 4) (rip : Bool) (n : Fin 16),
    combine (mk mod rm rex rip) (.regSecond n.val) =
      ((if rip then 0 else mod.val) * 64 + n.val % 8 * 8 + rm.val, rex.val + 4 * (n.val / 8)) := by decide +kernel
theorem combine_digit : ∀ (mod : Fin 3) (rm : Fin 8) (rex : Fin 4) (rip : Bool) (n : Fin 8),
    combine (mk mod rm rex rip) (.digit n.val) =
      ((if rip then 0 else mod.val) * 64 + n.val % 8 * 8 + rm.val, rex.val + 4 * (n.val / 8)) := by decide +kernel

theorem combine_ci (ci : CI) (other : Other) (m : Nat) (hm : ci.mod = m * 64) :
    combine ci other = combine ⟨false, none, m * 64, ci.rm, 0, ci.rex, ci.rip⟩ other := by
  unfold combine
  cases other <;> simp [hm]

theorem combine_eq {ci : CI} (wf : ci.WF) {other : Other} (ho : other.ok) :
    combine ci other = (ci.md * 64 + other.no % 8 * 8 + ci.rm, ci.rex + 4 * (other.no / 8)) := by
  have hm : ∃ m : Fin 3, ci.mod = m.val * 64 := by
    rcases wf.mod with h | h | h
    · exact ⟨0, h⟩
    · exact ⟨1, h⟩
    · exact ⟨2, h⟩
  obtain ⟨m, hm⟩ := hm
  have hd : ci.md = if ci.rip then 0 else m.val := by unfold CI.md; rw [hm]; simp
  rw [combine_ci ci other m hm, hd]
  cases other with
  | regFirst n => exact combine_first m ⟨ci.rm, wf.rm⟩ ⟨ci.rex, wf.rex⟩ ci.rip ⟨n, ho⟩
  | regSecond n => exact combine_second m ⟨ci.rm, wf.rm⟩ ⟨ci.rex, wf.rex⟩ ci.rip ⟨n, ho⟩
  | digit n => exact combine_digit m ⟨ci.rm, wf.rm⟩ ⟨ci.rex, wf.rex⟩ ci.rip ⟨n, ho⟩

/-! ### Reading back what was written -/

/-- The form which the processor reads from the fields. -/
def CI.form (ci : CI) (m : Mode) : Option Form :=
  if addrBits m (ci.adrsiz && !ci.rip) = 16 then form16 ci.md ci.rm
  else if ci.rm = 4 then some (formSib ci.md ci.sib (ci.rex / 2 % 2) (ci.rex % 2))
  else some (form32 (m == .u64) ci.md ci.rm (ci.rex % 2))

theorem and_facts : ∀ (m : Fin 3) (r rm : Fin 8),
    (m.val * 64 + r.val * 8 + rm.val) &&& 0xC7 = m.val * 64 + rm.val ∧
    (m.val * 64 + r.val * 8 + rm.val) &&& 0xC0 = m.val * 64 ∧
    (m.val * 64 + r.val * 8 + rm.val) &&& 7 = rm.val ∧
    (r.val * 8 + rm.val) &&& 0x7F = r.val * 8 + rm.val := by decide +kernel

theorem and7 (n : Nat) : n &&& 7 = n % 8 := Nat.and_two_pow_sub_one_eq_mod n 3

/-- The size of the displacement field is what the processor expects. -/
theorem dispSize_eq {ci : CI} {m : Mode} {f : Form} (hrip : ci.rip = true → m = .u64) (hmd : ci.md < 3) (hrm : ci.rm < 8) {r : Nat}
    (hr : r < 8) (hf : ci.form m = some f) :
    dispSize m ci.adrsiz (ci.md * 64 + r * 8 + ci.rm) ci.sib = f.dsz := by
  obtain ⟨-, h2, h3, -⟩ := and_facts ⟨ci.md, hmd⟩ ⟨r, hr⟩ ⟨ci.rm, hrm⟩
  simp only at h2 h3
  unfold dispSize
  rw [h2, h3, and7]
  unfold CI.form addrBits at hf
  generalize ci.rm = rm at *
  generalize ci.md = md at *
  cases m <;> cases ha : ci.adrsiz <;> cases hp : ci.rip <;> simp_all <;>
  · interval_cases md <;> interval_cases rm <;> simp_all [form16, form32, formSib] <;>
      (try (obtain rfl := hf)) <;> (try subst hf) <;> (try rfl) <;> (try split) <;> simp_all

theorem md_lt {ci : CI} (wf : ci.WF) : ci.md < 3 := by
  unfold CI.md
  rcases wf.mod with h | h | h <;> rw [h] <;> split <;> decide

/-- Everything but the displacement is independent of the value, and the processor reads the form of the fields. -/
theorem output_decode {cx : Ctx} {ci : CI} {other : Other} {v : Int} {enc : Enc} {f : Form} (wf : ci.WF) (ho : other.ok)
    (hrip : ci.rip = true → cx.mode = .u64)
    (hsib : ci.rm = 4 → addrBits cx.mode (ci.adrsiz && !ci.rip) = 16 → cx.mode = .u16)
    (hf : ci.form cx.mode = some f) (h : output cx ci other v = .ok enc) :
    enc.p67 = (ci.adrsiz && !ci.rip) ∧ enc.seg = ci.regOverride ∧
    ∃ pre, enc.bytes = pre ++ leBytes v f.dsz ∧
      (∀ v' enc', output cx ci other v' = .ok enc' → enc' = { enc with bytes := pre ++ leBytes v' f.dsz }) ∧
      ∀ fld tail, fld.length = f.dsz →
        decode cx.mode enc.p67 enc.rex (pre ++ fld ++ tail) = some
          ({ bits := addrBits cx.mode enc.p67, parts := f.parts, rip := f.rip, disp := leSigned fld, stack := f.stack },
            other.no, tail) := by
  have hno : other.no % 8 < 8 := Nat.mod_lt _ (by decide)
  have hmd := md_lt wf
  have hds := dispSize_eq hrip hmd wf.rm hno hf
  obtain ⟨h1, h2, h3, h4⟩ := and_facts ⟨ci.md, hmd⟩ ⟨other.no % 8, hno⟩ ⟨ci.rm, wf.rm⟩
  simp only at h1 h2 h3 h4
  have hno2 : other.no < 16 := by cases other <;> simp_all [Other.ok, Other.no]; omega
  have htmp : (if ci.rip = true then (ci.md * 64 + other.no % 8 * 8 + ci.rm) &&& 127 else (ci.md * 64 + other.no % 8 * 8 + ci.rm))
      = ci.md * 64 + other.no % 8 * 8 + ci.rm := by
    split
    · next hr =>
      have : ci.md = 0 := by simp [CI.md, hr]
      simp only [this]; simpa using h4
    · rfl
  unfold output at h ⊢
  rw [combine_eq wf ho] at h ⊢
  simp only [htmp] at h ⊢
  simp only [hds] at h ⊢
  split at h
  · exact absurd h (by simp)
  rename_i hrex
  split at h
  · exact absurd h (by simp)
  simp only [Except.ok.injEq] at h
  subst h
  refine ⟨rfl, rfl, (ci.md * 64 + other.no % 8 * 8 + ci.rm) ::
    sibBytes cx.mode ci.adrsiz (ci.md * 64 + other.no % 8 * 8 + ci.rm) ci.sib, by simp, ?_, ?_⟩
  · intro v' enc' h'
    rw [if_neg hrex] at h'
    split at h'
    · exact absurd h' (by simp)
    simp only [Except.ok.injEq] at h'
    subst h'
    simp
  · intro fld tail hfl
    have hrexl : ci.rex < 4 := wf.rex
    have hrml : ci.rm < 8 := wf.rm
    have e1 : (ci.md * 64 + other.no % 8 * 8 + ci.rm) / 64 = ci.md := by omega
    have e2 : (ci.md * 64 + other.no % 8 * 8 + ci.rm) / 8 % 8 = other.no % 8 := by omega
    have e3 : (ci.md * 64 + other.no % 8 * 8 + ci.rm) % 8 = ci.rm := by omega
    have e4 : (ci.rex + 4 * (other.no / 8)) / 4 % 2 = other.no / 8 := by omega
    have e5 : (ci.rex + 4 * (other.no / 8)) % 2 = ci.rex % 2 := by omega
    have e6 : (ci.rex + 4 * (other.no / 8)) / 2 % 2 = ci.rex / 2 % 2 := by omega
    have e7 : other.no % 8 + 8 * (other.no / 8) = other.no := by omega
    have hfl1 : ¬ (fld ++ tail).length < f.dsz := by simp [hfl]
    have hfl2 : (fld ++ tail).take f.dsz = fld := by rw [← hfl]; simp
    have hfl3 : (fld ++ tail).drop f.dsz = tail := by rw [← hfl]; simp
    have hmd3 : ¬ ci.md ≥ 3 := by omega
    simp only [List.cons_append, List.append_assoc]
    simp only [decode, e1, e2, e3, e4, e5, e6, e7]
    rw [if_neg hmd3]
    unfold CI.form at hf
    by_cases h16 : addrBits cx.mode (ci.adrsiz && !ci.rip) = 16
    · rw [if_pos h16] at hf ⊢
      have hs : sibBytes cx.mode ci.adrsiz (ci.md * 64 + other.no % 8 * 8 + ci.rm) ci.sib = [] := by
        unfold sibBytes
        rw [h1]
        by_cases h4 : ci.rm = 4
        · have hm := hsib h4 h16
          have hr : ci.rip = false := by
            cases hr : ci.rip
            · rfl
            · rw [hrip hr] at hm; exact absurd hm (by decide)
          have : ci.adrsiz = false := by
            cases ha : ci.adrsiz
            · rfl
            · rw [hm, ha, hr] at h16; exact absurd h16 (by decide)
          rw [if_pos ⟨hm, this⟩]
        · split
          · rfl
          · rw [if_neg (by omega)]
      rw [hs]
      simp only [List.nil_append]
      rw [hf]
      simp only [Option.bind_some]
      rw [if_neg hfl1, hfl2, hfl3]
    · rw [if_neg h16] at hf ⊢
      have hn : ¬ (cx.mode = .u16 ∧ ci.adrsiz = false) := by
        rintro ⟨a, b⟩; rw [a, b] at h16; exact h16 rfl
      by_cases h4 : ci.rm = 4
      · rw [if_pos h4] at hf ⊢
        have hs : sibBytes cx.mode ci.adrsiz (ci.md * 64 + other.no % 8 * 8 + ci.rm) ci.sib = [ci.sib] := by
          unfold sibBytes
          rw [h1, if_neg hn, if_pos (by omega)]
        rw [hs]
        simp only [Option.some.injEq] at hf
        simp only [List.cons_append, List.nil_append, hf]
        rw [if_neg hfl1, hfl2, hfl3]
      · rw [if_neg h4] at hf ⊢
        have hs : sibBytes cx.mode ci.adrsiz (ci.md * 64 + other.no % 8 * 8 + ci.rm) ci.sib = [] := by
          unfold sibBytes
          rw [h1, if_neg hn, if_neg (by omega)]
        rw [hs]
        simp only [Option.some.injEq] at hf
        simp only [List.nil_append, hf]
        rw [if_neg hfl1, hfl2, hfl3]

end Verif.ModRM
