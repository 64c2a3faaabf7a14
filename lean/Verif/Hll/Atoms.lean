import Verif.Hll.Fix
/-! The conditions without && and ||. -/
namespace Verif.Hll

/-- The condition codes of the tables `flaginstr`, `unsigned_cjmptype`, `signed_cjmptype`. -/
def ccSem (cc : Char) (f : Flags) : Bool :=
  if cc = 'z' ∨ cc = 'e' then f.z
  else if cc = 'c' ∨ cc = 'b' then f.c
  else if cc = 's' then f.s
  else if cc = 'p' then f.p
  else if cc = 'o' then f.o
  else if cc = 'l' then f.s != f.o
  else if cc = 'g' then !f.z && f.s == f.o
  else !f.c && !f.z

def ccs : List Char := ['z', 'c', 's', 'p', 'o', 'l', 'g', 'a', 'e', 'b']

theorem last_jcc {α : Type} (L : Nat) {cc : Char} (h : cc ∈ ccs) (neg : Bool) :
    Last L ([.jump (jcc cc neg) L] : List (Line α)) (fun f => ccSem cc f != neg) := by
  simp only [ccs, List.mem_cons, List.not_mem_nil, or_false] at h
  rcases h with rfl | rfl | rfl | rfl | rfl | rfl | rfl | rfl | rfl | rfl <;> cases neg
  all_goals
    refine Last.jump (c := fun f => ccSem _ f != _) ?_ (.inl ?_)
    · simp only [jcc, Mnem.chars, jumpCond, Bool.false_eq_true, if_false, if_true, List.cons.injEq, Char.reduceEq, and_false, false_and, and_true,
        true_and, or_false, or_true, false_or, true_or, Option.some.injEq]
      funext f
      simp [ccSem, Bool.not_and, bne]
    · simp only [jcc, invertJump, Char.reduceEq, Bool.false_eq_true, if_false, if_true, or_false, or_true, false_or,
        true_or]
      refine ⟨_, rfl, ?_⟩
      simp only [Mnem.chars, jumpCond, Bool.false_eq_true, if_false, if_true, List.cons.injEq, Char.reduceEq, and_false, false_and, and_true,
        true_and, or_false, or_true, false_or, true_or, Option.some.injEq]
      funext f
      simp [ccSem, Bool.not_and, bne]

theorem last_jmp {α : Type} (L : Nat) : Last L ([.jump jmpMnem L] : List (Line α)) (fun _ => true) :=
  Last.jump rfl (.inr ⟨rfl, rfl⟩)

section
variable {α : Type} (env : Env α)

/-- One instruction and a jump. -/
theorem lj_one {L : Nat} {m : Bool} {f : Sem} {J : List (Line α)} {c : Flags → Bool} (i : Ins α) (hl : Last L J c)
    (h : ∀ σ, (f σ).2 = i.exec env ∧ c (i.exec env) = ((f σ).1 == m)) :
    LJ env [.ins i] J c L m [] f 0 where
  last := hl
  sem := fun σ => ⟨none, by simp [lineEx, (h σ).1], fun _ => by rw [(h σ).1]; exact (h σ).2, by simp⟩

theorem lj_zero {L : Nat} {m : Bool} {f : Sem} {J : List (Line α)} {c : Flags → Bool} (hl : Last L J c)
    (h : ∀ σ, (f σ).2 = σ ∧ c σ = ((f σ).1 == m)) :
    LJ env [] J c L m [] f 0 where
  last := hl
  sem := fun σ => ⟨none, by simp [(h σ).1], fun _ => by rw [(h σ).1]; exact (h σ).2, by simp⟩

end

/-! ### Flags of comparisons -/

theorem less_flag {w : Nat} (x y : BitVec w) (_hw : 0 < w) :
    ((cmpFlags x y).s != (cmpFlags x y).o) = decide (x.toInt < y.toInt) := by
  simp only [cmpFlags]
  have hx := BitVec.msb_eq_toInt (x := x)
  have hy := BitVec.msb_eq_toInt (x := y)
  have hs := BitVec.msb_eq_toInt (x := x - y)
  by_cases e : x.msb = y.msb
  · rw [e]
    simp only [bne_self_eq_false, Bool.false_and, Bool.bne_false, hs]
    have hbx := BitVec.le_toInt (x := x)
    have hbx' := BitVec.toInt_lt (x := x)
    have hby := BitVec.le_toInt (x := y)
    have hby' := BitVec.toInt_lt (x := y)
    rw [hx, hy] at e
    have : (x - y).toInt = x.toInt - y.toInt := by
      rw [BitVec.toInt_sub]
      have h2 : (2 : Int) ^ w = 2 * 2 ^ (w - 1) := by
        obtain ⟨n, rfl⟩ : ∃ n, w = n + 1 := ⟨w - 1, by omega⟩
        rw [Nat.add_sub_cancel, Int.pow_succ]; omega
      have h3 : ((2 ^ w : Nat) : Int) = 2 * 2 ^ (w - 1) := by push_cast; exact h2
      have he : (x.toInt < 0) ↔ (y.toInt < 0) := by simpa using e
      apply Int.bmod_eq_of_le
      · rw [h3]; generalize (2 : Int) ^ (w - 1) = k at *; omega
      · rw [h3]; generalize (2 : Int) ^ (w - 1) = k at *; omega
    rw [this]
    apply decide_eq_decide.2; omega
  · have h1 : (x.msb != y.msb) = true := by simp [e]
    rw [h1]
    have : ((x - y).msb != (true && (x - y).msb != x.msb)) = x.msb := by
      cases (x - y).msb <;> cases x.msb <;> rfl
    rw [this]
    rw [hx, hy] at e
    rw [hx]
    by_cases h : x.toInt < 0
    · have : ¬ y.toInt < 0 := by intro h'; simp [h, h'] at e
      simp [h]; omega
    · have : y.toInt < 0 := by
        by_cases h' : y.toInt < 0
        · exact h'
        · simp [h, h'] at e
      simp [h]; omega

theorem int_cc {w : Nat} (c : Cmp) (signed isTrue : Bool) (x y : BitVec w) (hw : 0 < w) :
    (ccSem (if signed then signed_cjmptype c else unsigned_cjmptype c) (cmpFlags x y) !=
      (if neg_cjmptype c then isTrue else !isTrue)) = (relInt c signed x y == isTrue) := by
  have hz : (cmpFlags x y).z = decide (x = y) := by
    simp only [cmpFlags]
    by_cases h : x = y <;> simp [h]
  have hc : (cmpFlags x y).c = decide (x.toNat < y.toNat) := by
    simp only [cmpFlags, BitVec.ult]
  have hl := less_flag x y hw
  have hi : (x = y) ↔ (x.toInt = y.toInt) := BitVec.toInt_inj.symm
  have hn : (x = y) ↔ (x.toNat = y.toNat) := BitVec.toNat_inj.symm
  have hg : ((cmpFlags x y).s == (cmpFlags x y).o) = !decide (x.toInt < y.toInt) := by
    rw [← hl]; simp [bne]
  cases c <;> cases signed <;>
    simp only [signed_cjmptype, unsigned_cjmptype, neg_cjmptype, ccSem, relInt, hz, hc, hl, hg,
      Bool.false_eq_true, if_false, if_true, Char.reduceEq, or_false, or_true, false_or, true_or]
  case eq.false | eq.true => by_cases h : x = y <;> cases isTrue <;> simp [h]
  case ne.false | ne.true => by_cases h : x = y <;> cases isTrue <;> simp [h]
  case lt.false => by_cases h : x.toNat < y.toNat <;> cases isTrue <;> simp [h]
  case lt.true => by_cases h : x.toInt < y.toInt <;> cases isTrue <;> simp [h]
  case ge.false => 
    by_cases h : x.toNat < y.toNat
    · have : ¬ y.toNat ≤ x.toNat := by omega
      cases isTrue <;> simp [h, this]
    · have : y.toNat ≤ x.toNat := by omega
      cases isTrue <;> simp [h, this]
  case ge.true => 
    by_cases h : x.toInt < y.toInt
    · have : ¬ y.toInt ≤ x.toInt := by omega
      cases isTrue <;> simp [h, this]
    · have : y.toInt ≤ x.toInt := by omega
      cases isTrue <;> simp [h, this]
  case gt.false | le.false =>
    rcases Nat.lt_trichotomy x.toNat y.toNat with h | h | h
    · have h1 : ¬ x = y := by rw [hn]; omega
      have h2 : ¬ y.toNat < x.toNat := by omega
      have h3 : x.toNat ≤ y.toNat := by omega
      cases isTrue <;> simp [h, h1, h2, h3]
    · have h1 : x = y := hn.2 h
      cases isTrue <;> simp [h1]
    · have h1 : ¬ x = y := by rw [hn]; omega
      have h2 : ¬ x.toNat < y.toNat := by omega
      have h3 : ¬ x.toNat ≤ y.toNat := by omega
      cases isTrue <;> simp [h, h1, h2, h3]
  case gt.true | le.true =>
    rcases Int.lt_trichotomy x.toInt y.toInt with h | h | h
    · have h1 : ¬ x = y := by rw [hi]; omega
      have h2 : ¬ y.toInt < x.toInt := by omega
      have h3 : x.toInt ≤ y.toInt := by omega
      cases isTrue <;> simp [h, h1, h2, h3]
    · have h1 : x = y := hi.2 h
      cases isTrue <;> simp [h1]
    · have h1 : ¬ x = y := by rw [hi]; omega
      have h2 : ¬ x.toInt < y.toInt := by omega
      have h3 : ¬ x.toInt ≤ y.toInt := by omega
      cases isTrue <;> simp [h, h1, h2, h3]

theorem float_cc (c : Cmp) (isTrue : Bool) (r : FOrd) (hr : r ≠ .unordered) :
    (ccSem (unsigned_cjmptype c) (ucomiFlags r) != (if neg_cjmptype c then isTrue else !isTrue)) =
      (relFloat c r == isTrue) := by
  cases r <;> simp at hr <;> cases c <;> cases isTrue <;> decide

theorem cmp_zero_flags {w : Nat} (x : BitVec w) : cmpFlags x (0#w) = testFlags x x := by
  simp only [cmpFlags, testFlags, BitVec.sub_zero, BitVec.and_self, BitVec.msb_zero]
  have : x.ult 0#w = false := by simp [BitVec.ult]
  rw [this]
  simp

theorem or_flags {w : Nat} (x : BitVec w) : ({ z := x ||| x == 0, c := false, s := (x ||| x).msb, o := false, p := parity (x ||| x) } : Flags)
    = testFlags x x := by
  simp [testFlags]

theorem test_cc {w : Nat} (x y : BitVec w) (isTrue : Bool) :
    (ccSem 'e' (testFlags x y) != isTrue) = ((x &&& y != 0) == isTrue) := by
  simp only [ccSem, testFlags]
  simp only [bne]
  cases h : (x &&& y == 0) <;> cases isTrue <;> simp only [or_true, if_true] <;> decide

theorem val_cc {w : Nat} (x : BitVec w) (isTrue : Bool) :
    (ccSem 'z' (cmpFlags x 0) != isTrue) = ((x != 0) == isTrue) := by
  simp only [ccSem, cmpFlags]
  simp only [bne]
  cases h : (x == 0) <;> cases isTrue <;> simp only [true_or, if_true] <;> decide

theorem flag_cc (op : FlagOp) (σ : Flags) (isTrue : Bool) :
    (ccSem (flaginstr op) σ != !isTrue) = (flagVal σ op == isTrue) := by
  rcases σ with ⟨z, c, s, o, p⟩
  cases op <;> revert z c s o p isTrue <;> decide

theorem cc_mem (c : Cmp) (signed : Bool) : (if signed then signed_cjmptype c else unsigned_cjmptype c) ∈ ccs := by
  cases c <;> cases signed <;> decide
theorem flag_mem (f : FlagOp) : flaginstr f ∈ ccs := by cases f <;> decide

/-- The constants that are accepted have their truth value. -/
theorem const_ok (v : BitVec 64) (h1 : v.toInt ≠ -2 ^ 32) (h2 : -2 ^ 32 ≤ v.toInt) (h3 : v.toInt < 2 ^ 32) :
    constOk v = true ∧ constTrue v = (v != 0) := by
  have hv := v.isLt
  have ht : v.toInt = if 2 * v.toNat < 2 ^ 64 then (v.toNat : Int) else v.toNat - 2 ^ 64 := by
    rw [BitVec.toInt_eq_toNat_cond]; split <;> simp
  have hn : v.toNat < 2 ^ 32 ∨ (2 ^ 64 - 2 ^ 32 < v.toNat) := by
    rw [ht] at h1 h2 h3; split at h1 <;> omega
  have hhi : ((v >>> 32).setWidth 32).toNat = v.toNat / 2 ^ 32 := by
    simp only [BitVec.toNat_setWidth, BitVec.toNat_ushiftRight, Nat.shiftRight_eq_div_pow]; omega
  have hlo : (v.setWidth 32).toNat = v.toNat % 2 ^ 32 := by simp only [BitVec.toNat_setWidth]
  constructor
  · unfold constOk
    simp only [Bool.or_eq_true, beq_iff_eq, ← BitVec.toNat_inj, hhi, BitVec.toNat_ofNat, Nat.reducePow, Nat.reduceMod]
    omega
  · unfold constTrue
    have e1 : (v.setWidth 32 = 0#32) ↔ (v = 0) := by
      rw [← BitVec.toNat_inj, ← BitVec.toNat_inj, hlo]
      simp only [BitVec.toNat_ofNat, Nat.reducePow, Nat.reduceMod, Nat.zero_mod]
      rw [show (0 : BitVec 64).toNat = 0 from rfl]; omega
    by_cases h : v = 0
    · simp [h]
    · have := (not_congr e1).2 h
      have h1 : (v.setWidth 32 == 0#32) = false := by simpa using this
      have h2 : (v == 0) = false := by simpa using h
      simp only [bne, h1, h2]

end Verif.Hll
