import Verif.Expr.Arith
import Verif.Expr.Props
/-! # Property theorems: constant arithmetic (C14) -/
namespace Verif.Expr
open Ex

/-- What must hold of the operands besides being 64-bit numbers. Without these the assembler deviates, see the findings below. -/
def Safe (cfg : Cfg) : BinOp → Int → Int → Prop
  | .nm .div, x, y => ¬ (x = -(2 ^ 63) ∧ y = -1)
  | .nm .shl, _, y => cfg.m510 = false ∧ -(2 ^ 31) ≤ y ∧ y < 2 ^ 31
  | .nm .shr, x, y => (-(2 ^ 31) ≤ y ∧ y < 2 ^ 31) ∧ (cfg.ulong64 = true ∨ cfg.use32 = false ∨ x % 2 ^ 32 ≠ 2 ^ 32 - 1)
  | _, _, _ => True

theorem chk_const (x : Int) : chk (const x) = .ok () := by simp [chk, const]

theorem truth_const (x : Int) (c : Bool) (p : Prop) [Decidable p] (h : c = decide p) : truth (const x) c = const (tf p) := by
  subst h
  by_cases hp : p <;> simp [truth, tf, const, hp]

/-- **C14** For all signed 64-bit operands (and shift counts in the 32-bit range) the result of a binary operator is the low
64 bits of the mathematical result, and it fails exactly when the documentation says so. Missing for the full property: operands
above 64 bits, shift counts outside of the 32-bit range, SHL with -Zm, and `-8000000000000000h / -1`, for which the claim is false. -/
theorem C14_binary_partial (cfg : Cfg) (op : BinOp) (x y : Int) (hx : Fits x) (hy : Fits y) (hs : Safe cfg op x y) :
    (constSem cfg).bin op (const x) (const y) = (binSpec op x y).map const := by
  simp only [constSem, chk_const]
  show (match op with | .add => _ | .sub => _ | .nm n => _) = _
  cases op with
  | add => simp [binSpec, plusOp, const, Except.map, BitVec.ofInt_add]
  | sub => simp [binSpec, minusOp, const, Except.map, Int.sub_eq_add_neg, BitVec.ofInt_add, BitVec.ofInt_neg, BitVec.sub_eq_add_neg]
  | nm n =>
    cases n with
    | mul => simp [binSpec, binConst, const, Except.map, BitVec.ofInt_mul]
    | div =>
      by_cases h0 : y = 0
      · simp [binSpec, binConst, const, Except.map, h0]
      · have h1 : ¬ (BitVec.ofInt 64 y = 0#64) := by rw [eq_zero_iff hy]; exact h0
        have h2 : ¬ (BitVec.ofInt 64 x = BitVec.intMin 64 ∧ BitVec.ofInt 64 y = -1#64) := by
          intro ⟨ha, hb⟩
          apply hs
          constructor
          · have := congrArg BitVec.toInt ha
            rw [toInt_const hx] at this
            rw [this]; decide
          · have := congrArg BitVec.toInt hb
            rw [toInt_const hy] at this
            rw [this]; decide
        simp only [binSpec, binConst, const, h0, h1, h2, if_false, Except.map]
        rw [sdiv_const hx hy hs]
    | mod =>
      by_cases h0 : y = 0
      · simp [binSpec, binConst, const, Except.map, h0]
      · have h1 : ¬ (BitVec.ofInt 64 y = 0#64) := by rw [eq_zero_iff hy]; exact h0
        simp only [binSpec, binConst, const, h0, h1, if_false, Except.map]
        rw [mod_const]
    | eq =>
      simp only [binSpec, binConst, Except.map]
      rw [truth_const x _ (x = y)]; exact beq_const hx hy
    | ne =>
      simp only [binSpec, binConst, Except.map]
      rw [truth_const x _ (x ≠ y)]; simp only [bne, const, beq_const hx hy]; simp
    | lt =>
      simp only [binSpec, binConst, Except.map]
      rw [truth_const x _ (x < y)]; simp only [const, BitVec.slt, toInt_const hx, toInt_const hy]
    | le =>
      simp only [binSpec, binConst, Except.map]
      rw [truth_const x _ (x ≤ y)]; simp only [const, BitVec.sle, toInt_const hx, toInt_const hy]
    | gt =>
      simp only [binSpec, binConst, Except.map]
      rw [truth_const x _ (x > y)]; simp only [const, BitVec.slt, toInt_const hx, toInt_const hy, gt_iff_lt]
    | ge =>
      simp only [binSpec, binConst, Except.map]
      rw [truth_const x _ (x ≥ y)]; simp only [const, BitVec.sle, toInt_const hx, toInt_const hy, ge_iff_le]
    | shl =>
      obtain ⟨hm, hr⟩ := hs
      simp only [binSpec, binConst, value_neg hr, hm, decide_eq_true_eq]
      by_cases h : y < 0
      · simp [h, Except.map]
      · simp only [h, if_false, Except.map]
        rw [value_toNat (by omega)]
        simp only [const, shl_const]
        simp
    | shr =>
      obtain ⟨hr, hw⟩ := hs
      simp only [binSpec, binConst, value_neg hr, decide_eq_true_eq]
      by_cases h : y < 0
      · simp [h, Except.map]
      · simp only [h, if_false, Except.map]
        rw [value_toNat (by omega)]
        by_cases h64 : y.toNat ≥ 64
        · simp [h64, shr_zero x _ h64, const]
        · have ev : ∀ n, const (uns x / 2 ^ n) = ⟨(const x).ll >>> n, (const x).hl⟩ := by intro n; simp only [const, shr_const]
          simp only [h64, if_false, ev]
          by_cases hc : ((const x).value = -1#32 ∧ cfg.use32 = true)
          · rw [if_pos hc]
            obtain ⟨c1, c2⟩ := hc
            rcases hw with hw | hw | hw
            · simp [hw]
            · simp [c2] at hw
            · exfalso; apply hw
              have := congrArg BitVec.toNat c1
              simp [const, Val.value, BitVec.toNat_ofInt] at this
              omega
          · rw [if_neg hc]
    | and => simp only [binSpec, binConst, Except.map, const]; rw [bit_const x y _ (· &&& ·) (fun a b => BitVec.toNat_and a b)]
    | or => simp only [binSpec, binConst, Except.map, const]; rw [bit_const x y _ (· ||| ·) (fun a b => BitVec.toNat_or a b)]
    | xor => simp only [binSpec, binConst, Except.map, const]; rw [bit_const x y _ (· ^^^ ·) (fun a b => BitVec.toNat_xor a b)]
    | ptr => rfl
    | colon => rfl

/-- **C14** Unary operators: for every signed 64-bit operand the result is the documented one. -/
theorem C14_unary (cfg : Cfg) (u : UnOp) (x : Int) (hx : Fits x) : (constSem cfg).un u (const x) = (unSpec u x).map const := by
  cases u with
  | pos => rfl
  | neg => simp [constSem, unSpec, negativeOp, const, Except.map, BitVec.ofInt_neg]
  | nm n =>
    simp only [constSem, chk_const]
    show unConst n (const x) = _
    cases n with
    | not =>
      simp only [unConst, unSpec, const, Except.map]
      congr 2
      apply BitVec.eq_of_toInt_eq
      rw [BitVec.toInt_not, toNat_const, BitVec.toInt_ofInt]
      unfold Fits at hx; unfold uns
      simp only [Int.bmod_def]
      split <;> split <;> omega
    | low =>
      simp only [unConst, unSpec, const, Except.map]
      congr 2
      apply BitVec.eq_of_toNat_eq
      rw [BitVec.toNat_and, show (255#64).toNat = 2 ^ 8 - 1 from rfl, Nat.and_two_pow_sub_one_eq_mod]
      simp [BitVec.toNat_ofInt]; omega
    | lowword =>
      simp only [unConst, unSpec, const, Except.map]
      congr 2
      apply BitVec.eq_of_toNat_eq
      rw [BitVec.toNat_and, show (65535#64).toNat = 2 ^ 16 - 1 from rfl, Nat.and_two_pow_sub_one_eq_mod]
      simp [BitVec.toNat_ofInt]; omega
    | low32 =>
      simp only [unConst, unSpec, const, Except.map]
      congr 2
      apply BitVec.eq_of_toNat_eq
      rw [BitVec.toNat_and, show (4294967295#64).toNat = 2 ^ 32 - 1 from rfl, Nat.and_two_pow_sub_one_eq_mod]
      simp [BitVec.toNat_ofInt]; omega
    | high32 =>
      simp only [unConst, unSpec, const, Except.map]
      congr 2
      apply BitVec.eq_of_toNat_eq
      rw [BitVec.toNat_ushiftRight, Nat.shiftRight_eq_div_pow]
      simp [BitVec.toNat_ofInt]; omega
    | high =>
      simp only [unConst, unSpec, const, Except.map, Val.value]
      congr 2
      have e : (BitVec.ofInt 64 x &&& 0xffffffff00000000#64 ||| BitVec.setWidth 64 ((BitVec.setWidth 32 (BitVec.ofInt 64 x)).sshiftRight 8)) &&& 0xff#64 =
          (BitVec.ofInt 64 x >>> 8) &&& 0xff#64 := by
        generalize BitVec.ofInt 64 x = b
        apply BitVec.eq_of_getLsbD_eq
        intro i hi
        by_cases h8 : i < 8
        · have : (0xffffffff00000000#64).getLsbD i = false := by
            have : ∀ j : Fin 8, (0xffffffff00000000#64).getLsbD j = false := by decide
            exact this ⟨i, h8⟩
          simp only [BitVec.getLsbD_and, BitVec.getLsbD_or, this, BitVec.getLsbD_setWidth, BitVec.getLsbD_sshiftRight, BitVec.getLsbD_ushiftRight]
          have h1 : ¬ (32 ≤ i) := by omega
          have h2 : 8 + i < 32 := by omega
          simp [h1, h2, hi]
        · have : (0xff#64).getLsbD i = false := by
            have : ∀ j : Fin 64, 8 ≤ j.val → (0xff#64).getLsbD j = false := by decide
            exact this ⟨i, hi⟩ (by simp; omega)
          simp only [BitVec.getLsbD_and, this, Bool.and_false]
      rw [e]
      apply BitVec.eq_of_toNat_eq
      rw [BitVec.toNat_and, show (255#64).toNat = 2 ^ 8 - 1 from rfl, Nat.and_two_pow_sub_one_eq_mod, BitVec.toNat_ushiftRight, Nat.shiftRight_eq_div_pow]
      simp [BitVec.toNat_ofInt]; omega
    | highword =>
      simp only [unConst, unSpec, const, Except.map, Val.value]
      congr 2
      have e : BitVec.signExtend 64 ((BitVec.setWidth 32 (BitVec.ofInt 64 x)).sshiftRight 16 &&& 0xffff#32) =
          (BitVec.ofInt 64 x >>> 16) &&& 0xffff#64 := by
        generalize BitVec.ofInt 64 x = b
        apply BitVec.eq_of_getLsbD_eq
        intro i hi
        have m1 : (0xffff#32).getLsbD 31 = false := by decide
        by_cases h8 : i < 16
        · simp only [BitVec.getLsbD_signExtend, BitVec.getLsbD_and, BitVec.getLsbD_setWidth, BitVec.getLsbD_sshiftRight, BitVec.getLsbD_ushiftRight]
          have h1 : ¬ (32 ≤ i) := by omega
          have h2 : 16 + i < 32 := by omega
          have h3 : i < 32 := by omega
          have m2 : (0xffff#32).getLsbD i = true := by
            have : ∀ j : Fin 16, (0xffff#32).getLsbD j = true := by decide
            exact this ⟨i, h8⟩
          have m3 : (0xffff#64).getLsbD i = true := by
            have : ∀ j : Fin 16, (0xffff#64).getLsbD j = true := by decide
            exact this ⟨i, h8⟩
          rw [m2, m3]; simp [h1, h2, h3, hi]
        · have m3 : (0xffff#64).getLsbD i = false := by
            have : ∀ j : Fin 64, 16 ≤ j.val → (0xffff#64).getLsbD j = false := by decide
            exact this ⟨i, hi⟩ (by simp; omega)
          simp only [BitVec.getLsbD_signExtend, BitVec.getLsbD_and, m3, Bool.and_false]
          have m0 : (BitVec.sshiftRight (BitVec.setWidth 32 b) 16 &&& 0xffff#32).msb = false := by
            rw [BitVec.msb_eq_getLsbD_last, BitVec.getLsbD_and]; simp [m1]
          simp only [m0, ite_self]
          by_cases h32 : i < 32
          · have m2 : (0xffff#32).getLsbD i = false := by
              have : ∀ j : Fin 32, 16 ≤ j.val → (0xffff#32).getLsbD j = false := by decide
              exact this ⟨i, h32⟩ (by simp; omega)
            rw [m2]; simp [h32]
          · simp [h32]
      rw [e]
      apply BitVec.eq_of_toNat_eq
      rw [BitVec.toNat_and, show (65535#64).toNat = 2 ^ 16 - 1 from rfl, Nat.and_two_pow_sub_one_eq_mod, BitVec.toNat_ushiftRight, Nat.shiftRight_eq_div_pow]
      simp [BitVec.toNat_ofInt]; omega
    | _ => rfl

/-- **C14** `a ( b )` and `a [ b ]` add, brackets alone change nothing. -/
theorem C14_brackets (cfg : Cfg) (sq : Bool) (x y : Int) :
    (constSem cfg).juxt sq (const x) (const y) = .ok (const (x + y)) ∧ (constSem cfg).bracket sq (const x) = .ok (const x) := by
  simp only [constSem, chk_const]
  refine ⟨?_, rfl⟩
  show Except.ok _ = _
  simp [plusOp, const, BitVec.ofInt_add]

/-- Two's complement reading of the low 64 bits. -/
def wrap (x : Int) : Int := (x + 2 ^ 63) % 2 ^ 64 - 2 ^ 63

theorem wrap_fits (x : Int) : Fits (wrap x) := by unfold wrap Fits; omega

theorem const_wrap (x : Int) : const (wrap x) = const x := by
  simp only [const]; congr 1
  apply BitVec.eq_of_toNat_eq
  simp [BitVec.toNat_ofInt, wrap]

/-- Arithmetic of the documentation: mathematical result, reduced to 64 bits. -/
def intSem : Sem Int CErr where
  bracket _ x := .ok x
  juxt _ x y := .ok (wrap (x + y))
  un u x := (unSpec u x).map wrap
  bin o x y := (binSpec o x y).map wrap

/-- The tree with its literals replaced by what the assembler stores for them. -/
def lit : Ex Int → Ex Val
  | .opnd x => .opnd (const x)
  | .brk sq e => .brk sq (lit e)
  | .un u e => .un u (lit e)
  | .bin b l r => .bin b (lit l) (lit r)
  | .juxt sq l e => .juxt sq (lit l) (lit e)

/-- All literals are 64-bit numbers, and no operator is applied to operands for which `Safe` is violated. -/
def AllSafe (cfg : Cfg) : Ex Int → Prop
  | .opnd x => Fits x
  | .brk _ e => AllSafe cfg e
  | .un _ e => AllSafe cfg e
  | .bin b l r => AllSafe cfg l ∧ AllSafe cfg r ∧ ∀ x y, l.eval intSem = .ok x → r.eval intSem = .ok y → Safe cfg b x y
  | .juxt _ l e => AllSafe cfg l ∧ AllSafe cfg e

theorem map_map_wrap (r : Except CErr Int) : (r.map wrap).map const = r.map const := by
  cases r <;> simp [Except.map, const_wrap]

theorem lit_eval (cfg : Cfg) (e : Ex Int) (h : AllSafe cfg e) :
    (lit e).eval (constSem cfg) = (e.eval intSem).map const ∧ ∀ x, e.eval intSem = .ok x → Fits x := by
  induction e with
  | opnd x => exact ⟨rfl, by intro y hy; cases hy; exact h⟩
  | brk sq e ih =>
    obtain ⟨h1, h2⟩ := ih h
    simp only [lit, Ex.eval, h1]
    cases he : e.eval intSem with
    | error r => exact ⟨rfl, by intro x hx; cases hx⟩
    | ok x => exact ⟨(C14_brackets cfg sq x 0).2, by intro y hy; cases hy; exact h2 _ he⟩
  | un u e ih =>
    obtain ⟨h1, h2⟩ := ih h
    simp only [lit, Ex.eval, h1]
    cases he : e.eval intSem with
    | error r => exact ⟨rfl, by intro x hx; cases hx⟩
    | ok x =>
      constructor
      · show (constSem cfg).un u (const x) = ((unSpec u x).map wrap).map const
        rw [C14_unary cfg u x (h2 _ he), map_map_wrap]
      · intro y hy
        change (unSpec u x).map wrap = _ at hy
        cases hu : unSpec u x with
        | error r => rw [hu] at hy; cases hy
        | ok z => rw [hu] at hy; cases hy; exact wrap_fits z
  | bin b l r ihl ihr =>
    obtain ⟨hl, hr, hs⟩ := h
    obtain ⟨l1, l2⟩ := ihl hl
    obtain ⟨r1, r2⟩ := ihr hr
    simp only [lit, Ex.eval, l1, r1]
    cases hel : l.eval intSem with
    | error r => exact ⟨rfl, by intro x hx; cases hx⟩
    | ok x =>
      cases her : r.eval intSem with
      | error r => exact ⟨rfl, by intro x hx; cases hx⟩
      | ok y =>
        constructor
        · show (constSem cfg).bin b (const x) (const y) = ((binSpec b x y).map wrap).map const
          rw [C14_binary_partial cfg b x y (l2 _ hel) (r2 _ her) (hs x y hel her), map_map_wrap]
        · intro z hz
          change (binSpec b x y).map wrap = _ at hz
          cases hb : binSpec b x y with
          | error r => rw [hb] at hz; cases hz
          | ok w => rw [hb] at hz; cases hz; exact wrap_fits w
  | juxt sq l e ihl ihr =>
    obtain ⟨hl, hr⟩ := h
    obtain ⟨l1, l2⟩ := ihl hl
    obtain ⟨r1, r2⟩ := ihr hr
    simp only [lit, Ex.eval, l1, r1]
    cases hel : l.eval intSem with
    | error r => exact ⟨rfl, by intro x hx; cases hx⟩
    | ok x =>
      cases her : e.eval intSem with
      | error r => exact ⟨rfl, by intro x hx; cases hx⟩
      | ok y =>
        constructor
        · show (constSem cfg).juxt sq (const x) (const y) = .ok (const (wrap (x + y)))
          rw [(C14_brackets cfg sq x y).1, const_wrap]
        · intro z hz; cases hz; exact wrap_fits _

theorem lit_wf (e : Ex Int) : (lit e).right = e.right ∧ (lit e).root = e.root ∧ ((lit e).WF ↔ e.WF) := by
  induction e with
  | opnd x => exact ⟨rfl, rfl, Iff.rfl⟩
  | brk sq e ih => exact ⟨rfl, rfl, ih.2.2⟩
  | un u e ih => 
    refine ⟨by simp only [lit, Ex.right, ih.1], rfl, ?_⟩
    simp only [lit, Ex.WF, ih.2.1, ih.2.2]
  | bin b l r ihl ihr => 
    refine ⟨by simp only [lit, Ex.right, ihr.1], rfl, ?_⟩
    simp only [lit, Ex.WF, ihl.1, ihl.2.2, ihr.2.1, ihr.2.2]
  | juxt sq l r ihl ihr => simp [lit, Ex.right, Ex.root, Ex.WF, ihl.1, ihl.2.2, ihr.2.2]

/-- **C14** The text of any expression over 64-bit literals is evaluated to the value of 64-bit integer arithmetic, or rejected
with the documented error. Missing: see `C14_binary_partial`. -/
theorem C14_expression_partial (cfg : Cfg) (e : Ex Int) (hw : e.WF) (hs : AllSafe cfg e) :
    (∀ x, e.eval intSem = .ok x →
      (evaluate false (constSem cfg) false none (lit e).toks).run = some (.ok (some (const x), []))) ∧
    (∀ err, e.eval intSem = .error err →
      (evaluate false (constSem cfg) false none (lit e).toks).run = some (.error (.calcErr err))) := by
  have hw' : (lit e).WF := (lit_wf e).2.2.2 hw
  have he := (lit_eval cfg e hs).1
  constructor
  · intro x hx
    refine ((C13_precedence (constSem cfg) _).2 (const x) []).2 ⟨lit e, hw', ?_, by simp, trivial⟩
    rw [he, hx]; rfl
  · intro err hx
    have := C13_errors (constSem cfg) (lit e) [] err hw' trivial (by rw [he, hx]; rfl)
    simpa using this

/-- Not vacuous: `7 - 20 / 3 SHL 2` = 7 - ((20/3) SHL 2) = -17. -/
example : (evaluate false (constSem cfg0) false none
    (lit (.bin .sub (.opnd 7) (.bin (.nm .shl) (.bin (.nm .div) (.opnd 20) (.opnd 3)) (.opnd 2)))).toks).run =
      some (.ok (some (const (-17)), [])) := by
  refine (C14_expression_partial cfg0 _ (by simp [Ex.WF, Ex.right, Ex.root, binLevel]) ?_).1 _ rfl
  refine ⟨by simp [AllSafe, Fits], ⟨⟨by simp [AllSafe, Fits], by simp [AllSafe, Fits], ?_⟩, by simp [AllSafe, Fits], ?_⟩, ?_⟩
  · intro x y hx hy; cases hx; cases hy; simp [Safe]
  · intro x y hx hy; cases hy; simp [Safe, cfg0]
  · intro x y _ _; trivial

theorem cbin (cfg : Cfg) (n : BName) (v : Val) (y : Int) : (constSem cfg).bin (.nm n) v (const y) = binConst cfg n v (const y) := by
  simp only [constSem, chk_const]; rfl

/-- **C14** (finding) `-8000000000000000h / -1` kills the assembler. -/
theorem C14_division_crash (cfg : Cfg) : (constSem cfg).bin (.nm .div) (const (-(2 ^ 63))) (const (-1)) = .error .sigfpe := by
  rw [cbin]
  rw [binConst, if_neg (by decide), if_pos (by decide)]

/-- **C14** (finding) The shift count is cut to 32 bits: `x SHL 100000000h` is `x`, `x SHR 80000000h` is rejected as negative. -/
theorem C14_shift_count_truncated (x : Int) (cfg : Cfg) (hm : cfg.m510 = false) :
    (constSem cfg).bin (.nm .shl) (const x) (const (2 ^ 32)) = .ok (const x) ∧
    (constSem cfg).bin (.nm .shr) (const x) (const (2 ^ 31)) = .error .countNegative := by
  simp only [cbin]
  constructor
  · simp [binConst, const, Val.value, hm]
  · simp [binConst, const, Val.value]

/-- **C14** (finding) The check for oversized numbers looks at the right operand only: `10000000000000000h EQ 0` is true. -/
theorem C14_large_left_operand (cfg : Cfg) : ∃ v, (constSem cfg).bin (.nm .eq) ⟨0#64, 1#64⟩ (const 0) = .ok v ∧ v.ll = -1#64 := by
  refine ⟨⟨-1#64, 1#64⟩, ?_, rfl⟩
  rw [cbin]
  rfl

/-- 128-bit value of a constant. -/
def Val.toNat128 (v : Val) : Nat := v.ll.toNat + 2 ^ 64 * v.hl.toNat

/-- **C14** Negation of a constant above 64 bits is the 128-bit two's complement, unless the low half is 0. -/
theorem C14_negate_128_partial (cfg : Cfg) (v : Val) (hh : v.hl ≠ 0#64) (hl : v.ll ≠ 0#64) :
    ∃ w, (constSem cfg).un .neg v = .ok w ∧ w.toNat128 = 2 ^ 128 - v.toNat128 := by
  refine ⟨_, rfl, ?_⟩
  have h1 : v.ll.toNat ≠ 0 := fun h => hl (BitVec.eq_of_toNat_eq (by simpa using h))
  have h2 : v.hl.toNat ≠ 0 := fun h => hh (BitVec.eq_of_toNat_eq (by simpa using h))
  have := v.ll.isLt
  have := v.hl.isLt
  simp [negativeOp, Val.toNat128, hh, BitVec.toNat_sub, BitVec.toNat_neg]
  omega

/-- **C14** (finding) `- 10000000000000000h` is -2 * 2^64 instead of -2^64. -/
theorem C14_negate_128_wrong (cfg : Cfg) : (constSem cfg).un .neg ⟨0#64, 1#64⟩ = .ok ⟨0#64, -2#64⟩ := by
  simp [constSem, negativeOp]

/-- **C14** (finding) `-1 SHR 32` depends on the host compiler's `unsigned long`. -/
theorem C14_shr_host_dependent : (constSem ⟨false, true, true⟩).bin (.nm .shr) (const (-1)) (const 32) = .ok (const (2 ^ 32 - 1)) ∧
    (constSem ⟨false, true, false⟩).bin (.nm .shr) (const (-1)) (const 32) = .ok (const 0) := by
  simp only [cbin]
  constructor
  · rfl
  · rfl

end Verif.Expr
