import Verif.Real10.Words
/-! # Multiplication of extended numbers -/
namespace Verif.Real10

theorem val32_lt {r : W3} (h : r.Ok 32) : r.val 32 < 2 ^ 96 := by
  have := h.a; have := h.b; have := h.c
  unfold W3.val; omega

/-- The product in six words. -/
theorem product_spec {x y : W3} (hx : x.Ok 32) (hy : y.Ok 32) :
    let r := words6 ⟨x.a * y.a, x.b * y.b, x.c * y.c⟩
    let r := add192 r (x.b * y.a) 1
    let r := add192 r (x.a * y.b) 1
    let r := add192 r (x.a * y.c) 2
    let r := add192 r (x.c * y.a) 2
    let r := add192 r (x.b * y.c) 3
    let r := add192 r (x.c * y.b) 3
    LOk r ∧ r.length = 6 ∧ lval r = x.val 32 * y.val 32 := by
  simp only []
  have hP : x.val 32 * y.val 32 < 2 ^ 192 :=
    calc x.val 32 * y.val 32 < 2 ^ 96 * 2 ^ 96 := Nat.mul_lt_mul'' (val32_lt hx) (val32_lt hy)
      _ = 2 ^ 192 := by rw [← Nat.pow_add]
  have hE : x.val 32 * y.val 32 = x.a * y.a + x.b * y.b * 2 ^ 64 + x.c * y.c * 2 ^ (2 * 64) + x.b * y.a * 2 ^ (32 * 1) +
      x.a * y.b * 2 ^ (32 * 1) + x.a * y.c * 2 ^ (32 * 2) + x.c * y.a * 2 ^ (32 * 2) + x.b * y.c * 2 ^ (32 * 3) +
      x.c * y.b * 2 ^ (32 * 3) := by
    unfold W3.val; ring
  have m64 : ∀ a b : Nat, a < 2 ^ 32 → b < 2 ^ 32 → a * b < 2 ^ 64 := by
    intro a b ha hb
    calc a * b < 2 ^ 32 * 2 ^ 32 := Nat.mul_lt_mul'' ha hb
      _ = 2 ^ 64 := by rw [← Nat.pow_add]
  rw [hE] at hP ⊢
  obtain ⟨a0, b0, c0⟩ := words6_spec (r := ⟨x.a * y.a, x.b * y.b, x.c * y.c⟩)
    ⟨m64 _ _ hx.a hy.a, m64 _ _ hx.b hy.b, m64 _ _ hx.c hy.c⟩
  simp only [W3.val] at c0
  generalize x.a * y.a = p0 at *
  generalize x.b * y.b = p1 at *
  generalize x.c * y.c = p2 at *
  generalize x.b * y.a = p3 at *
  generalize x.a * y.b = p4 at *
  generalize x.a * y.c = p5 at *
  generalize x.c * y.a = p6 at *
  generalize x.b * y.c = p7 at *
  generalize x.c * y.b = p8 at *
  obtain ⟨a1, b1, c1⟩ := add192_spec a0 b0 p3 1 (by decide) (by rw [c0]; omega)
  obtain ⟨a2, b2, c2⟩ := add192_spec a1 b1 p4 1 (by decide) (by rw [c1, c0]; omega)
  obtain ⟨a3, b3, c3⟩ := add192_spec a2 b2 p5 2 (by decide) (by rw [c2, c1, c0]; omega)
  obtain ⟨a4, b4, c4⟩ := add192_spec a3 b3 p6 2 (by decide) (by rw [c3, c2, c1, c0]; omega)
  obtain ⟨a5, b5, c5⟩ := add192_spec a4 b4 p7 3 (by decide) (by rw [c4, c3, c2, c1, c0]; omega)
  obtain ⟨a6, b6, c6⟩ := add192_spec a5 b5 p8 3 (by decide) (by rw [c5, c4, c3, c2, c1, c0]; omega)
  refine ⟨a6, b6, ?_⟩
  rw [c6, c5, c4, c3, c2, c1, c0]

/-- Rounding of a normalised product: the upper three words, half a unit rounded up. -/
theorem round_spec {r : List Nat} (hr : LOk r) (h6 : r.length = 6) (hn : 2 ^ 191 ≤ lval r) (exp : Int) (p : List Nat × Int)
    (hp : roundUp r exp = p) (m : W3) (hm : m = ⟨p.1.getD 3 0, p.1.getD 4 0, p.1.getD 5 0⟩) :
    m.Ok 32 ∧ 2 ^ 95 ≤ m.val 32 ∧ ∃ Q k : Nat, p.2 = exp + k ∧ m.val 32 * 2 ^ k = Q ∧
      Q * 2 ^ 96 ≤ lval r + 2 ^ 95 ∧ lval r < Q * 2 ^ 96 + 2 ^ 95 := by
  have hlt : lval r < 2 ^ 192 := by
    have := lval_lt hr
    rw [h6] at this
    exact this
  obtain ⟨a, b, c, d, e, f, rfl⟩ : ∃ a b c d e f, r = [a, b, c, d, e, f] := by
    match r, h6 with
    | [a, b, c, d, e, f], _ => exact ⟨a, b, c, d, e, f, rfl⟩
  have ha := hr a (by simp)
  have hb := hr b (by simp)
  have hc := hr c (by simp)
  have hd := hr d (by simp)
  have he := hr e (by simp)
  have hf := hr f (by simp)
  have hl : lval [a, b, c, d, e, f] = a + 2 ^ 32 * b + 2 ^ 64 * c + 2 ^ 96 * d + 2 ^ 128 * e + 2 ^ 160 * f := by
    simp only [lval]; ring
  unfold roundUp at hp
  simp only [List.getD_cons_zero, List.getD_cons_succ] at hp
  split at hp
  · rename_i h2
    split at hp
    · rename_i h3
      subst hp
      simp only [List.getD_cons_zero, List.getD_cons_succ] at hm
      subst hm
      refine ⟨⟨by norm_num, by norm_num, by norm_num⟩, by norm_num [W3.val], 2 ^ 96, 1, by norm_num, by norm_num [W3.val], ?_, ?_⟩
      · rw [hl, h3.1, h3.2.1, h3.2.2]; omega
      · omega
    · rename_i h3
      obtain ⟨a1, b1, c1⟩ := add192_spec hr rfl 1 3 (by decide) (by rw [hl]; omega)
      generalize add192 [a, b, c, d, e, f] 1 3 = r' at *
      obtain ⟨a', b', c', d', e', f', rfl⟩ : ∃ a b c d e f, r' = [a, b, c, d, e, f] := by
        match r', b1 with
        | [a, b, c, d, e, f], _ => exact ⟨a, b, c, d, e, f, rfl⟩
      subst hp
      simp only [List.getD_cons_zero, List.getD_cons_succ] at hm
      subst hm
      have ga := a1 a' (by simp)
      have gb := a1 b' (by simp)
      have gc := a1 c' (by simp)
      have gd := a1 d' (by simp)
      have ge := a1 e' (by simp)
      have gf := a1 f' (by simp)
      rw [hl] at c1
      simp only [lval] at c1
      rw [hl] at hn ⊢
      refine ⟨⟨gd, ge, gf⟩, by unfold W3.val; simp only []; omega, d' + e' * 2 ^ 32 + f' * 2 ^ 64, 0, by simp, by simp [W3.val], ?_, ?_⟩
      · omega
      · omega
  · rename_i h2
    subst hp
    simp only [List.getD_cons_zero, List.getD_cons_succ] at hm
    subst hm
    rw [hl] at hn ⊢
    refine ⟨⟨hd, he, hf⟩, by unfold W3.val; simp only []; omega, d + e * 2 ^ 32 + f * 2 ^ 64, 0, by simp, by simp [W3.val], ?_, ?_⟩
    · omega
    · omega

/-- The value of an extended number with the exponent `e`. -/
def ev (m : Nat) (e : Int) : ℚ := m * (2 : ℚ) ^ (e - 16383 - 95)

def ELD.val (x : ELD) : ℚ := ev (x.m.val 32) x.e

structure ELD.Ok (x : ELD) : Prop where
  m : x.m.Ok 32
  norm : 2 ^ 95 ≤ x.m.val 32
  e : x.e < 2 ^ 15 - 1

theorem ELD.Ok.pos {x : ELD} (h : x.Ok) : 0 < x.val := by
  unfold ELD.val ev
  have : (0:ℚ) < (x.m.val 32 : ℚ) := by
    have := h.norm
    exact_mod_cast (by omega : 0 < x.m.val 32)
  positivity

theorem exact_quot {L N i : Nat} (hN : N < 2 ^ 96) (hL : 2 ^ 191 ≤ L) (h : L = N * 2 ^ i) : ∃ M, L = M * 2 ^ 96 := by
  have hi : 95 < i := by
    refine Nat.lt_of_not_le fun hc => ?_
    have h4 : L ≤ N * 2 ^ 95 := by
      rw [h]
      exact Nat.mul_le_mul_left _ (Nat.pow_le_pow_right (by decide) hc)
    omega
  refine ⟨N * 2 ^ (i - 96), ?_⟩
  rw [h, Nat.mul_assoc, ← Nat.pow_add]
  congr 2; omega

theorem quot_unique {Q M : Nat} (h1 : Q * 2 ^ 96 ≤ M * 2 ^ 96 + 2 ^ 95) (h2 : M * 2 ^ 96 < Q * 2 ^ 96 + 2 ^ 95) : Q = M := by
  omega

theorem quot_err {Q L : Nat} (h1 : Q * 2 ^ 96 ≤ L + 2 ^ 95) (h2 : L < Q * 2 ^ 96 + 2 ^ 95) (h3 : 2 ^ 191 ≤ L) :
    |(Q : ℚ) * 2 ^ 96 - (L : ℚ)| ≤ (L : ℚ) / 2 ^ 96 := by
  have q1 : (Q : ℚ) * 2 ^ 96 ≤ (L : ℚ) + 2 ^ 95 := by exact_mod_cast h1
  have q2 : (L : ℚ) ≤ (Q : ℚ) * 2 ^ 96 + 2 ^ 95 := by exact_mod_cast Nat.le_of_lt h2
  have q3 : (2:ℚ) ^ 191 ≤ (L : ℚ) := by exact_mod_cast h3
  have q5 : (2:ℚ) ^ 95 ≤ (L : ℚ) / 2 ^ 96 := by
    rw [le_div_iff₀ (by positivity)]
    calc (2:ℚ) ^ 95 * 2 ^ 96 = 2 ^ 191 := by rw [← pow_add]
      _ ≤ _ := q3
  rw [abs_le]
  constructor <;> linarith

/-- A mantissa and an exponent in units of the last place of the product. -/
theorem ev_unit (M k Q : Nat) (h : M * 2 ^ k = Q) (a b n : Int) :
    ev M (a + b - 0x3FFF + 1 + (n - 192) + (k : Nat)) = (Q : ℚ) * 2 ^ 96 * (2:ℚ) ^ (a + b - 2 * 16383 - 190 + (n - 192)) := by
  unfold ev
  have e : a + b - 0x3FFF + 1 + (n - 192) + (k : Nat) - 16383 - 95 =
      (k : Int) + ((96 : Nat) : Int) + (a + b - 2 * 16383 - 190 + (n - 192)) := by
    push_cast; ring
  rw [e, zpow_add₀ (by norm_num), zpow_add₀ (by norm_num), zpow_natCast, zpow_natCast, ← h]
  generalize (2:ℚ) ^ (a + b - 2 * 16383 - 190 + (n - 192)) = u
  push_cast
  generalize (2:ℚ) ^ 96 = v
  ring

theorem prod_unit (X Y L n : Nat) (hn : n ≤ 192) (h : L = X * Y * 2 ^ (192 - n)) (a b : Int) :
    ev X a * ev Y b = (L : ℚ) * (2:ℚ) ^ (a + b - 2 * 16383 - 190 + ((n : Int) - 192)) := by
  unfold ev
  have e1 : (2:ℚ) ^ (a - 16383 - 95) * (2:ℚ) ^ (b - 16383 - 95) =
      (2:ℚ) ^ (192 - n) * (2:ℚ) ^ (a + b - 2 * 16383 - 190 + ((n : Int) - 192)) := by
    rw [← zpow_natCast, ← zpow_add₀ (by norm_num), ← zpow_add₀ (by norm_num)]
    congr 1
    omega
  have e2 : (L : ℚ) = X * Y * (2:ℚ) ^ (192 - n) := by rw [h]; push_cast; ring
  rw [e2]
  calc _ = ((X : ℚ) * (Y : ℚ)) * ((2:ℚ) ^ (a - 16383 - 95) * (2:ℚ) ^ (b - 16383 - 95)) := by ring
    _ = _ := by rw [e1]; ring

theorem normalize_spec {x : W3} (hx : x.Ok 64) (h0 : x.val 64 ≠ 0) :
    ∃ (n : Nat) (v : W3), normalize x = (v, (n : Int) - 192) ∧ n ≤ 192 ∧ 2 ^ (n - 1) ≤ x.val 64 ∧ x.val 64 < 2 ^ n ∧
      v.Ok 64 ∧ v.val 64 = x.val 64 * 2 ^ (192 - n) := by
  obtain ⟨n, n1, n2, n3, n4, n5, n6, n7⟩ := norm3_spec (w := 64) (by decide) hx h0
  unfold normalize
  generalize norm3 64 x = q at *
  obtain ⟨v, k⟩ := q
  simp only [] at n1 n6 n7 ⊢
  subst n1
  exact ⟨k, v, by rw [if_neg (by omega)], n3, n4, n5, n6, n7⟩

/-- Relative error of one rounding. -/
theorem multiply_val {x y : ELD} (hx : x.Ok) (hy : y.Ok) :
    ∃ E : Int, (multiply x y).e = (E % 2 ^ 16).toNat ∧ (multiply x y).m.Ok 32 ∧ 2 ^ 95 ≤ (multiply x y).m.val 32 ∧
      |ev ((multiply x y).m.val 32) E - x.val * y.val| ≤ x.val * y.val / 2 ^ 96 ∧
      (∀ N j : Nat, N < 2 ^ 96 → x.m.val 32 * y.m.val 32 = N * 2 ^ j → ev ((multiply x y).m.val 32) E = x.val * y.val) := by
  obtain ⟨h1, h2, h3⟩ := product_spec hx.m hy.m
  have hP1 : 2 ^ 190 ≤ x.m.val 32 * y.m.val 32 :=
    calc (2:Nat) ^ 190 = 2 ^ 95 * 2 ^ 95 := by rw [← Nat.pow_add]
      _ ≤ _ := Nat.mul_le_mul hx.norm hy.norm
  unfold multiply
  simp only []
  generalize add192 (add192 (add192 (add192 (add192 (add192 (words6 { a := x.m.a * y.m.a, b := x.m.b * y.m.b, c := x.m.c * y.m.c })
    (x.m.b * y.m.a) 1) (x.m.a * y.m.b) 1) (x.m.a * y.m.c) 2) (x.m.c * y.m.a) 2) (x.m.b * y.m.c) 3) (x.m.c * y.m.b) 3 = r at *
  have ex : x.e % 2 ^ 15 = x.e := Nat.mod_eq_of_lt (by have := hx.e; omega)
  have ey : y.e % 2 ^ 15 = y.e := Nat.mod_eq_of_lt (by have := hy.e; omega)
  rw [ex, ey]
  obtain ⟨w1, w2⟩ := words3_spec h1 h2
  rw [h3] at w2
  obtain ⟨n, v, hnorm, n3, n4, n5, n6, n7⟩ := normalize_spec w1 (by rw [w2]; omega)
  rw [w2] at n4 n5 n7
  have hn : n = 191 ∨ n = 192 := by
    have : 190 < n := (Nat.pow_lt_pow_iff_right (a := 2) (by decide)).1 (Nat.lt_of_le_of_lt hP1 n5)
    omega
  rw [hnorm]
  simp only []
  obtain ⟨u1, u2, u3⟩ := words6_spec n6
  rw [n7] at u3
  generalize words6 v = r6 at *
  have u4 : lval r6 = x.m.val 32 * y.m.val 32 * 2 ^ (192 - n) := u3
  have hP' : 2 ^ 191 ≤ lval r6 := by
    rw [u4]
    calc (2:Nat) ^ 191 = 2 ^ (n - 1) * 2 ^ (192 - n) := by rw [← Nat.pow_add]; congr 1; omega
      _ ≤ _ := Nat.mul_le_mul_right _ n4
  clear h1 h2 h3 w1 w2 n4 n5 n6 n7 hnorm u3 hP1
  generalize hp : roundUp r6 ((x.e : Int) + (y.e : Int) - 0x3FFF + 1 + ((n:Int) - 192)) = p
  obtain ⟨v1, v2, Q, k, v3, v4, v5, v6⟩ := round_spec u1 u2 hP' _ p hp _ rfl
  refine ⟨_, rfl, v1, v2, ?_⟩
  rw [v3, ev_unit _ _ _ v4]
  have hxy := prod_unit _ _ _ n (by omega) u4 x.e y.e
  rw [show x.val * y.val = _ from hxy]
  have hpos : (0:ℚ) < (2:ℚ) ^ ((x.e : Int) + y.e - 2 * 16383 - 190 + ((n : Int) - 192)) := by positivity
  generalize (2:ℚ) ^ ((x.e : Int) + y.e - 2 * 16383 - 190 + ((n : Int) - 192)) = u at hpos ⊢
  refine ⟨?_, ?_⟩
  · have q4 := quot_err v5 v6 hP'
    rw [← sub_mul, abs_mul, abs_of_pos hpos]
    calc |(Q : ℚ) * 2 ^ 96 - (lval r6 : ℚ)| * u ≤ (lval r6 : ℚ) / 2 ^ 96 * u := mul_le_mul_of_nonneg_right q4 hpos.le
      _ = _ := by ring
  · intro N j hN hNj
    rw [hNj, Nat.mul_assoc, ← Nat.pow_add] at u4
    obtain ⟨M, hM⟩ := exact_quot hN hP' u4
    rw [hM] at v5 v6 ⊢
    rw [quot_unique v5 v6]
    push_cast
    ring

end Verif.Real10
