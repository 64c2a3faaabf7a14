import Verif.Real10.Model
/-! # The words: shifting and adding -/
namespace Verif.Real10

/-- The number the words stand for. -/
def W3.val (w : Nat) (r : W3) : Nat := r.a + r.b * 2 ^ w + r.c * 2 ^ (2 * w)

structure W3.Ok (w : Nat) (r : W3) : Prop where
  a : r.a < 2 ^ w
  b : r.b < 2 ^ w
  c : r.c < 2 ^ w

theorem bitsizeLoop_spec {w : Nat} : ∀ (i y : Nat), i ≤ w → y < 2 ^ i →
    (y = 0 ∧ bitsizeLoop w i (y * 2 ^ (w - i)) = 0) ∨
    (0 < bitsizeLoop w i (y * 2 ^ (w - i)) ∧ bitsizeLoop w i (y * 2 ^ (w - i)) ≤ i ∧
      2 ^ (bitsizeLoop w i (y * 2 ^ (w - i)) - 1) ≤ y ∧ y < 2 ^ (bitsizeLoop w i (y * 2 ^ (w - i))))
  | 0, y, _, hy => by
    left
    exact ⟨by simpa using hy, rfl⟩
  | i + 1, y, hi, hy => by
    have hd : y * 2 ^ (w - (i + 1)) / 2 ^ (w - 1) = y / 2 ^ i := by
      rw [show w - 1 = i + (w - (i + 1)) by omega, Nat.pow_add, Nat.mul_div_mul_right _ _ (Nat.two_pow_pos _)]
    unfold bitsizeLoop
    rw [hd]
    by_cases h : y < 2 ^ i
    · rw [Nat.div_eq_of_lt h]
      simp only [Nat.zero_mod, zero_ne_one, ↓reduceIte]
      have hm : y * 2 ^ (w - (i + 1)) * 2 % 2 ^ w = y * 2 ^ (w - i) := by
        rw [Nat.mul_assoc, ← Nat.pow_succ, show (w - (i + 1)).succ = w - i by omega]
        apply Nat.mod_eq_of_lt
        calc y * 2 ^ (w - i) < 2 ^ i * 2 ^ (w - i) := Nat.mul_lt_mul_of_pos_right h (Nat.two_pow_pos _)
          _ = 2 ^ w := by rw [← Nat.pow_add]; congr 1; omega
      rw [hm]
      rcases bitsizeLoop_spec (w := w) i y (by omega) h with h1 | ⟨h1, h2, h3, h4⟩
      · exact .inl h1
      · exact .inr ⟨h1, Nat.le_succ_of_le h2, h3, h4⟩
    · have h1 : y / 2 ^ i = 1 := by
        rw [Nat.div_eq_iff (Nat.two_pow_pos _)]
        rw [Nat.pow_succ] at hy
        constructor <;> omega
      rw [h1]
      simp only [Nat.mod_eq_of_lt (show 1 < 2 by decide), ↓reduceIte]
      right
      refine ⟨by omega, Nat.le_refl _, ?_, hy⟩
      simp only [Nat.add_sub_cancel]; omega

theorem bitsize_spec {w x : Nat} (hx : x < 2 ^ w) :
    (x = 0 ∧ bitsize w x = 0) ∨
    (0 < bitsize w x ∧ bitsize w x ≤ w ∧ 2 ^ (bitsize w x - 1) ≤ x ∧ x < 2 ^ bitsize w x) := by
  have := bitsizeLoop_spec (w := w) w x (Nat.le_refl _) hx
  simpa [bitsize] using this

theorem or_add {w k x y : Nat} (hk : k ≤ w) (hy : y < 2 ^ w) :
    (x * 2 ^ (w - k) % 2 ^ w ||| y / 2 ^ k) = x % 2 ^ k * 2 ^ (w - k) + y / 2 ^ k := by
  have h1 : x * 2 ^ (w - k) % 2 ^ w = x % 2 ^ k * 2 ^ (w - k) := by
    rw [show (2:Nat) ^ w = 2 ^ k * 2 ^ (w - k) by rw [← Nat.pow_add]; congr 1; omega, Nat.mul_mod_mul_right]
  have h2 : y / 2 ^ k < 2 ^ (w - k) := by
    rw [Nat.div_lt_iff_lt_mul (Nat.two_pow_pos _), ← Nat.pow_add, show w - k + k = w by omega]
    exact hy
  rw [h1, ← Nat.shiftLeft_eq, ← Nat.shiftLeft_add_eq_or_of_lt h2]

theorem shiftUp_spec {w k : Nat} {r : W3} (hk : k ≤ w) (hr : r.Ok w) (hc : r.c < 2 ^ k) :
    (shiftUp w k r).Ok w ∧ (shiftUp w k r).val w = r.val w * 2 ^ (w - k) := by
  have hw : (2:Nat) ^ w = 2 ^ k * 2 ^ (w - k) := by rw [← Nat.pow_add]; congr 1; omega
  have ha : r.a * 2 ^ (w - k) % 2 ^ w = r.a % 2 ^ k * 2 ^ (w - k) := by rw [hw, Nat.mul_mod_mul_right]
  have e1 := or_add (x := r.c) hk hr.b
  have e2 := or_add (x := r.b) hk hr.a
  rw [Nat.mod_eq_of_lt hc] at e1
  have hb2 : r.b / 2 ^ k < 2 ^ (w - k) := by
    rw [Nat.div_lt_iff_lt_mul (Nat.two_pow_pos _), Nat.mul_comm, ← hw]; exact hr.b
  have ha2 : r.a / 2 ^ k < 2 ^ (w - k) := by
    rw [Nat.div_lt_iff_lt_mul (Nat.two_pow_pos _), Nat.mul_comm, ← hw]; exact hr.a
  have key : ∀ x z : Nat, x < 2 ^ k → z < 2 ^ (w - k) → x * 2 ^ (w - k) + z < 2 ^ w := by
    intro x z hx hz
    calc x * 2 ^ (w - k) + z < x * 2 ^ (w - k) + 2 ^ (w - k) := by omega
      _ = (x + 1) * 2 ^ (w - k) := by ring
      _ ≤ 2 ^ k * 2 ^ (w - k) := Nat.mul_le_mul_right _ hx
      _ = 2 ^ w := hw.symm
  refine ⟨⟨?_, ?_, ?_⟩, ?_⟩
  · exact Nat.mod_lt _ (Nat.two_pow_pos _)
  · show (r.b * 2 ^ (w - k) % 2 ^ w ||| r.a / 2 ^ k) < 2 ^ w
    rw [e2]; exact key _ _ (Nat.mod_lt _ (Nat.two_pow_pos _)) ha2
  · show (r.c * 2 ^ (w - k) % 2 ^ w ||| r.b / 2 ^ k) < 2 ^ w
    rw [e1]; exact key _ _ hc hb2
  · show (r.a * 2 ^ (w - k) % 2 ^ w) + (r.b * 2 ^ (w - k) % 2 ^ w ||| r.a / 2 ^ k) * 2 ^ w +
      (r.c * 2 ^ (w - k) % 2 ^ w ||| r.b / 2 ^ k) * 2 ^ (2 * w) = r.val w * 2 ^ (w - k)
    rw [e1, e2, ha]
    unfold W3.val
    have d1 := Nat.div_add_mod r.a (2 ^ k)
    have d2 := Nat.div_add_mod r.b (2 ^ k)
    rw [show 2 * w = w + w by omega, Nat.pow_add]
    generalize r.a / 2 ^ k = aq at *
    generalize r.b / 2 ^ k = bq at *
    generalize r.a % 2 ^ k = am at *
    generalize r.b % 2 ^ k = bm at *
    rw [← d1, ← d2, hw]
    ring

/-- The words end up with the leading bit set. -/
theorem norm3_fin {w j : Nat} {r : W3} (hr : r.Ok w) (hc : r.c ≠ 0) (p : W3 × Nat) (hp : p = (r, bitsize w r.c + j * w)) :
    let q := (if p.2 = 0 then p else if p.2 % w = 0 then p else (shiftUp w (p.2 % w) p.1, p.2))
    q.2 = bitsize w r.c + j * w ∧ q.1.Ok w ∧ q.1.val w = r.val w * 2 ^ (w - bitsize w r.c) := by
  rcases bitsize_spec hr.c with h | ⟨h1, h2, h3, h4⟩
  · exact absurd h.1 hc
  subst hp
  simp only []
  rw [if_neg (by omega)]
  by_cases hs : bitsize w r.c = w
  · rw [if_pos (by rw [hs, Nat.add_mul_mod_self_right, Nat.mod_self])]
    refine ⟨rfl, hr, by rw [hs]; simp⟩
  · have hm : (bitsize w r.c + j * w) % w = bitsize w r.c := by
      rw [Nat.add_mul_mod_self_right, Nat.mod_eq_of_lt (by omega)]
    rw [hm, if_neg (by omega)]
    exact ⟨rfl, (shiftUp_spec h2 hr h4).1, (shiftUp_spec h2 hr h4).2⟩

theorem norm3_spec {w : Nat} {r : W3} (hw : 0 < w) (hr : r.Ok w) (h0 : r.val w ≠ 0) :
    ∃ n, (norm3 w r).2 = n ∧ 0 < n ∧ n ≤ 3 * w ∧ 2 ^ (n - 1) ≤ r.val w ∧ r.val w < 2 ^ n ∧ (norm3 w r).1.Ok w ∧
      (norm3 w r).1.val w = r.val w * 2 ^ (3 * w - n) := by
  have hz : (0:Nat) < 2 ^ w := Nat.two_pow_pos _
  -- bounds of the value from the bounds of the highest word
  have bound : ∀ (lo c s e : Nat), lo < 2 ^ e → 0 < s → 2 ^ (s - 1) ≤ c → c < 2 ^ s →
      2 ^ (s + e - 1) ≤ lo + c * 2 ^ e ∧ lo + c * 2 ^ e < 2 ^ (s + e) := by
    intro lo c s e hlo hs h3 h4
    constructor
    · calc 2 ^ (s + e - 1) = 2 ^ (s - 1) * 2 ^ e := by rw [← Nat.pow_add]; congr 1; omega
        _ ≤ c * 2 ^ e := Nat.mul_le_mul_right _ h3
        _ ≤ _ := by omega
    · calc lo + c * 2 ^ e < 2 ^ e + c * 2 ^ e := by omega
        _ = (c + 1) * 2 ^ e := by ring
        _ ≤ 2 ^ s * 2 ^ e := Nat.mul_le_mul_right _ h4
        _ = _ := by rw [← Nat.pow_add]
  unfold norm3
  simp only []
  rcases bitsize_spec hr.c with ⟨hc0, hcs⟩ | ⟨h1, h2, h3, h4⟩
  · rw [hcs]
    simp only [Nat.zero_add, ↓reduceIte]
    rcases bitsize_spec hr.b with ⟨hb0, hbs⟩ | ⟨h1, h2, h3, h4⟩
    · rw [hbs]
      simp only [Nat.zero_add, ↓reduceIte]
      have hv : r.val w = r.a := by simp [W3.val, hc0, hb0]
      rcases bitsize_spec hr.a with ⟨ha0, has⟩ | ⟨h1, h2, h3, h4⟩
      · exact absurd (hv.trans ha0) h0
      · obtain ⟨q1, q2, q3⟩ := norm3_fin (w := w) (j := 0) (r := ⟨0, 0, r.a⟩) ⟨hz, hz, hr.a⟩
          (by show r.a ≠ 0; rw [← hv]; exact h0) (⟨0, 0, r.a⟩, bitsize w r.a) (by simp)
        refine ⟨bitsize w r.a, ?_, h1, by omega, by rw [hv]; exact h3, by rw [hv]; exact h4, ?_, ?_⟩
        · simpa using q1
        · exact q2
        · refine q3.trans ?_
          rw [hv]
          simp only [W3.val, Nat.zero_add, Nat.zero_mul]
          rw [Nat.mul_assoc, ← Nat.pow_add]
          congr 2; omega
    · have hne : ¬ (bitsize w r.b + w = w) := by omega
      simp only [hne, ↓reduceIte]
      have hv : r.val w = r.a + r.b * 2 ^ w := by simp [W3.val, hc0]
      obtain ⟨q1, q2, q3⟩ := norm3_fin (w := w) (j := 1) (r := ⟨0, r.a, r.b⟩) ⟨hz, hr.a, hr.b⟩
        (by
          show r.b ≠ 0
          intro h; rw [h] at h3
          have := Nat.two_pow_pos (bitsize w 0 - 1)
          omega) (⟨0, r.a, r.b⟩, bitsize w r.b + w) (by simp)
      obtain ⟨b1, b2⟩ := bound r.a r.b _ w hr.a h1 h3 h4
      refine ⟨bitsize w r.b + w, ?_, by omega, by omega, by rw [hv]; exact b1, by rw [hv]; exact b2, q2, ?_⟩
      · simpa using q1
      · refine q3.trans ?_
        rw [hv]
        simp only [W3.val, Nat.zero_add]
        rw [show 3 * w - (bitsize w r.b + w) = w + (w - bitsize w r.b) by omega, Nat.pow_add,
          show 2 * w = w + w by omega, Nat.pow_add]
        ring
  · have hne : ¬ (bitsize w r.c + 2 * w = 2 * w) := by omega
    have hne' : ¬ (bitsize w r.c + 2 * w = w) := by omega
    simp only [hne, hne', ↓reduceIte]
    obtain ⟨q1, q2, q3⟩ := norm3_fin (w := w) (j := 2) hr
      (by
        intro h; rw [h] at h3
        have := Nat.two_pow_pos (bitsize w 0 - 1)
        omega) (r, bitsize w r.c + 2 * w) (by simp)
    have hlo : r.a + r.b * 2 ^ w < 2 ^ (2 * w) := by
      calc r.a + r.b * 2 ^ w < 2 ^ w + r.b * 2 ^ w := by have := hr.a; omega
        _ = (r.b + 1) * 2 ^ w := by ring
        _ ≤ 2 ^ w * 2 ^ w := Nat.mul_le_mul_right _ hr.b
        _ = _ := by rw [← Nat.pow_add]; congr 1; omega
    obtain ⟨b1, b2⟩ := bound (r.a + r.b * 2 ^ w) r.c _ (2 * w) hlo h1 h3 h4
    refine ⟨bitsize w r.c + 2 * w, q1, by omega, by omega, b1, b2, q2, ?_⟩
    refine q3.trans ?_
    congr 2; omega

/-! ## Adding -/

/-- The number a list of 32-bit words stands for. -/
def lval : List Nat → Nat
  | [] => 0
  | w :: ws => w + 2 ^ 32 * lval ws

def LOk (r : List Nat) : Prop := ∀ w ∈ r, w < 2 ^ 32

theorem lval_append (a b : List Nat) : lval (a ++ b) = lval a + 2 ^ (32 * a.length) * lval b := by
  induction a with
  | nil => simp [lval]
  | cons x xs ih =>
    simp only [List.cons_append, lval, ih, List.length_cons]
    rw [show 32 * (xs.length + 1) = 32 + 32 * xs.length by omega, Nat.pow_add]
    ring

theorem lval_lt {r : List Nat} (h : LOk r) : lval r < 2 ^ (32 * r.length) := by
  induction r with
  | nil => simp [lval]
  | cons x xs ih =>
    have h1 := ih (fun w hw => h w (by simp [hw]))
    have h2 := h x (by simp)
    simp only [lval, List.length_cons]
    rw [show 32 * (xs.length + 1) = 32 + 32 * xs.length by omega, Nat.pow_add]
    calc x + 2 ^ 32 * lval xs < 2 ^ 32 + 2 ^ 32 * lval xs := by omega
      _ = 2 ^ 32 * (lval xs + 1) := by ring
      _ ≤ _ := Nat.mul_le_mul_left _ h1

theorem addWords_spec (r : List Nat) : ∀ cy, LOk (addWords cy r) ∧ (addWords cy r).length = r.length ∧
    lval (addWords cy r) = (cy + lval r) % 2 ^ (32 * r.length) := by
  induction r with
  | nil => intro cy; exact ⟨by intro w h; simp [addWords] at h, rfl, by simp [addWords, lval, Nat.mod_one]⟩
  | cons x xs ih =>
    intro cy
    obtain ⟨h1, h2, h3⟩ := ih ((cy + x) / 2 ^ 32)
    refine ⟨?_, by simp only [addWords, List.length_cons, h2], ?_⟩
    · intro w hw
      simp only [addWords, List.mem_cons] at hw
      rcases hw with rfl | hw
      · exact Nat.mod_lt _ (by decide)
      · exact h1 w hw
    · simp only [addWords, lval, h3, List.length_cons]
      rw [show 32 * (xs.length + 1) = 32 + 32 * xs.length by omega, Nat.pow_add, Nat.mod_mul]
      have e : (cy + (x + 2 ^ 32 * lval xs)) / 2 ^ 32 = (cy + x) / 2 ^ 32 + lval xs := by
        rw [← Nat.add_assoc, Nat.add_mul_div_left _ _ (by decide)]
      have e2 : (cy + (x + 2 ^ 32 * lval xs)) % 2 ^ 32 = (cy + x) % 2 ^ 32 := by
        rw [← Nat.add_assoc, Nat.add_mul_mod_self_left]
      rw [e, e2]

/-- A loop of `add192` from the word `pos` on. -/
theorem addAt_spec {r : List Nat} (hr : LOk r) (cy pos : Nat) (hpos : pos ≤ r.length)
    (hlt : lval r + cy * 2 ^ (32 * pos) < 2 ^ (32 * r.length)) :
    LOk (r.take pos ++ addWords cy (r.drop pos)) ∧ (r.take pos ++ addWords cy (r.drop pos)).length = r.length ∧
    lval (r.take pos ++ addWords cy (r.drop pos)) = lval r + cy * 2 ^ (32 * pos) := by
  obtain ⟨h1, h2, h3⟩ := addWords_spec (r.drop pos) cy
  have hl : (r.take pos).length = pos := by simp [hpos]
  have hv : lval r = lval (r.take pos) + 2 ^ (32 * pos) * lval (r.drop pos) := by
    conv => lhs; rw [← List.take_append_drop pos r, lval_append, hl]
  refine ⟨?_, by simp [h2]; omega, ?_⟩
  · intro w hw
    rcases List.mem_append.1 hw with hw | hw
    · exact hr w (List.mem_of_mem_take hw)
    · exact h1 w hw
  · rw [lval_append, hl, h3, hv, Nat.mod_eq_of_lt]
    · ring
    · rw [List.length_drop]
      have e : (2:Nat) ^ (32 * r.length) = 2 ^ (32 * pos) * 2 ^ (32 * (r.length - pos)) := by
        rw [← Nat.pow_add]; congr 1; omega
      rw [e, hv] at hlt
      apply Nat.lt_of_mul_lt_mul_left (a := 2 ^ (32 * pos))
      calc 2 ^ (32 * pos) * (cy + lval (r.drop pos)) ≤
          lval (r.take pos) + 2 ^ (32 * pos) * lval (r.drop pos) + cy * 2 ^ (32 * pos) := by
            rw [Nat.mul_add, Nat.mul_comm cy]; omega
        _ < _ := hlt

theorem add192_spec {r : List Nat} (hr : LOk r) (h6 : r.length = 6) (x pos : Nat) (hpos : pos < 5)
    (hlt : lval r + x * 2 ^ (32 * pos) < 2 ^ 192) :
    LOk (add192 r x pos) ∧ (add192 r x pos).length = 6 ∧ lval (add192 r x pos) = lval r + x * 2 ^ (32 * pos) := by
  have hx := Nat.div_add_mod x (2 ^ 32)
  have hp : (2:Nat) ^ (32 * (pos + 1)) = 2 ^ (32 * pos) * 2 ^ 32 := by rw [← Nat.pow_add]; congr 1
  have hsum : x % 2 ^ 32 * 2 ^ (32 * pos) + x / 2 ^ 32 * 2 ^ (32 * (pos + 1)) = x * 2 ^ (32 * pos) := by
    rw [hp]
    conv => rhs; rw [← hx]
    ring
  obtain ⟨a1, a2, a3⟩ := addAt_spec hr (x % 2 ^ 32) pos (by omega) (by
    rw [h6]; show _ < 2 ^ 192; omega)
  obtain ⟨b1, b2, b3⟩ := addAt_spec a1 (x / 2 ^ 32) (pos + 1) (by omega) (by
    rw [a2, h6, a3]; show _ < 2 ^ 192; omega)
  refine ⟨b1, ?_, ?_⟩
  · exact b2.trans (a2.trans h6)
  · show lval (_ ++ _) = _
    rw [b3, a3]; omega

theorem words6_spec {r : W3} (hr : r.Ok 64) : LOk (words6 r) ∧ (words6 r).length = 6 ∧ lval (words6 r) = r.val 64 := by
  have ha := hr.a
  have hb := hr.b
  have hc := hr.c
  refine ⟨?_, rfl, ?_⟩
  · intro w hw
    simp only [words6, List.mem_cons, List.not_mem_nil, or_false] at hw
    rcases hw with rfl | rfl | rfl | rfl | rfl | rfl <;> omega
  · simp only [words6, lval, W3.val]
    omega

theorem words3_spec {r : List Nat} (hr : LOk r) (h6 : r.length = 6) : (words3 r).Ok 64 ∧ (words3 r).val 64 = lval r := by
  match r, h6 with
  | [a, b, c, d, e, f], _ =>
    have h := fun w hw => hr w hw
    simp only [List.mem_cons, List.not_mem_nil, or_false] at h
    have := h a (by simp); have := h b (by simp); have := h c (by simp)
    have := h d (by simp); have := h e (by simp); have := h f (by simp)
    refine ⟨⟨?_, ?_, ?_⟩, ?_⟩ <;> simp only [words3, W3.val, lval, List.getD_cons_zero, List.getD_cons_succ] <;> omega

end Verif.Real10
