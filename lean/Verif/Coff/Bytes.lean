import Verif.Coff.Spec
/-! Byte-level lemmas. -/
namespace Verif.Coff

@[simp] theorem le_length (n v : Nat) : (le n v).length = n := by
  induction n generalizing v with
  | zero => rfl
  | succ n ih => simp [le, ih]

theorem u8_append_right (a b : List Byte) (i : Nat) : u8 (a ++ b) (a.length + i) = u8 b i := by
  simp [u8, List.getD_eq_getElem?_getD, List.getElem?_append_right]

theorem u8_append_left (a b : List Byte) (i : Nat) (h : i < a.length) : u8 (a ++ b) i = u8 a i := by
  simp [u8, List.getD_eq_getElem?_getD, List.getElem?_append_left h]

theorem u8_slice (f : List Byte) (o n i : Nat) (h : i < n) : u8 (slice f o n) i = u8 f (o + i) := by
  simp [u8, slice, List.getD_eq_getElem?_getD, List.getElem?_take, h]

theorem u16_slice (f : List Byte) (o n i : Nat) (h : i + 1 < n) : u16 (slice f o n) i = u16 f (o + i) := by
  simp only [u16, u8_slice f o n i (by omega), u8_slice f o n (i + 1) h, Nat.add_assoc]

theorem u32_slice (f : List Byte) (o n i : Nat) (h : i + 3 < n) : u32 (slice f o n) i = u32 f (o + i) := by
  simp only [u32, u16_slice f o n i (by omega), u16_slice f o n (i + 2) (by omega), Nat.add_assoc]

theorem u8_drop (f : List Byte) (o i : Nat) : u8 (f.drop o) i = u8 f (o + i) := by
  simp [u8, List.getD_eq_getElem?_getD]

theorem u16_drop (f : List Byte) (o i : Nat) : u16 (f.drop o) i = u16 f (o + i) := by
  simp only [u16, u8_drop, Nat.add_assoc]

theorem u32_drop (f : List Byte) (o i : Nat) : u32 (f.drop o) i = u32 f (o + i) := by
  simp only [u32, u16_drop, Nat.add_assoc]

theorem u32_le (v : Nat) (r : List Byte) : u32 (le 4 v ++ r) 0 = v % 2 ^ 32 := by
  simp [u32, u16, u8, le]
  omega

theorem u16_le (v : Nat) (r : List Byte) : u16 (le 2 v ++ r) 0 = v % 65536 := by
  simp [u16, u8, le]
  omega

theorem slice_append (a b c : List Byte) : slice (a ++ (b ++ c)) a.length b.length = b := by
  simp [slice]

theorem slice_mid (a b c : List Byte) (o n : Nat) (ho : a.length = o) (hn : b.length = n) :
    slice (a ++ (b ++ c)) o n = b := by
  subst ho hn; exact slice_append a b c

/-- A slice inside a prefix/suffix context. -/
theorem slice_ctx (a b c : List Byte) (i n : Nat) (h : i + n ≤ b.length) :
    slice (a ++ (b ++ c)) (a.length + i) n = slice b i n := by
  simp only [slice]
  rw [← List.drop_drop, List.drop_left, List.drop_append_of_le_length (by omega),
    List.take_append_of_le_length (by simp; omega)]

theorem slice_full (f : List Byte) : slice f 0 f.length = f := by simp [slice]

/-- Records of equal size in a flattened list. -/
theorem slice_flatten (n : Nat) : ∀ (R : List (List Byte)), (∀ r ∈ R, r.length = n) → ∀ k (h : k < R.length),
    slice R.flatten (n * k) n = R[k]
  | [], _, k, h => by simp at h
  | r :: R, hR, 0, h => by
    have hr := hR r (by simp)
    subst hr
    simp [slice]
  | r :: R, hR, k + 1, h => by
    have hr := hR r (by simp)
    have := slice_flatten n R (fun x hx => hR x (by simp [hx])) k (by simpa using h)
    simp only [List.flatten_cons, List.getElem_cons_succ]
    rw [← this]
    simp only [slice]
    rw [show n * (k + 1) = r.length + n * k by rw [hr, Nat.mul_succ]; omega, ← List.drop_drop, List.drop_left]

theorem length_flatten (n : Nat) : ∀ (R : List (List Byte)), (∀ r ∈ R, r.length = n) → R.flatten.length = n * R.length
  | [], _ => by simp
  | r :: R, h => by
    simp only [List.flatten_cons, List.length_append, List.length_cons, length_flatten n R (fun x hx => h x (by simp [hx])),
      h r (by simp), Nat.mul_succ]
    omega

theorem map_range_getElem {α : Type} (R : List α) (g : Nat → α) (h : ∀ k (hk : k < R.length), g k = R[k]) :
    (List.range R.length).map g = R := by
  apply List.ext_getElem
  · simp
  · intro i h1 h2
    simp only [List.getElem_map, List.getElem_range]
    exact h i h2

theorem strncpy_length (n : Nat) (s : List Byte) : (strncpy n s).length = n := by
  simp [strncpy]

theorem takeWhile_append_stop (s r : List Byte) (h : (0 : Byte) ∉ s) :
    (s ++ 0 :: r).takeWhile (· ≠ 0) = s := by
  induction s with
  | nil => simp
  | cons x s ih =>
    have hx : x ≠ 0 := fun e => h (by simp [e])
    have hs : (0 : Byte) ∉ s := fun e => h (List.mem_cons_of_mem _ e)
    have := ih hs
    simp only [List.cons_append]
    rw [List.takeWhile_cons_of_pos (by simpa using hx), this]

theorem takeWhile_all : ∀ (s : List Byte), (0 : Byte) ∉ s → s.takeWhile (· ≠ 0) = s
  | [], _ => rfl
  | x :: s, h => by
    have hx : x ≠ 0 := fun e => h (by simp [e])
    rw [List.takeWhile_cons_of_pos (by simpa using hx), takeWhile_all s (fun e => h (List.mem_cons_of_mem _ e))]

theorem strncpy_read (n : Nat) (s : List Byte) (hn : s.length ≤ n) (h : (0 : Byte) ∉ s) :
    (strncpy n s).takeWhile (· ≠ 0) = s := by
  obtain ⟨k, rfl⟩ : ∃ k, n = s.length + k := ⟨n - s.length, by omega⟩
  cases k with
  | zero =>
    simp only [strncpy]
    rw [List.take_append_of_le_length (by omega)]
    simp only [Nat.add_zero, List.take_length]
    exact takeWhile_all s h
  | succ k =>
    simp only [strncpy]
    rw [List.take_append]
    rw [List.take_of_length_le (by omega), show s.length + (k + 1) - s.length = k + 1 by omega]
    rw [show (List.replicate (s.length + (k + 1)) (0 : Byte)) = 0 :: List.replicate (s.length + k) 0 by
      rw [show s.length + (k + 1) = (s.length + k) + 1 by omega, List.replicate_succ], List.take_succ_cons]
    exact takeWhile_append_stop s _ h

end Verif.Coff
