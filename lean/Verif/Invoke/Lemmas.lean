import Verif.Invoke.Spec
import Verif.Proc.Lemmas
/-! # Lemmas about the machine -/
namespace Verif.Invoke
open Frame (store load store_out load_congr load_store)

theorem store_split (mem : Int → Int) (k n : Nat) (a v : Int) :
    store (store mem (a + k) n (v / 256 ^ k)) a k v = store mem a (k + n) v := by
  induction k generalizing a v with
  | zero => simp [store]
  | succ k ih =>
    funext x
    rw [show k + 1 + n = (k + n) + 1 by omega]
    simp only [store]
    by_cases hx : x = a
    · rw [if_pos hx, if_pos hx]
    · rw [if_neg hx, if_neg hx]
      have h1 : v / 256 ^ (k + 1) = v / 256 / 256 ^ k := by
        rw [Int.pow_succ, Int.mul_comm, ← Int.ediv_ediv_of_nonneg (by omega)]
      have h2 : a + ((k + 1 : Nat) : Int) = a + 1 + k := by omega
      rw [h1, h2, ih (a + 1) (v / 256)]

theorem load_store_le (mem : Int → Int) (k n : Nat) (a v : Int) (h : k ≤ n) : load (store mem a n v) a k = v % 256 ^ k := by
  obtain ⟨d, rfl⟩ := Nat.exists_eq_add_of_le h
  rw [← store_split, load_store]

theorem load_range (mem : Int → Int) (a : Int) (n : Nat) : 0 ≤ load mem a n ∧ load mem a n < 256 ^ n := by
  induction n generalizing a with
  | zero => simp [load]
  | succ n ih =>
    have := ih (a + 1)
    have h1 := Int.emod_nonneg (mem a) (show (256 : Int) ≠ 0 by omega)
    have h2 := Int.emod_lt_of_pos (mem a) (show (0 : Int) < 256 by omega)
    simp only [load, Int.pow_succ]
    omega

/-- Bytes of a copy. -/
theorem store_load (mem mem' : Int → Int) (a b : Int) (n : Nat) (i : Nat) (hi : i < n) :
    store mem' b n (load mem a n) (b + i) = mem (a + i) % 256 := by
  induction n generalizing a b i with
  | zero => omega
  | succ n ih =>
    have h1 := Int.emod_nonneg (mem a) (show (256 : Int) ≠ 0 by omega)
    have h2 := Int.emod_lt_of_pos (mem a) (show (0 : Int) < 256 by omega)
    simp only [store, load]
    by_cases h : i = 0
    · subst h; rw [if_pos (by simp)]; simp
    · obtain ⟨i, rfl⟩ : ∃ j, i = j + 1 := ⟨i - 1, by omega⟩
      rw [if_neg (by omega)]
      have e : (mem a % 256 + 256 * load mem (a + 1) n) / 256 = load mem (a + 1) n := by omega
      rw [e]
      have := ih (a + 1) (b + 1) i (by omega)
      rw [show b + ((i + 1 : Nat) : Int) = b + 1 + i by omega, show a + ((i + 1 : Nat) : Int) = a + 1 + i by omega]
      exact this

theorem load_mod_congr (mem mem' : Int → Int) (n : Nat) (a b : Int)
    (h : ∀ i : Nat, i < n → mem (a + i) % 256 = mem' (b + i) % 256) : load mem a n = load mem' b n := by
  induction n generalizing a b with
  | zero => rfl
  | succ n ih =>
    simp only [load]
    have h0 := h 0 (by omega)
    simp only [Int.natCast_zero, Int.add_zero] at h0
    rw [h0, ih (a + 1) (b + 1) fun i hi => by
      have := h (i + 1) (by omega)
      rw [show a + 1 + (i : Int) = a + ((i + 1 : Nat) : Int) by omega, show b + 1 + (i : Int) = b + ((i + 1 : Nat) : Int) by omega]
      exact this]

theorem load_mod_self (mem : Int → Int) (n k : Nat) (a : Int) (h : k ≤ n) : load mem a n % 256 ^ k = load mem a k := by
  have h1 := load_store_le mem k n a (load mem a n) h
  rw [← h1]
  apply load_mod_congr
  intro i hi
  rw [store_load _ _ _ _ _ _ (by omega)]; omega

theorem eaVal_plus (m : M) (x : EA) (d : Int) : eaVal m (x.plus d) = eaVal m x + d := by
  simp only [eaVal, EA.plus]; omega

theorem eaVal_congr (m m' : M) (x : EA) (h : ∀ r ∈ eaRegs x, m.gpr r = m'.gpr r) : eaVal m x = eaVal m' x := by
  obtain ⟨b, i, d⟩ := x
  cases b <;> cases i <;> simp only [eaVal] <;> simp only [eaRegs, Option.toList_none, Option.toList_some, Option.map_none,
    Option.map_some, List.nil_append, List.append_nil, List.mem_singleton, List.singleton_append, List.mem_cons,
    List.not_mem_nil, or_false] at h
  · rw [h _ rfl]
  · rw [h _ rfl]
  · rw [h _ (.inl rfl), h _ (.inr rfl)]

/-- What a push of an argument has done. -/
structure Pushed (m m' : M) (n w : Nat) (v : Int) : Prop where
  sp : m'.sp = m.sp - n
  val : load m'.mem m'.sp w = v % 256 ^ w
  keep : ∀ x, x < m'.sp ∨ m.sp ≤ x → m'.mem x = m.mem x
  gpr : ∀ r, r ≠ 0 → m'.gpr r = m.gpr r
  range : ∀ r, 0 ≤ m'.gpr r ∧ m'.gpr r < 2 ^ 32

/-- A dword is stored. -/
theorem pushed_dword (m : M) (hr : ∀ r, 0 ≤ m.gpr r ∧ m.gpr r < 2 ^ 32) (w : Nat) (hw : 0 < w) (hw4 : w ≤ 4) (v u : Int)
    (h : u % 256 ^ w = v % 256 ^ w) (m' : M) (hm : m' = { m with sp := m.sp - 4, mem := store m.mem (m.sp - 4) 4 u }) :
    Pushed m m' ((w + 3) / 4 * 4) w v := by
  subst hm
  have : (w + 3) / 4 * 4 = 4 := by omega
  rw [this]
  refine ⟨rfl, ?_, ?_, fun _ _ => rfl, hr⟩
  · simp only; rw [load_store_le _ _ _ _ _ hw4, h]
  · intro x hx
    exact store_out _ _ _ _ _ (by simp only at hx; omega)

theorem bigLoop_dwords (c : Cfg) (hc : c.espBase = false) (x : EA) (k : Nat) :
    bigLoop c x (4 * (k + 1) : Nat) = ([.pushMem 4 (x.plus (4 * k : Nat))] ++ (bigLoop c x (4 * k : Nat)).1, (bigLoop c x (4 * k : Nat)).2) := by
  rw [bigLoop, if_pos (by omega), if_neg (by omega), hc]
  have e : ((4 * (k + 1) : Nat) : Int) - 4 = (4 * k : Nat) := by omega
  simp only [Bool.false_eq_true, if_false, e]

theorem bigLoop_word (c : Cfg) (x : EA) (k : Nat) :
    bigLoop c x (4 * k + 2 : Nat) = ([.subSp 2, .pushMem 2 (x.plus (4 * k : Nat))] ++ (bigLoop c x (4 * k : Nat)).1, 2 + (bigLoop c x (4 * k : Nat)).2) := by
  rw [bigLoop, if_pos (by omega), if_pos (by omega)]
  have e : ((4 * k + 2 : Nat) : Int) - 2 = (4 * k : Nat) := by omega
  simp only [e]

theorem bigLoop_zero (c : Cfg) (x : EA) : bigLoop c x ((4 * 0 : Nat) : Int) = ([], 0) := by
  rw [bigLoop, if_neg (by simp)]

theorem bigLoop_sv (c : Cfg) (hc : c.espBase = false) (x : EA) (k : Nat) : (bigLoop c x (4 * k : Nat)).2 = 0 := by
  induction k with
  | zero => rw [bigLoop_zero]
  | succ k ih => rw [bigLoop_dwords c hc, ih]

theorem run_cons (m : M) (i : Ins) (l : List Ins) : run m (i :: l) = run (exec m i) l := rfl
theorem run_append (m : M) (l l' : List Ins) : run m (l ++ l') = run (run m l) l' := by simp [run]

theorem eaVal_regs (m m' : M) (x : EA) (h : m'.gpr = m.gpr) : eaVal m' x = eaVal m x :=
  eaVal_congr _ _ _ fun r _ => by rw [h]

/-- The dwords of a large argument are copied. -/
theorem run_dwords (c : Cfg) (hc : c.espBase = false) (x : EA) (k : Nat) : ∀ m : M,
    (∀ a, eaVal m x ≤ a → a < eaVal m x + (4 * k : Nat) → ¬ (m.sp - (4 * k : Nat) ≤ a ∧ a < m.sp)) →
    (run m (bigLoop c x (4 * k : Nat)).1).sp = m.sp - (4 * k : Nat) ∧
    (∀ i : Nat, i < 4 * k → (run m (bigLoop c x (4 * k : Nat)).1).mem (m.sp - (4 * k : Nat) + i) % 256 = m.mem (eaVal m x + i) % 256) ∧
    (∀ a, a < m.sp - (4 * k : Nat) ∨ m.sp ≤ a → (run m (bigLoop c x (4 * k : Nat)).1).mem a = m.mem a) ∧
    (run m (bigLoop c x (4 * k : Nat)).1).gpr = m.gpr := by
  induction k with
  | zero =>
    intro m _
    rw [bigLoop_zero]
    exact ⟨by simp [run], fun i hi => by omega, fun a _ => rfl, rfl⟩
  | succ k ih =>
    intro m hd
    rw [bigLoop_dwords c hc]
    simp only [List.singleton_append, run_cons]
    generalize hm1 : exec m (.pushMem 4 (x.plus (4 * k : Nat))) = m1
    have hsp : m1.sp = m.sp - 4 := by rw [← hm1]; rfl
    have hgpr : m1.gpr = m.gpr := by rw [← hm1]; rfl
    have hmem : m1.mem = store m.mem (m.sp - 4) 4 (load m.mem (eaVal m x + (4 * k : Nat)) 4) := by
      rw [← hm1]; simp only [exec, eaVal_plus]; rfl
    have hea : eaVal m1 x = eaVal m x := eaVal_regs _ _ _ hgpr
    obtain ⟨h1, h2, h3, h4⟩ := ih m1 (by
      intro a ha hb
      rw [hea] at ha hb
      rw [hsp]
      intro hh
      exact hd a ha (by omega) (by omega))
    rw [hsp] at h1 h2 h3
    rw [hea] at h2
    refine ⟨by rw [h1]; omega, ?_, ?_, by rw [h4, hgpr]⟩
    · intro i hi
      by_cases hik : i < 4 * k
      · have := h2 i hik
        rw [show m.sp - ((4 * (k + 1) : Nat) : Int) + i = m.sp - 4 - (4 * k : Nat) + i by omega, this, hmem, store_out]
        have := hd (eaVal m x + i) (by omega) (by omega)
        omega
      · obtain ⟨j, rfl⟩ : ∃ j, i = 4 * k + j := ⟨i - 4 * k, by omega⟩
        rw [h3 _ (by omega), hmem]
        rw [show m.sp - ((4 * (k + 1) : Nat) : Int) + ((4 * k + j : Nat) : Int) = m.sp - 4 + j by omega]
        rw [store_load _ _ _ _ _ _ (by omega)]
        rw [show eaVal m x + ((4 * k : Nat) : Int) + j = eaVal m x + ((4 * k + j : Nat) : Int) by omega]
        omega
    · intro a ha
      rw [h3 a (by omega), hmem, store_out]
      omega

/-- A large argument of whole words is copied. -/
theorem run_big (c : Cfg) (hc : c.espBase = false) (x : EA) (n : Nat) (hn : n % 2 = 0) (m : M)
    (hr : ∀ r, 0 ≤ m.gpr r ∧ m.gpr r < 2 ^ 32)
    (hd : ∀ a, eaVal m x ≤ a → a < eaVal m x + n → ¬ (m.sp - ((n + 3) / 4 * 4 : Nat) ≤ a ∧ a < m.sp)) :
    Pushed m (run m (bigLoop c x n).1) ((n + 3) / 4 * 4) n (load m.mem (eaVal m x) n) := by
  have hmod : load m.mem (eaVal m x) n % 256 ^ n = load m.mem (eaVal m x) n :=
    Int.emod_eq_of_lt (load_range _ _ _).1 (load_range _ _ _).2
  rcases (show n % 4 = 0 ∨ n % 4 = 2 by omega) with h4 | h4
  · obtain ⟨k, rfl⟩ : ∃ k, n = 4 * k := ⟨n / 4, by omega⟩
    have hs : (4 * k + 3) / 4 * 4 = 4 * k := by omega
    rw [hs] at hd ⊢
    obtain ⟨h1, h2, h3, h4⟩ := run_dwords c hc x k m hd
    refine ⟨h1, ?_, ?_, fun r _ => by rw [h4], fun r => by rw [h4]; exact hr r⟩
    · rw [hmod, h1]
      exact load_mod_congr _ _ _ _ _ h2
    · intro a ha; rw [h1] at ha; exact h3 a ha
  · obtain ⟨k, rfl⟩ : ∃ k, n = 4 * k + 2 := ⟨n / 4, by omega⟩
    have hs : (4 * k + 2 + 3) / 4 * 4 = 4 * k + 4 := by omega
    rw [hs] at hd ⊢
    rw [bigLoop_word]
    simp only [List.cons_append, List.nil_append, run_cons]
    generalize hm1 : exec (exec m (.subSp 2)) (.pushMem 2 (x.plus (4 * k : Nat))) = m1
    have hsp : m1.sp = m.sp - 4 := by rw [← hm1]; simp only [exec]; omega
    have hgpr : m1.gpr = m.gpr := by rw [← hm1]; rfl
    have hmem : m1.mem = store m.mem (m.sp - 4) 2 (load m.mem (eaVal m x + (4 * k : Nat)) 2) := by
      rw [← hm1]; simp only [exec, eaVal_plus]
      rw [show m.sp - ((2 : Nat) : Int) - ((2 : Nat) : Int) = m.sp - 4 by omega]; rfl
    have hea : eaVal m1 x = eaVal m x := eaVal_regs _ _ _ hgpr
    obtain ⟨h1, h2, h3, h4⟩ := run_dwords c hc x k m1 (by
      intro a ha hb
      rw [hea] at ha hb
      rw [hsp]
      intro hh
      exact hd a ha (by omega) (by omega))
    rw [hsp] at h1 h2 h3
    rw [hea] at h2
    refine ⟨by rw [h1]; omega, ?_, ?_, fun r _ => by rw [h4, hgpr], fun r => by rw [h4, hgpr]; exact hr r⟩
    · rw [hmod, h1]
      apply load_mod_congr
      intro i hi
      by_cases hik : i < 4 * k
      · rw [h2 i hik, hmem, store_out]
        have := hd (eaVal m x + i) (by omega) (by omega)
        omega
      · obtain ⟨j, rfl⟩ : ∃ j, i = 4 * k + j := ⟨i - 4 * k, by omega⟩
        rw [h3 _ (by omega), hmem]
        rw [show m.sp - 4 - ((4 * k : Nat) : Int) + ((4 * k + j : Nat) : Int) = m.sp - 4 + j by omega]
        rw [store_load _ _ _ _ _ _ (by omega)]
        rw [show eaVal m x + ((4 * k : Nat) : Int) + j = eaVal m x + ((4 * k + j : Nat) : Int) by omega]
        omega
    · intro a ha
      rw [h1] at ha
      rw [h3 a (by omega), hmem, store_out]
      omega

end Verif.Invoke
