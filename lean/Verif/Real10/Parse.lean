import Verif.Real10.Table
/-! # Reading the digits -/
namespace Verif.Real10

theorem addDigit_spec {x : W3} (hx : x.Ok 32) {d : Nat} (hd : d < 10) :
    match addDigit x d with
    | none => 2 ^ 92 ≤ x.val 32
    | some t => t.Ok 32 ∧ t.val 32 = 10 * x.val 32 + d := by
  have ha := hx.a
  have hb := hx.b
  have hc := hx.c
  unfold addDigit
  cases h : overMax x with
  | true =>
    simp only [↓reduceIte]
    unfold overMax at h
    unfold W3.val
    split at h
    · omega
    · split at h
      · cases h
      · split at h
        · omega
        · split at h
          · cases h
          · split at h
            · omega
            · cases h
  | false =>
    have hm : x.val 32 ≤ 0x199999999999999999999998 := by
      unfold overMax at h
      unfold W3.val
      split at h
      · cases h
      · split at h
        · omega
        · split at h
          · cases h
          · split at h
            · omega
            · split at h
              · cases h
              · omega
    simp only [Bool.false_eq_true, ↓reduceIte]
    unfold W3.val at *
    refine ⟨⟨?_, ?_, ?_⟩, ?_⟩ <;> simp only [] <;> omega

/-- What is known behind some digits: `x` is the number read, `u` the unit of the last digit. -/
structure Inv (x u : ℚ) (s : PSt) : Prop where
  tmp : s.tmp.Ok 32
  val : s.value.Ok 32
  eq : (s.value.val 32 : ℚ) * (10:ℚ) ^ s.ex = (s.tmp.val 32 : ℚ) * (10:ℚ) ^ s.et
  exact : s.ov = false → x = (s.tmp.val 32 : ℚ) * (10:ℚ) ^ s.et ∧ u = (10:ℚ) ^ s.et
  over : s.ov = true → (s.tmp.val 32 : ℚ) * (10:ℚ) ^ s.et ≤ x ∧ x + u ≤ ((s.tmp.val 32 : ℚ) + 1) * (10:ℚ) ^ s.et ∧ 2 ^ 92 ≤ s.tmp.val 32

theorem zero_ok : (⟨0, 0, 0⟩ : W3).Ok 32 := ⟨by decide, by decide, by decide⟩

theorem Inv.start : Inv 0 1 {} := by
  refine ⟨zero_ok, zero_ok, rfl, ?_, ?_⟩
  · intro _; simp [W3.val]
  · intro h; cases h

theorem zp (e : Int) : (10:ℚ) ^ (e + 1) = 10 * (10:ℚ) ^ e := by
  rw [zpow_add₀ (by norm_num), zpow_one, mul_comm]

theorem zm (e : Int) : (10:ℚ) ^ e = 10 * (10:ℚ) ^ (e - 1) := by
  rw [← zp]; congr 1; ring

theorem Inv.int {x : ℚ} {s : PSt} (h : Inv x 1 s) (h0 : s.ov = false → s.et = 0) {d : Nat} (hd : d < 10) :
    Inv (10 * x + d) 1 (intDigit d s) ∧ ((intDigit d s).ov = false → (intDigit d s).et = 0) := by
  have hd' : (d:ℚ) ≤ 9 := by exact_mod_cast Nat.le_of_lt_succ hd
  have hd0 : (0:ℚ) ≤ (d:ℚ) := by positivity
  unfold intDigit
  cases hov : s.ov with
  | true =>
    obtain ⟨o1, o2, o3⟩ := h.over hov
    simp only [↓reduceIte]
    refine ⟨⟨h.tmp, h.val, ?_, ?_, ?_⟩, ?_⟩
    · simp only [zp]; linarith [h.eq]
    · intro hc; cases hc
    · intro _
      simp only [zp]
      refine ⟨by linarith, by linarith, o3⟩
    · intro hc; cases hc
  | false =>
    have e0 := h0 hov
    obtain ⟨x1, x2⟩ := h.exact hov
    have eq := h.eq
    rw [e0, zpow_zero, mul_one] at x1 eq
    simp only [Bool.false_eq_true, ↓reduceIte]
    have hs := addDigit_spec h.tmp hd
    cases ha : addDigit s.tmp d with
    | none =>
      rw [ha] at hs
      simp only [] at hs ⊢
      refine ⟨⟨h.tmp, h.val, ?_, ?_, ?_⟩, ?_⟩
      · simp only [zp, e0, zpow_zero]; linarith
      · intro hc; cases hc
      · intro _
        simp only [zp, e0, zpow_zero]
        refine ⟨by linarith, by linarith, hs⟩
      · intro hc; cases hc
    | some t =>
      rw [ha] at hs
      simp only [] at hs ⊢
      obtain ⟨t1, t2⟩ := hs
      have t3 : (t.val 32 : ℚ) = 10 * (s.tmp.val 32 : ℚ) + d := by exact_mod_cast t2
      split
      · refine ⟨⟨t1, t1, ?_, ?_, ?_⟩, ?_⟩
        · simp only [e0]
        · intro _; simp only [e0, zpow_zero, t3]; exact ⟨by linarith, trivial⟩
        · intro hc; cases hc
        · intro _; exact e0
      · rename_i hd1
        have hdz : d = 0 := by omega
        subst hdz
        simp only [Nat.cast_zero, add_zero] at t3
        split
        · refine ⟨⟨t1, h.val, ?_, ?_, ?_⟩, ?_⟩
          · simp only [e0, zp, zpow_zero, t3]; linarith
          · intro _; simp only [e0, zpow_zero, t3]; exact ⟨by push_cast; linarith, trivial⟩
          · intro hc; cases hc
          · intro _; exact e0
        · rename_i hz
          have hv : s.value.val 32 = 0 := by
            unfold W3.val; simp only [not_or, not_not] at hz; rw [hz.1, hz.2.1, hz.2.2]; rfl
          rw [hv] at eq
          simp only [Nat.cast_zero, zero_mul] at eq
          refine ⟨⟨t1, h.val, ?_, ?_, ?_⟩, ?_⟩
          · simp only [hv, t3, ← eq]; norm_num
          · intro _; simp only [e0, zpow_zero, t3]; exact ⟨by push_cast; linarith, trivial⟩
          · intro hc; cases hc
          · intro _; exact e0

theorem Inv.frac {x u : ℚ} {s : PSt} (h : Inv x u s) (hu : 0 < u) {d : Nat} (hd : d < 10) :
    Inv (x + d * (u / 10)) (u / 10) (fracDigit d s) := by
  have hd' : (d:ℚ) ≤ 9 := by exact_mod_cast Nat.le_of_lt_succ hd
  have hd0 : (0:ℚ) ≤ (d:ℚ) := by positivity
  have k1 : (d:ℚ) * (u / 10) ≤ 9 * (u / 10) := mul_le_mul_of_nonneg_right hd' (by positivity)
  have k0 : 0 ≤ (d:ℚ) * (u / 10) := by positivity
  unfold fracDigit
  cases hov : s.ov with
  | true =>
    obtain ⟨o1, o2, o3⟩ := h.over hov
    simp only [↓reduceIte]
    refine ⟨h.tmp, h.val, h.eq, ?_, ?_⟩
    · intro hc; rw [hov] at hc; cases hc
    · intro _
      refine ⟨by linarith, by linarith, o3⟩
  | false =>
    obtain ⟨x1, x2⟩ := h.exact hov
    simp only [Bool.false_eq_true, ↓reduceIte]
    have hs := addDigit_spec h.tmp hd
    cases ha : addDigit s.tmp d with
    | none =>
      rw [ha] at hs
      simp only [] at hs ⊢
      refine ⟨h.tmp, h.val, h.eq, ?_, ?_⟩
      · intro hc; cases hc
      · intro _
        simp only []
        rw [← x2]
        rw [← x2] at x1
        refine ⟨by linarith, by linarith, hs⟩
    | some t =>
      rw [ha] at hs
      simp only [] at hs ⊢
      obtain ⟨t1, t2⟩ := hs
      have t3 : (t.val 32 : ℚ) = 10 * (s.tmp.val 32 : ℚ) + d := by exact_mod_cast t2
      have e := zm s.et
      rw [e] at x1 x2
      have u1 : u / 10 = (10:ℚ) ^ (s.et - 1) := by rw [x2]; ring
      have fin : x + d * (u / 10) = (t.val 32 : ℚ) * (10:ℚ) ^ (s.et - 1) := by rw [u1, x1, t3]; ring
      split
      · exact ⟨t1, t1, rfl, fun _ => ⟨fin, u1⟩, fun hc => by cases hc⟩
      · rename_i hd1
        have hdz : d = 0 := by omega
        subst hdz
        refine ⟨t1, h.val, ?_, fun _ => ⟨fin, u1⟩, fun hc => by cases hc⟩
        simp only [t3]
        have := h.eq
        rw [e] at this
        rw [this]; push_cast; ring

theorem number_snoc (ds : List (Fin 10)) (d : Fin 10) : number (ds ++ [d]) = 10 * number ds + d.val := by
  simp [number]

theorem int_fold (ds : List (Fin 10)) :
    Inv (number ds) 1 (ds.foldl (fun s d => intDigit d.val s) {}) ∧
    ((ds.foldl (fun s d => intDigit d.val s) {}).ov = false → (ds.foldl (fun s d => intDigit d.val s) ({} : PSt)).et = 0) := by
  induction ds using List.reverseRecOn with
  | nil => exact ⟨by simpa [number] using Inv.start, fun _ => rfl⟩
  | append_singleton ds d ih =>
    rw [List.foldl_append, number_snoc]
    have := ih.1.int ih.2 d.isLt
    push_cast
    exact this

theorem frac_fold {x : ℚ} {s : PSt} (h : Inv x 1 s) (ds : List (Fin 10)) :
    Inv (x + (number ds : ℚ) / 10 ^ ds.length) (1 / 10 ^ ds.length) (ds.foldl (fun s d => fracDigit d.val s) s) := by
  induction ds using List.reverseRecOn with
  | nil => simpa [number] using h
  | append_singleton ds d ih =>
    rw [List.foldl_append, number_snoc]
    have := ih.frac (by positivity) d.isLt
    have e1 : (1:ℚ) / 10 ^ ds.length / 10 = 1 / 10 ^ (ds ++ [d]).length := by
      rw [List.length_append, List.length_singleton, pow_succ, div_div]
    have e2 : x + (number ds : ℚ) / 10 ^ ds.length + (d.val : ℚ) * (1 / 10 ^ ds.length / 10) =
        x + ((10 * number ds + d.val : Nat) : ℚ) / 10 ^ (ds ++ [d]).length := by
      rw [List.length_append, List.length_singleton, pow_succ]
      push_cast
      have hp : (10:ℚ) ^ ds.length ≠ 0 := by positivity
      rw [add_assoc]
      congr 1
      rw [div_div, mul_one_div, add_div, mul_comm ((10:ℚ) ^ ds.length) 10, mul_div_mul_left _ _ (by norm_num)]
    rw [e2, e1] at this
    exact this

/-- The number found is near the number read. -/
theorem Inv.near {x u : ℚ} {s : PSt} (h : Inv x u s) (hx : 0 < x) (hu : 0 ≤ u) (p : Int) :
    s.value.val 32 ≠ 0 ∧ Near (1 / 2 ^ 92) ((s.value.val 32 : ℚ) * (10:ℚ) ^ (p + s.ex)) (x * (10:ℚ) ^ p) ∧
      (s.value.val 32 : ℚ) * (10:ℚ) ^ (p + s.ex) ≤ x * (10:ℚ) ^ p := by
  have tp : (0:ℚ) < (10:ℚ) ^ s.et := by positivity
  have pp : (0:ℚ) < (10:ℚ) ^ p := by positivity
  have key : (s.tmp.val 32 : ℚ) * (10:ℚ) ^ s.et ≤ x ∧ x - (s.tmp.val 32 : ℚ) * (10:ℚ) ^ s.et ≤ x * (1 / 2 ^ 92) ∧
      0 < (s.tmp.val 32 : ℚ) := by
    cases hov : s.ov with
    | false =>
      obtain ⟨x1, -⟩ := h.exact hov
      refine ⟨x1.ge, ?_, ?_⟩
      · rw [← x1, sub_self]; positivity
      · rw [x1] at hx
        exact pos_of_mul_pos_left hx tp.le
    | true =>
      obtain ⟨o1, o2, o3⟩ := h.over hov
      have q3 : (2:ℚ) ^ 92 ≤ (s.tmp.val 32 : ℚ) := by exact_mod_cast o3
      refine ⟨o1, ?_, lt_of_lt_of_le (by positivity) q3⟩
      have : (2:ℚ) ^ 92 * (10:ℚ) ^ s.et ≤ x := le_trans (mul_le_mul_of_nonneg_right q3 tp.le) o1
      have : (10:ℚ) ^ s.et ≤ x * (1 / 2 ^ 92) := by
        rw [mul_one_div, le_div_iff₀ (by positivity)]; linarith
      linarith
  obtain ⟨k1, k2, k3⟩ := key
  have e : (s.value.val 32 : ℚ) * (10:ℚ) ^ (p + s.ex) = (s.tmp.val 32 : ℚ) * (10:ℚ) ^ s.et * (10:ℚ) ^ p := by
    rw [zpow_add₀ (by norm_num), ← h.eq]; ring
  refine ⟨?_, ?_, ?_⟩
  · intro hc
    have := h.eq
    rw [hc] at this
    simp only [Nat.cast_zero, zero_mul] at this
    have : (0:ℚ) < (s.tmp.val 32 : ℚ) * (10:ℚ) ^ s.et := mul_pos k3 tp
    linarith
  · rw [e]
    unfold Near
    rw [← sub_mul, abs_mul, abs_of_pos pp, abs_sub_comm, abs_of_nonneg (by linarith)]
    calc _ ≤ x * (1 / 2 ^ 92) * (10:ℚ) ^ p := mul_le_mul_of_nonneg_right k2 pp.le
      _ = _ := by ring
  · rw [e]; exact mul_le_mul_of_nonneg_right k1 pp.le

/-! ## The characters -/

theorem isDigit_digitChar : ∀ d : Fin 10, isDigit (digitChar d) = true := by decide
theorem digitVal_digitChar : ∀ d : Fin 10, digitVal (digitChar d) = d.val := by decide

theorem digitChar_ne (d : Fin 10) (c : Char) (h : isDigit c = false) : digitChar d ≠ c := by
  rintro rfl; rw [isDigit_digitChar] at h; cases h

theorem digits_text (f : Nat → PSt → PSt) (rest : List Char) (hr : ∀ c ∈ rest.head?, isDigit c = false) :
    ∀ (ds : List (Fin 10)) (s : PSt), digits f (ds.map digitChar ++ rest) s = (ds.foldl (fun s d => f d.val s) s, rest)
  | [], s => by
    cases rest with
    | nil => rfl
    | cons c r =>
      have := hr c (by simp)
      simp [digits, this]
  | d :: ds, s => by
    simp only [List.map_cons, List.cons_append, digits, isDigit_digitChar, ↓reduceIte, digitVal_digitChar, List.foldl_cons]
    exact digits_text f rest hr ds _

theorem expDigits_text : ∀ (ds : List (Fin 10)) (n : Nat),
    expDigits (ds.map digitChar) (n : Int) = (ds.foldl (fun n d => 10 * n + d.val) n : Nat)
  | [], n => rfl
  | d :: ds, n => by
    simp only [List.map_cons, expDigits, isDigit_digitChar, ↓reduceIte, digitVal_digitChar, List.foldl_cons]
    have := expDigits_text ds (10 * n + d.val)
    push_cast at this ⊢
    exact this

/-- The exponent part. -/
def expText (l : Lit) : List Char :=
  match l.exp with | none => [] | some (s, d) => (if l.capital then 'E' else 'e') :: (signChars s ++ d.map digitChar)

/-- The state behind the digits. -/
def litState (l : Lit) : PSt :=
  (l.frac.getD []).foldl (fun s d => fracDigit d.val s) (l.int.foldl (fun s d => intDigit d.val s) {})

theorem expText_head (l : Lit) : ∀ c ∈ (expText l).head?, isDigit c = false ∧ c ≠ '.' := by
  intro c hc
  unfold expText at hc
  cases hx : l.exp with
  | none => rw [hx] at hc; simp at hc
  | some p =>
    obtain ⟨s, d⟩ := p
    rw [hx] at hc
    simp only [List.head?_cons, Option.mem_def, Option.some.injEq] at hc
    subst hc
    split <;> decide

/-- Behind the sign. -/
def strtotbTail (minus : Bool) (p : List Char) : TB :=
  let q := digits intDigit p {}
  let q :=
    match q.2 with
    | '.' :: r => digits fracDigit r q.1
    | _ => q
  let fin (x : Int) := setSign (tbCreate q.1.value (x + q.1.ex)) minus
  match q.2 with
  | c :: r =>
    if c = 'e' ∨ c = 'E' then
      match r with
      | '-' :: r => fin (- expDigits r 0)
      | '+' :: r => fin (expDigits r 0)
      | c :: r => if isDigit c then fin (expDigits (c :: r) 0) else setSign ⟨0, 0⟩ minus
      | [] => setSign ⟨0, 0⟩ minus
    else fin 0
  | [] => fin 0

theorem strtotb_sign (s : Option Bool) (c : Char) (r : List Char) (hc : isDigit c = true) (neg : Bool) :
    strtotb (signChars s ++ c :: r) neg = strtotbTail (decide (s = some true) != neg) (c :: r) := by
  have h1 : isSpace c = false := by
    unfold isDigit at hc; unfold isSpace
    simp only [decide_eq_true_eq, decide_eq_false_iff_not] at *
    omega
  have h2 : c ≠ '-' := by rintro rfl; exact absurd hc (by decide)
  have h3 : c ≠ '+' := by rintro rfl; exact absurd hc (by decide)
  cases s with
  | none =>
    have hm : readSign (c :: r) = (false, c :: r) := by
      unfold readSign
      split
      · rename_i he; simp only [List.cons.injEq] at he; exact absurd he.1 h2
      · rename_i he; simp only [List.cons.injEq] at he; exact absurd he.1 h3
      · rfl
    unfold strtotb
    simp only [signChars, List.nil_append, List.dropWhile_cons, h1, Bool.false_eq_true, ↓reduceIte]
    rw [hm]
    cases neg <;> rfl
  | some b =>
    cases b with
    | true =>
      unfold strtotb
      have : isSpace '-' = false := by decide
      simp only [signChars, List.cons_append, List.nil_append, List.dropWhile_cons, this, Bool.false_eq_true, ↓reduceIte]
      cases neg <;> rfl
    | false =>
      unfold strtotb
      have : isSpace '+' = false := by decide
      simp only [signChars, List.cons_append, List.nil_append, List.dropWhile_cons, this, Bool.false_eq_true, ↓reduceIte]
      cases neg <;> rfl

theorem tail_text (l : Lit) (h : l.Wf) (minus : Bool) :
    strtotbTail minus (l.int.map digitChar ++ ((match l.frac with | none => [] | some f => '.' :: f.map digitChar) ++ expText l)) =
      setSign (tbCreate (litState l).value (l.power + (litState l).ex)) minus := by
  have hx := expText_head l
  have hq : (let q := digits intDigit (l.int.map digitChar ++ ((match l.frac with | none => [] | some f => '.' :: f.map digitChar) ++ expText l)) {}
      match q.2 with
      | '.' :: r => digits fracDigit r q.1
      | _ => q) = (litState l, expText l) := by
    unfold litState
    cases hf : l.frac with
    | none =>
      simp only [List.nil_append, Option.getD_none, List.foldl_nil]
      rw [digits_text _ _ (fun c hc => (hx c hc).1)]
      simp only []
      split
      · rename_i r he
        have := (hx '.' (by rw [he]; simp)).2
        exact absurd rfl this
      · rfl
    | some f =>
      simp only [List.cons_append, Option.getD_some]
      rw [digits_text _ _ (by intro c hc; simp at hc; subst hc; decide)]
      simp only []
      rw [digits_text _ _ (fun c hc => (hx c hc).1)]
  unfold strtotbTail
  simp only [] at hq ⊢
  rw [hq]
  simp only []
  unfold expText Lit.power
  cases he : l.exp with
  | none => rfl
  | some p =>
    obtain ⟨s, d⟩ := p
    have hd := h.2 s d he
    simp only []
    rw [if_pos (by split <;> simp)]
    have e0 := expDigits_text d 0
    cases s with
    | none =>
      obtain ⟨d0, ds, rfl⟩ := List.exists_cons_of_ne_nil hd
      simp only [signChars, List.nil_append, List.map_cons]
      have n1 : digitChar d0 ≠ '-' := digitChar_ne d0 _ (by decide)
      have n2 : digitChar d0 ≠ '+' := digitChar_ne d0 _ (by decide)
      split
      · rename_i he; simp only [List.cons.injEq] at he; exact absurd he.1 n1
      · rename_i he; simp only [List.cons.injEq] at he; exact absurd he.1 n2
      · rename_i he; simp only [List.cons.injEq] at he
        rw [← he.1, ← he.2, isDigit_digitChar]
        simp only [↓reduceIte]
        simp only [List.map_cons, Nat.cast_zero] at e0
        rw [e0]
        rfl
      · rename_i he; cases he
    | some b =>
      simp only [Nat.cast_zero] at e0
      cases b with
      | true => simp only [signChars, List.cons_append, List.nil_append, e0]; rfl
      | false => simp only [signChars, List.cons_append, List.nil_append, e0]; rfl

theorem strtotb_text (l : Lit) (h : l.Wf) (neg : Bool) :
    strtotb l.text neg = setSign (tbCreate (litState l).value (l.power + (litState l).ex)) (l.minus != neg) := by
  obtain ⟨d0, ds, hi⟩ := List.exists_cons_of_ne_nil h.1
  have ht : l.text = signChars l.sign ++ (l.int.map digitChar ++
      ((match l.frac with | none => [] | some f => '.' :: f.map digitChar) ++ expText l)) := by
    unfold Lit.text expText
    simp only [List.append_assoc]
    rfl
  have hh := tail_text l h (l.minus != neg)
  rw [ht]
  rw [hi] at hh ⊢
  simp only [List.map_cons, List.cons_append] at hh ⊢
  rw [strtotb_sign _ _ _ (isDigit_digitChar d0)]
  exact hh

/-- The value of the literal, and what the state says of it. -/
theorem lit_near (l : Lit) (hv : 0 < l.value) :
    (litState l).value.Ok 32 ∧ (litState l).value.val 32 ≠ 0 ∧
    Near (1 / 2 ^ 92) (((litState l).value.val 32 : ℚ) * (10:ℚ) ^ (l.power + (litState l).ex)) l.value ∧
    ((litState l).value.val 32 : ℚ) * (10:ℚ) ^ (l.power + (litState l).ex) ≤ l.value := by
  have hi := frac_fold (int_fold l.int).1 (l.frac.getD [])
  have hpos : 0 < (number l.int : ℚ) + (number (l.frac.getD []) : ℚ) / 10 ^ (l.frac.getD []).length := by
    unfold Lit.value at hv
    exact pos_of_mul_pos_left hv (by positivity)
  obtain ⟨a, b, c⟩ := hi.near hpos (by positivity) l.power
  exact ⟨hi.val, a, b, c⟩

end Verif.Real10
