import Verif.Num.Proofs
/-! # Helper lemmas: `get_number` on each literal notation -/
namespace Verif.Num
open Spec

/-- `get_number` on a text without `0x` prefix, digits `s`, then `tail`. -/
theorem getNumber_digits (radix : Nat) (s tail : List Nat) (hs : ∀ c ∈ s, IsDigit c (digitIdx c)) (hne : s ≠ [])
    (ht : isHexChar (hd tail) = false) (hx : toLower (hd tail) ≠ 120) :
    let last := toLower (hd tail)
    let seen := digitsSeen s
    let mk (base dlen extra : Nat) : NumTok :=
      let n := s.length + extra
      if base ≠ 0 then ⟨.num, base, dlen, (s ++ tail).take n, (s ++ tail).drop n⟩
      else
        let n' := n + (((s ++ tail).drop n).takeWhile isIdChar).length
        ⟨.badNum, 0, 0, (s ++ tail).take n', (s ++ tail).drop n'⟩
    getNumber radix (s ++ tail) =
      if last = 46 then ⟨.float, 0, 0, [], s ++ tail⟩
      else if last = 114 then ⟨.float, 0, 0, (s ++ tail).take (s.length + 1), (s ++ tail).drop (s.length + 1)⟩
      else if last = 104 then mk 16 s.length 1
      else if last = 121 then if okNum seen 0x3 then mk 2 s.length 1 else mk 0 0 0
      else if last = 116 then if okNum seen 0x3ff then mk 10 s.length 1 else mk 0 0 0
      else if last = 113 ∨ last = 111 then if okNum seen 0xff then mk 8 s.length 1 else mk 0 0 0
      else
        let lc := toLower (s.getLastD 0)
        let body := s.dropLast
        let mx := if lc = 98 then 49 else 57
        if (lc = 98 ∨ lc = 100) ∧ seen ≥ 2 ^ radix ∧ body.all (fun c => c ≤ mx) then
          mk (if lc = 98 then 2 else 10) body.length 0
        else mk (if seen < 2 ^ radix then radix else 0) s.length 0 := by
  have hpre : ¬ (hd (s ++ tail) = 48 ∧ toLower (hd ((s ++ tail).drop 1)) = 120) := by
    rintro ⟨-, h⟩
    cases s with
    | nil => exact hne rfl
    | cons c s =>
      cases s with
      | nil => exact hx (by simpa [hd] using h)
      | cons c' s => exact (isDigit_props (hs c' (by simp))).2.2.2.2.2 (by simpa [hd] using h)
  have htw : (s ++ tail).takeWhile isHexChar = s :=
    takeWhile_append (fun c hc => (isDigit_props (hs c hc)).1) ht (by decide)
  intro last seen mk
  unfold getNumber
  simp only [hpre, if_false, htw, List.drop_left, Nat.zero_add]
  rfl

theorem take_succ_length (s : List Nat) : List.take (s.length + 1) s = s := List.take_of_length_le (by omega)

theorem hd_eq (s : List Nat) : hd s = first s := rfl

theorem terminates_facts {c : Nat} (h : Terminates c) :
    isHexChar c = false ∧ toLower c ∉ [46, 104, 114, 121, 116, 113, 111, 120] := by
  obtain ⟨h1, h2⟩ := h
  constructor
  · cases hh : isHexChar c with
    | false => rfl
    | true => obtain ⟨d, hd⟩ := (isHexChar_iff c).mp hh; exact absurd hd (h1 d)
  · intro hm
    apply h2
    simp only [List.mem_cons, List.not_mem_nil, or_false] at hm ⊢
    unfold toLower at hm
    split at hm <;> omega

theorem digits_seen32 {s : List Nat} (hs : ∀ c ∈ s, IsDigit c (digitIdx c)) : digitsSeen s < 2 ^ 32 := by
  rw [digitsSeen_lt]
  intro c hc
  have := (isDigit_props (hs c hc)).2.2.2.1
  omega

/-- The result of `get_number` is a number token with the given base, digits and remainder. -/
theorem literal_of_tok {radix : Nat} {input s tail rest : List Nat} {b : Nat} (hb : b ≤ 16)
    (hs : ∀ c ∈ s, IsDigit c (digitIdx c)) (hne : s ≠ []) (hx : hd tail ≠ 120 ∧ hd tail ≠ 88)
    (h : getNumber radix input = ⟨.num, b, s.length, s ++ tail, rest⟩) :
    literal radix input = some (posVal b (s.map digitIdx) % 2 ^ 128, rest) := by
  unfold literal
  simp only [h, if_true]
  rw [myatoi128_digits b hb s tail hs hne hx]

theorem mem_hexSuffix {x : Nat} : isHexChar x = false ↔ ∀ d, ¬ IsDigit x d := by
  constructor
  · intro h d hd; have := (isDigit_props hd).1; simp [h] at this
  · intro h
    cases hh : isHexChar x with
    | false => rfl
    | true => obtain ⟨d, hd⟩ := (isHexChar_iff x).mp hh; exact absurd hd (h d)

/-- **Main lemma**: each documented notation is read with its documented value. -/
theorem literal_correct (radix : Nat) (hr : 2 ≤ radix) (hr' : radix ≤ 16) (text rest : List Nat) (v : Nat)
    (h : Literal radix text v rest) : literal radix text = some (v % 2 ^ 128, rest) := by
  cases h with
  | @hex s ds _ x hd hne hx =>
    obtain ⟨h1, rfl, h3, h4⟩ := digits_props hd
    have hx' : x = 104 ∨ x = 72 := by simpa using hx
    have e := getNumber_digits radix s (x :: rest) h4 hne (by rcases hx' with rfl | rfl <;> rfl) (by rcases hx' with rfl | rfl <;> simp [Num.hd, toLower])
    have hl : toLower (Num.hd (x :: rest)) = 104 := by rcases hx' with rfl | rfl <;> rfl
    refine literal_of_tok (s := s) (tail := [x]) (by decide) h4 hne (by rcases hx' with rfl | rfl <;> decide) ?_
    rw [e]
    simp only [hl]
    simp [List.take_append, List.drop_append, take_succ_length]
  | @bin s ds _ x hd hne hx =>
    obtain ⟨h1, rfl, h3, h4⟩ := digits_props hd
    have hx' : x = 121 ∨ x = 89 := by simpa using hx
    have e := getNumber_digits radix s (x :: rest) h4 hne (by rcases hx' with rfl | rfl <;> rfl) (by rcases hx' with rfl | rfl <;> simp [Num.hd, toLower])
    have hl : toLower (Num.hd (x :: rest)) = 121 := by rcases hx' with rfl | rfl <;> rfl
    have hok : okNum (digitsSeen s) 0x3 = true :=
      (okNum_iff s 2 (by decide) (digits_seen32 h4)).mpr (fun c hc => h3 _ (List.mem_map_of_mem hc))
    refine literal_of_tok (s := s) (tail := [x]) (by decide) h4 hne (by rcases hx' with rfl | rfl <;> decide) ?_
    rw [e]
    simp only [hl]
    simp [List.take_append, List.drop_append, take_succ_length, hok]
  | @dec s ds _ x hd hne hx =>
    obtain ⟨h1, rfl, h3, h4⟩ := digits_props hd
    have hx' : x = 116 ∨ x = 84 := by simpa using hx
    have e := getNumber_digits radix s (x :: rest) h4 hne (by rcases hx' with rfl | rfl <;> rfl) (by rcases hx' with rfl | rfl <;> simp [Num.hd, toLower])
    have hl : toLower (Num.hd (x :: rest)) = 116 := by rcases hx' with rfl | rfl <;> rfl
    have hok : okNum (digitsSeen s) 0x3ff = true :=
      (okNum_iff s 10 (by decide) (digits_seen32 h4)).mpr (fun c hc => h3 _ (List.mem_map_of_mem hc))
    refine literal_of_tok (s := s) (tail := [x]) (by decide) h4 hne (by rcases hx' with rfl | rfl <;> decide) ?_
    rw [e]
    simp only [hl]
    simp [List.take_append, List.drop_append, take_succ_length, hok]
  | @oct s ds _ x hd hne hx =>
    obtain ⟨h1, rfl, h3, h4⟩ := digits_props hd
    have hx' : x = 111 ∨ x = 79 ∨ x = 113 ∨ x = 81 := by simpa using hx
    have e := getNumber_digits radix s (x :: rest) h4 hne (by rcases hx' with rfl | rfl | rfl | rfl <;> rfl) (by rcases hx' with rfl | rfl | rfl | rfl <;> simp [Num.hd, toLower])
    have hl : toLower (Num.hd (x :: rest)) = 113 ∨ toLower (Num.hd (x :: rest)) = 111 := by
      rcases hx' with rfl | rfl | rfl | rfl <;> simp [Num.hd, toLower]
    have hok : okNum (digitsSeen s) 0xff = true :=
      (okNum_iff s 8 (by decide) (digits_seen32 h4)).mpr (fun c hc => h3 _ (List.mem_map_of_mem hc))
    refine literal_of_tok (s := s) (tail := [x]) (by decide) h4 hne (by rcases hx' with rfl | rfl | rfl | rfl <;> decide) ?_
    rw [e]
    rcases hl with hl | hl <;> simp only [hl] <;> simp [List.take_append, List.drop_append, take_succ_length, hok]
  | @chex s ds _ x hd hne hx hr1 hr2 =>
    obtain ⟨h1, rfl, h3, h4⟩ := digits_props hd
    have hx' : x = 120 ∨ x = 88 := by simpa using hx
    have hpre : Num.hd (48 :: x :: (s ++ rest)) = 48 ∧ toLower (Num.hd ((48 :: x :: (s ++ rest)).drop 1)) = 120 := by
      rcases hx' with rfl | rfl <;> simp [Num.hd, toLower]
    have htw : (s ++ rest).takeWhile isHexChar = s :=
      takeWhile_append (fun c hc => (isDigit_props (h4 c hc)).1) (mem_hexSuffix.mpr hr1) (by decide)
    have hlast : toLower (Num.hd rest) ≠ 46 := by
      have : Num.hd rest ≠ 46 := hr2
      unfold toLower; split <;> omega
    have hseen : digitsSeen s ≠ 0 := by
      intro h0
      cases s with
      | nil => exact hne rfl
      | cons c s =>
        have := (digitsSeen_lt (c :: s) 0).mp (by omega) c (by simp)
        omega
    have hg : getNumber radix (48 :: x :: (s ++ rest)) = ⟨.num, 16, s.length, 48 :: x :: s, rest⟩ := by
      unfold getNumber
      have hp2 : toLower (Num.hd (x :: (s ++ rest))) = 120 := hpre.2
      have hp1 : Num.hd (48 :: x :: (s ++ rest)) = 48 := rfl
      simp only [hp1, hp2, and_self, if_true, List.drop_succ_cons, List.drop_zero, htw, List.drop_left, hlast, if_false, hseen]
      have e1 : 2 + s.length + 0 = (48 :: x :: s).length := by simp; omega
      have e2 : (48 :: x :: (s ++ rest)) = (48 :: x :: s) ++ rest := rfl
      rw [e1, e2, List.take_left, List.drop_left]; rfl
    unfold literal
    simp only [hg, if_true]
    rw [myatoi128_chex s x hx' h4 hne]
  | @plain s ds _ hd hne ht =>
    obtain ⟨h1, rfl, h3, h4⟩ := digits_props hd
    obtain ⟨t1, t2⟩ := terminates_facts ht
    simp only [List.mem_cons, List.not_mem_nil, or_false, not_or] at t2
    rw [← hd_eq] at t1 t2
    have e := getNumber_digits radix s rest h4 hne t1 (by omega)
    have hlt : digitsSeen s < 2 ^ radix := (digitsSeen_lt s radix).mpr (fun c hc => h3 _ (List.mem_map_of_mem hc))
    have hge : ¬ (digitsSeen s ≥ 2 ^ radix) := by omega
    refine literal_of_tok (s := s) (tail := []) hr' h4 hne (by decide) ?_
    rw [e]
    simp only [t2, if_false, hge, hlt, false_and, and_false, or_self, if_true]
    simp [show radix ≠ 0 by omega]
  | @binB s ds _ x hd hne hx hrad ht =>
    obtain ⟨h1, rfl, h3, h4⟩ := digits_props hd
    obtain ⟨t1, t2⟩ := terminates_facts ht
    simp only [List.mem_cons, List.not_mem_nil, or_false, not_or] at t2
    rw [← hd_eq] at t1 t2
    have hx' : x = 98 ∨ x = 66 := by simpa using hx
    have hxd : IsDigit x (digitIdx x) := by
      rcases hx' with rfl | rfl
      · exact Or.inr ⟨by decide, by decide, Or.inl rfl⟩
      · exact Or.inr ⟨by decide, by decide, Or.inr rfl⟩
    have hx11 : digitIdx x = 11 := by rcases hx' with rfl | rfl <;> rfl
    have h4' : ∀ c ∈ s ++ [x], IsDigit c (digitIdx c) := by
      intro c hc
      rcases List.mem_append.mp hc with hc | hc
      · exact h4 c hc
      · simp at hc; subst hc; exact hxd
    have e := getNumber_digits radix (s ++ [x]) rest h4' (by simp) t1 (by omega)
    have hge : digitsSeen (s ++ [x]) ≥ 2 ^ radix := by
      apply Nat.le_of_not_lt; intro hlt
      have := (digitsSeen_lt _ _).mp hlt x (by simp)
      omega
    have hlc : toLower ((s ++ [x]).getLastD 0) = 98 := by
      rcases hx' with rfl | rfl <;> simp [List.getLastD_eq_getLast?, toLower]
    have hbody : (s ++ [x]).dropLast = s := by simp
    have hall : s.all (fun c => decide (c ≤ 49)) = true := by
      rw [List.all_eq_true]; intro c hc
      have a := h3 _ (List.mem_map_of_mem hc)
      have b := h4 c hc
      unfold IsDigit at b; simp; omega
    have hs0 : s.length ≠ 0 := by cases s <;> simp_all
    refine literal_of_tok (s := s) (tail := [x]) (by decide) h4 hne (by rcases hx' with rfl | rfl <;> decide) ?_
    have e2 : s ++ x :: rest = (s ++ [x]) ++ rest := by simp
    rw [e2, e]
    simp only [t2, if_false, hlc, hbody, hge, if_true, hall, or_true, true_or, and_self, or_self]
    simp [List.take_append, List.drop_append, take_succ_length]
  | @decD s ds _ x hd hne hx hrad ht =>
    obtain ⟨h1, rfl, h3, h4⟩ := digits_props hd
    obtain ⟨t1, t2⟩ := terminates_facts ht
    simp only [List.mem_cons, List.not_mem_nil, or_false, not_or] at t2
    rw [← hd_eq] at t1 t2
    have hx' : x = 100 ∨ x = 68 := by simpa using hx
    have hxd : IsDigit x (digitIdx x) := by
      rcases hx' with rfl | rfl
      · exact Or.inr ⟨by decide, by decide, Or.inl rfl⟩
      · exact Or.inr ⟨by decide, by decide, Or.inr rfl⟩
    have hx13 : digitIdx x = 13 := by rcases hx' with rfl | rfl <;> rfl
    have h4' : ∀ c ∈ s ++ [x], IsDigit c (digitIdx c) := by
      intro c hc
      rcases List.mem_append.mp hc with hc | hc
      · exact h4 c hc
      · simp at hc; subst hc; exact hxd
    have e := getNumber_digits radix (s ++ [x]) rest h4' (by simp) t1 (by omega)
    have hge : digitsSeen (s ++ [x]) ≥ 2 ^ radix := by
      apply Nat.le_of_not_lt; intro hlt
      have := (digitsSeen_lt _ _).mp hlt x (by simp)
      omega
    have hlc : toLower ((s ++ [x]).getLastD 0) = 100 := by
      rcases hx' with rfl | rfl <;> simp [List.getLastD_eq_getLast?, toLower]
    have hbody : (s ++ [x]).dropLast = s := by simp
    have hall : s.all (fun c => decide (c ≤ 57)) = true := by
      rw [List.all_eq_true]; intro c hc
      have a := h3 _ (List.mem_map_of_mem hc)
      have b := h4 c hc
      unfold IsDigit at b; simp; omega
    refine literal_of_tok (s := s) (tail := [x]) (by decide) h4 hne (by rcases hx' with rfl | rfl <;> decide) ?_
    have e2 : s ++ x :: rest = (s ++ [x]) ++ rest := by simp
    rw [e2, e]
    simp only [t2, if_false, hlc, hbody, hge, show (100 : Nat) ≠ 98 by decide, if_true, hall, or_true, true_or, and_self, or_self]
    simp [List.take_append, List.drop_append, take_succ_length]

/-! ## number to text -/

theorem digitChar_isDigit {d : Nat} (h : d < 16) : IsDigit (digitChar d) d := by
  unfold IsDigit digitChar; split <;> omega

/-- Digits of a number, most significant first (no leading zero; empty for 0). -/
def digs (radix : Nat) : (fuel : Nat) → Nat → List Nat
  | 0, _ => []
  | f + 1, v => if v = 0 then [] else digs radix f (v / radix) ++ [v % radix]

theorem toaLoop_eq (radix : Nat) (hr : 2 ≤ radix) : ∀ (room v : Nat) (acc : List Nat), v < radix ^ room →
    toaLoop radix room v acc = some ((digs radix room v).map digitChar ++ acc)
  | 0, v, acc, h => by simp at h; simp [toaLoop, digs, h]
  | room + 1, v, acc, h => by
    unfold toaLoop digs
    by_cases h0 : v = 0
    · simp [h0]
    · simp only [h0, if_false]
      rw [toaLoop_eq radix hr room _ _ (Nat.div_lt_of_lt_mul (by rw [Nat.pow_succ, Nat.mul_comm] at h; exact h))]
      simp

theorem digs_lt (radix : Nat) (hr : 2 ≤ radix) : ∀ (f v : Nat), ∀ d ∈ digs radix f v, d < radix
  | 0, _, d, h => by simp [digs] at h
  | f + 1, v, d, h => by
    unfold digs at h
    split at h
    · simp at h
    · rcases List.mem_append.mp h with h | h
      · exact digs_lt radix hr f _ d h
      · simp at h; subst h; exact Nat.mod_lt _ (by omega)

theorem digs_posVal (radix : Nat) (hr : 2 ≤ radix) : ∀ (f v : Nat), v < radix ^ f → posVal radix (digs radix f v) = v
  | 0, v, h => by simp at h; simp [digs, posVal, h]
  | f + 1, v, h => by
    unfold digs
    split
    · next h0 => simp [posVal, h0]
    · rw [posVal_append, digs_posVal radix hr f _ (Nat.div_lt_of_lt_mul (by rw [Nat.pow_succ, Nat.mul_comm] at h; exact h)),
        Nat.mul_comm]
      exact Nat.div_add_mod v radix

theorem digs_ne_nil (radix f v : Nat) (hf : f ≠ 0) (hv : v ≠ 0) : digs radix f v ≠ [] := by
  cases f with
  | zero => exact absurd rfl hf
  | succ f => unfold digs; simp [hv]

theorem digits_of_map (base : Nat) (hb : base ≤ 16) : ∀ ds : List Nat, (∀ d ∈ ds, d < base) → Digits base (ds.map digitChar) ds
  | [], _ => trivial
  | d :: ds, h => ⟨digitChar_isDigit (by have := h d (by simp); omega), h d (by simp),
      digits_of_map base hb ds (fun d' h' => h d' (List.mem_cons_of_mem _ h'))⟩

end Verif.Num
