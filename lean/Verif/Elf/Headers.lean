import Verif.Elf.Layout
/-! Reading headers and names. -/
namespace Verif.Elf
open Coff

/-! ## Fields -/

theorem u8_skip (n v i : Nat) (r : List Byte) (h : n ≤ i) : u8 (le n v ++ r) i = u8 r (i - n) := by
  have := u8_append_right (le n v) r (i - n)
  rw [le_length, Nat.add_sub_cancel' h] at this
  exact this

theorem u16_skip (n v i : Nat) (r : List Byte) (h : n ≤ i) : u16 (le n v ++ r) i = u16 r (i - n) := by
  simp only [u16, u8_skip n v i r h, u8_skip n v (i + 1) r (by omega), show i + 1 - n = i - n + 1 by omega]

theorem u32_skip (n v i : Nat) (r : List Byte) (h : n ≤ i) : u32 (le n v ++ r) i = u32 r (i - n) := by
  simp only [u32, u16_skip n v i r h, u16_skip n v (i + 2) r (by omega), show i + 2 - n = i - n + 2 by omega]

theorem u64_skip (n v i : Nat) (r : List Byte) (h : n ≤ i) : u64 (le n v ++ r) i = u64 r (i - n) := by
  simp only [u64, u32_skip n v i r h, u32_skip n v (i + 4) r (by omega), show i + 4 - n = i - n + 4 by omega]

theorem le_split (a b v : Nat) : le (a + b) v = le a v ++ le b (v / 256 ^ a) := by
  induction a generalizing v with
  | zero => simp [le]
  | succ a ih =>
    rw [show a + 1 + b = (a + b) + 1 by omega]
    simp only [le, ih, List.cons_append]
    rw [Nat.div_div_eq_div_mul, Nat.pow_succ, Nat.mul_comm]

theorem u64_le (v : Nat) (r : List Byte) : u64 (le 8 v ++ r) 0 = v % 2 ^ 64 := by
  rw [show 8 = 4 + 4 by rfl, le_split, List.append_assoc, u64, u32_le, u32_skip _ _ _ _ (by omega), Nat.zero_add, Nat.sub_self,
    u32_le]
  omega

theorem u8_le (v : Nat) (r : List Byte) : u8 (le 1 v ++ r) 0 = v % 256 := by simp [u8, le]

theorem u32_le' (v : Nat) : u32 (le 4 v) 0 = v % 2 ^ 32 := by have := u32_le v []; simpa using this
theorem u16_le' (v : Nat) : u16 (le 2 v) 0 = v % 65536 := by have := u16_le v []; simpa using this
theorem u64_le' (v : Nat) : u64 (le 8 v) 0 = v % 2 ^ 64 := by have := u64_le v []; simpa using this

theorem u64_slice (f : List Byte) (o n i : Nat) (h : i + 7 < n) : u64 (slice f o n) i = u64 f (o + i) := by
  simp only [u64, u32_slice f o n i (by omega), u32_slice f o n (i + 4) (by omega), Nat.add_assoc]

/-- A header read from its bytes. -/
def decodeShdr (c64 : Bool) (f : List Byte) : Shdr :=
  if c64 then ⟨u32 f 0, u32 f 4, u64 f 8, u64 f 16, u64 f 24, u64 f 32, u32 f 40, u32 f 44, u64 f 48, u64 f 56⟩
  else ⟨u32 f 0, u32 f 4, u32 f 8, u32 f 12, u32 f 16, u32 f 20, u32 f 24, u32 f 28, u32 f 32, u32 f 36⟩

def W (b64 : Bool) : Nat := if b64 then 2 ^ 64 else 2 ^ 32

theorem shdr_length (b : Bool) (n t f o s l i a e : Nat) : (shdr b n t f o s l i a e).length = shSize b := by
  simp only [shdr, shSize]; cases b <;> simp

theorem decode_shdr (b : Bool) (n t f o s l i a e : Nat) : decodeShdr b (shdr b n t f o s l i a e) =
    ⟨n % 2 ^ 32, t % 2 ^ 32, f % W b, 0, o % W b, s % W b, l % 2 ^ 32, i % 2 ^ 32, a % W b, e % W b⟩ := by
  cases b
  · simp only [decodeShdr, shdr, W, Bool.false_eq_true, if_false, List.append_assoc]
    simp [u32_skip, u32_le, u32_le']
  · simp only [decodeShdr, shdr, W, if_true, List.append_assoc]
    simp [u32_skip, u64_skip, u32_le, u64_le, u64_le']

/-! ## Names -/

theorem name_step (tab s rest : List Byte) (p : Nat) (h : tab.drop p = s ++ 0 :: rest) (hs : (0 : Byte) ∉ s) :
    cstr tab p = s ∧ tab.drop (nextName tab p) = rest ∧ nextName tab p = p + s.length + 1 ∧ p < tab.length := by
  have h1 : cstr tab p = s := by rw [cstr, h]; exact takeWhile_append_stop s rest hs
  have h2 : nextName tab p = p + s.length + 1 := by
    rw [nextName, show (tab.drop p).takeWhile (· ≠ 0) = s from h1]
  refine ⟨h1, ?_, h2, ?_⟩
  · rw [h2, Nat.add_assoc, ← List.drop_drop, h, ← List.drop_drop, List.drop_left]; rfl
  · have : (tab.drop p).length ≠ 0 := by rw [h]; simp
    simp at this; omega

/-! ## Section headers -/

theorem secHdrs_spec (b64 : Bool) (tab : List Byte) : ∀ (l : List Sec) (off p : Nat) (rest : List Byte),
    tab.drop p = l.flatMap (fun s => secName s ++ [0]) ++ rest → (∀ s ∈ l, (0 : Byte) ∉ secName s) →
    (secHdrs b64 tab off p l).1.length = l.length ∧
    (secHdrs b64 tab off p l).2.1 = secOffs off l ∧ (secHdrs b64 tab off p l).2.2.1 = secEnd off l ∧
    tab.drop (secHdrs b64 tab off p l).2.2.2 = rest ∧
    (∀ r ∈ (secHdrs b64 tab off p l).1, r.length = shSize b64) ∧
    ∀ (i : Nat) s, l[i]? = some s → ∃ q o, (secOffs off l)[i]? = some o ∧ cstr tab q = secName s ∧ q < tab.length ∧
      (secHdrs b64 tab off p l).1[i]? = some (shdr b64 q (shType s) (shFlags s) o s.size 0 0 (alignOf s) 0)
  | [], off, p, rest, h, _ => by simp [secHdrs, secOffs, secEnd, h]
  | s :: r, off, p, rest, h, hn => by
    have h' : tab.drop p = secName s ++ 0 :: (r.flatMap (fun s => secName s ++ [0]) ++ rest) := by
      rw [h]; simp
    obtain ⟨a1, a2, a3, a4⟩ := name_step tab _ _ p h' (hn s (by simp))
    obtain ⟨b0, b1, b2, b3, b4, b5⟩ := secHdrs_spec b64 tab r (nextOff off s) (nextName tab p) rest a2 (fun x hx => hn x (by simp [hx]))
    simp only [secHdrs]
    refine ⟨by simp [b0], by simp [secOffs, b1], by simp [secEnd, b2], b3, ?_, ?_⟩
    · intro x hx
      rcases List.mem_cons.1 hx with rfl | hx
      · exact shdr_length ..
      · exact b4 x hx
    · intro i x hi
      cases i with
      | zero =>
        simp at hi
        subst hi
        exact ⟨p, off, by simp [secOffs], a1, a4, by simp⟩
      | succ i =>
        obtain ⟨q, o, c1, c2, c3, c4⟩ := b5 i x (by simpa using hi)
        exact ⟨q, o, by simpa [secOffs] using c1, c2, c3, by simpa using c4⟩

def hasFix (s : Sec) : Bool := !s.fixups.isEmpty

theorem relHdrs_spec (m : Mod) (tab : List Byte) : ∀ (l : List Sec) (i0 off p : Nat) (rest : List Byte),
    tab.drop p = (l.filter hasFix).flatMap (fun s => relPrefix m.b64 ++ secName s ++ [0]) ++ rest →
    (∀ s ∈ l, (0 : Byte) ∉ secName s) →
    (relHdrs m tab i0 off p l).1.length = (l.filter hasFix).length ∧
    (relHdrs m tab i0 off p l).2.1 = relOffs m off l ∧
    (∀ r ∈ (relHdrs m tab i0 off p l).1, r.length = shSize m.b64) ∧
    ∀ (i : Nat) s, l[i]? = some s → s.fixups ≠ [] → ∃ q o, (relOffs m off l)[i]? = some o ∧
      cstr tab q = relPrefix m.b64 ++ secName s ∧ q < tab.length ∧
      (relHdrs m tab i0 off p l).1[((l.take i).filter hasFix).length]? = some (shdr m.b64 q (if m.b64 then 4 else 9) 0 o (relSz m s)
        (1 + m.secs.length + 1) (i0 + i + 1) 4 (if m.b64 then 24 else 8))
  | [], i0, off, p, rest, h, _ => by simp [relHdrs, relOffs]
  | s :: r, i0, off, p, rest, h, hn => by
    by_cases hf : s.fixups.isEmpty = true
    · have hh : hasFix s = false := by simp [hasFix, hf]
      rw [List.filter_cons_of_neg (by simp [hh])] at h
      obtain ⟨b0, b1, b2, b3⟩ := relHdrs_spec m tab r (i0 + 1) off p rest h (fun x hx => hn x (by simp [hx]))
      simp only [relHdrs, hf, if_true]
      refine ⟨by rw [List.filter_cons_of_neg (by simp [hh])]; exact b0, by simp [relOffs, b1, hf], b2, ?_⟩
      intro i x hi hx
      cases i with
      | zero => simp at hi; subst hi; exact absurd (List.isEmpty_iff.1 hf) hx
      | succ i =>
        obtain ⟨q, o, c1, c2, c3, c4⟩ := b3 i x (by simpa using hi) hx
        refine ⟨q, o, by simpa [relOffs, hf] using c1, c2, c3, ?_⟩
        rw [List.take_succ_cons, List.filter_cons_of_neg (by simp [hh]), c4]
        rw [show i0 + 1 + i + 1 = i0 + (i + 1) + 1 by omega]
    · have hf' : s.fixups.isEmpty = false := by simpa using hf
      have hh : hasFix s = true := by simp [hasFix, hf']
      rw [List.filter_cons_of_pos hh] at h
      have h' : tab.drop p = (relPrefix m.b64 ++ secName s) ++ 0 ::
          ((r.filter hasFix).flatMap (fun s => relPrefix m.b64 ++ secName s ++ [0]) ++ rest) := by
        rw [h]; simp
      have hz : (0 : Byte) ∉ relPrefix m.b64 ++ secName s := by
        intro hc
        rcases List.mem_append.1 hc with hc | hc
        · revert hc; simp only [relPrefix]; split <;> decide
        · exact hn s (by simp) hc
      obtain ⟨a1, a2, a3, a4⟩ := name_step tab _ _ p h' hz
      obtain ⟨b0, b1, b2, b3⟩ := relHdrs_spec m tab r (i0 + 1) (align16 (off + relSz m s)) (nextName tab p) rest a2
        (fun x hx => hn x (by simp [hx]))
      have e : relHdrs m tab i0 off p (s :: r) =
          (shdr m.b64 p (if m.b64 then 4 else 9) 0 off (relSz m s) (1 + m.secs.length + 1) (i0 + 1) 4 (if m.b64 then 24 else 8)
            :: (relHdrs m tab (i0 + 1) (align16 (off + relSz m s)) (nextName tab p) r).1,
           off :: (relHdrs m tab (i0 + 1) (align16 (off + relSz m s)) (nextName tab p) r).2.1,
           (relHdrs m tab (i0 + 1) (align16 (off + relSz m s)) (nextName tab p) r).2.2) := by
        simp only [relHdrs, hf', Bool.false_eq_true, if_false, relSz]
      rw [e]
      refine ⟨by rw [List.filter_cons_of_pos hh]; simp [b0], by simp [relOffs, b1, hf'], ?_, ?_⟩
      · intro x hx
        rcases List.mem_cons.1 hx with rfl | hx
        · exact shdr_length ..
        · exact b2 x hx
      · intro i x hi hx
        cases i with
        | zero =>
          simp at hi
          subst hi
          exact ⟨p, off, by simp [relOffs], a1, a4, by simp⟩
        | succ i =>
          obtain ⟨q, o, c1, c2, c3, c4⟩ := b3 i x (by simpa using hi) hx
          refine ⟨q, o, by simpa [relOffs, hf'] using c1, c2, c3, ?_⟩
          rw [List.take_succ_cons, List.filter_cons_of_pos hh, List.length_cons, List.getElem?_cons_succ, c4]
          rw [show i0 + 1 + i + 1 = i0 + (i + 1) + 1 by omega]

/-! ## Section name conversion -/

theorem convName_step (n src dst : List Byte) (grp : Bool) (r : List (List Byte × List Byte × Bool)) :
    convName n ((src, dst, grp) :: r) = if n = src then dst
      else if grp = true ∧ (src ++ [0x24]).isPrefixOf n then dst ++ n.drop src.length else convName n r := by
  simp only [convName]
  by_cases h : n.take src.length = src
  · rw [if_pos h]
    have hd := List.take_append_drop src.length n
    rw [h] at hd
    cases hc : n.drop src.length with
    | nil =>
      rw [hc, List.append_nil] at hd
      simp [hd]
    | cons c t =>
      have hne : n ≠ src := by
        intro e
        have := congrArg List.length hc
        rw [e] at this
        simp at this
      rw [if_neg hne]
      rw [hc] at hd
      simp only
      have hp : ((src ++ [0x24]).isPrefixOf n = true) ↔ c = 0x24 := by
        rw [List.isPrefixOf_iff_prefix, ← hd]
        rw [List.prefix_append_right_inj]
        simp [List.cons_prefix_cons, eq_comm]
      simp only [hp]
  · rw [if_neg h]
    have hne : n ≠ src := by intro e; rw [e] at h; simp at h
    rw [if_neg hne, if_neg]
    rintro ⟨_, hp⟩
    rw [List.isPrefixOf_iff_prefix] at hp
    obtain ⟨t, ht⟩ := hp
    rw [← ht] at h
    simp at h

theorem convName_nil (n : List Byte) : convName n [] = n := rfl

theorem convName_eq (n : List Byte) : convName n cst = elfName n := by
  have hl : ∀ a : String, (ascii a).length = a.length := by intro a; simp only [ascii, List.length_map]; exact String.length_toList ..
  simp only [cst, convName_step, elfName, convName_nil]
  have e : ∀ a : String, ascii a ++ [0x24] = ascii a ++ ascii "$" := fun _ => rfl
  simp only [e, hl, true_and, Bool.false_eq_true, false_and, if_false]
  repeat' split
  all_goals first | rfl | simp

theorem secName_eq (s : Sec) : secName s = sectionName s := by
  simp only [secName, sectionName]
  cases s.aliasName <;> simp [convName_eq]

theorem ascii_no_zero : ∀ a ∈ [".text", ".data", ".rodata", ".bss"], (0 : Byte) ∉ ascii a := by decide

theorem elfName_no_zero (n : List Byte) (h : (0 : Byte) ∉ n) : (0 : Byte) ∉ elfName n := by
  rw [← convName_eq]
  have hd : ∀ k, (0 : Byte) ∉ n.drop k := fun k hk => h (List.mem_of_mem_drop hk)
  have hz : ∀ a ∈ [".text", ".data", ".rodata", ".bss"], (0 : Byte) ∉ ascii a := ascii_no_zero
  simp only [cst, convName_step, convName_nil]
  repeat' split
  all_goals (try (exact hz _ (by simp)))
  all_goals (try (intro hc; rcases List.mem_append.1 hc with hc | hc; exact hz _ (by simp) hc; exact hd _ hc))
  exact h

end Verif.Elf
