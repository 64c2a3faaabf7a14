/-!
# C40: conversion of UTF-8 literals to UTF-16 (string.c 99-207 `UTF8toWideChar`)

Modelled completely; `unsigned long` has 64 bits (Linux; with 32 bits the values below are the same).
Left out: the result `nSourceDone` (all callers pass NULL) and the mode without target buffer.
-/

namespace Verif.Strings.Utf

abbrev Byte := BitVec 8
abbrev Wide := BitVec 16

/-- string.c 101 -/
def offsetsFromUTF8 (nTrailing : Nat) : BitVec 64 :=
  match nTrailing with
  | 0 => 0x00000000#64 | 1 => 0x00003080#64 | 2 => 0x000E2080#64 | _ => 0x03C82080#64

/-- string.c 122-152: the number of trailing bytes announced by a lead byte; `none`: skip this byte. -/
def trailing (b : Byte) : Option Nat :=
  if b < 0x80#8 then some 0
  else if b < 0xC0#8 then none
  else if b < 0xE0#8 then some 1
  else if b < 0xF0#8 then some 2
  else if b < 0xF8#8 then some 3
  else none

/-- string.c 155-180: accumulate `n` trailing bytes. -/
def gather (n : Nat) (acc : BitVec 64) (src : List Byte) : BitVec 64 × List Byte :=
  match n, src with
  | 0, c :: src => (acc + c.setWidth 64, src)
  | n + 1, c :: src => gather n ((acc + c.setWidth 64) <<< 6) src
  | _, [] => (acc, [])

theorem gather_len (n acc src) : (gather n acc src).2.length ≤ src.length := by
  induction src generalizing n acc with
  | nil => cases n <;> simp [gather]
  | cons c src ih =>
    cases n with
    | zero => simp [gather]
    | succ n => simp only [gather, List.length_cons]; have := ih n ((acc + c.setWidth 64) <<< 6); omega

/-- string.c 119-203: the loop. `room` = `pDstEnd - pDst`. Returns the code units written. -/
def convert (src : List Byte) (room : Nat) : List Wide :=
  match src with
  | [] => []
  | b :: src' =>
    if room = 0 then []
    else
      match trailing b with
      | none => convert src' room
      | some n =>
        -- `pSrc + n >= pSrcEnd` (for n > 0)
        if n > 0 ∧ n ≥ (b :: src').length then []
        else
          let g := gather n 0#64 (b :: src')
          let nChar := g.1 - offsetsFromUTF8 n
          if h : g.2.length < (b :: src').length then
            if nChar ≤ 0xFFFF#64 then
              nChar.setWidth 16 :: convert g.2 (room - 1)
            else if 1 ≥ room then []
            else
              let c := nChar - 0x10000#64
              ((c >>> 10) + 0xD800#64).setWidth 16 :: ((c &&& 0x3ff#64) + 0xDC00#64).setWidth 16 ::
                convert g.2 (room - 2)
          else []
termination_by src.length

/-! ## Specification: the two encodings of the Unicode standard -/

/-- UTF-8 encoding of a scalar value (RFC 3629, section 3). -/
def utf8 (c : Nat) : List Byte :=
  if c < 0x80 then [BitVec.ofNat 8 c]
  else if c < 0x800 then [BitVec.ofNat 8 (0xC0 + c / 64), BitVec.ofNat 8 (0x80 + c % 64)]
  else if c < 0x10000 then
    [BitVec.ofNat 8 (0xE0 + c / 4096), BitVec.ofNat 8 (0x80 + c / 64 % 64), BitVec.ofNat 8 (0x80 + c % 64)]
  else
    [BitVec.ofNat 8 (0xF0 + c / 262144), BitVec.ofNat 8 (0x80 + c / 4096 % 64),
      BitVec.ofNat 8 (0x80 + c / 64 % 64), BitVec.ofNat 8 (0x80 + c % 64)]

/-- UTF-16 encoding of a scalar value (RFC 2781, section 2.1). -/
def utf16 (c : Nat) : List Wide :=
  if c < 0x10000 then [BitVec.ofNat 16 c]
  else [BitVec.ofNat 16 (0xD800 + (c - 0x10000) / 1024), BitVec.ofNat 16 (0xDC00 + (c - 0x10000) % 1024)]

/-- A Unicode code point. -/
def IsCode (c : Nat) : Prop := c < 0x110000

theorem w64 {n : Nat} (h : n < 256) : (BitVec.ofNat 8 n).setWidth 64 = BitVec.ofNat 64 n := by
  apply BitVec.eq_of_toNat_eq
  simp only [BitVec.toNat_setWidth, BitVec.toNat_ofNat]
  omega

theorem trailing_of (n : Nat) (h : n < 256) : trailing (BitVec.ofNat 8 n) =
    if n < 0x80 then some 0 else if n < 0xC0 then none else if n < 0xE0 then some 1
    else if n < 0xF0 then some 2 else if n < 0xF8 then some 3 else none := by
  unfold trailing
  simp only [BitVec.lt_def, BitVec.toNat_ofNat, Nat.reducePow, Nat.reduceMod, Nat.mod_eq_of_lt h]

/-- The value computed from the bytes of a character. -/
theorem gather_utf8 (c : Nat) (hc : IsCode c) (rest : List Byte) :
    ∃ b bs n, utf8 c = b :: bs ∧ trailing b = some n ∧ bs.length = n ∧
      (gather n 0#64 (b :: (bs ++ rest))).2 = rest ∧
      (gather n 0#64 (b :: (bs ++ rest))).1 - offsetsFromUTF8 n = BitVec.ofNat 64 c := by
  unfold IsCode at hc
  unfold utf8
  by_cases h1 : c < 0x80
  · refine ⟨_, _, 0, by rw [if_pos h1], ?_, rfl, ?_, ?_⟩
    · rw [trailing_of _ (by omega)]; simp [h1]
    · simp [gather]
    · simp only [gather, List.nil_append, w64 (show c < 256 by omega), offsetsFromUTF8]
      simp
  · rw [if_neg h1]
    by_cases h2 : c < 0x800
    · rw [if_pos h2]
      refine ⟨_, _, 1, rfl, ?_, rfl, ?_, ?_⟩
      · rw [trailing_of _ (by omega), if_neg (by omega), if_neg (by omega), if_pos (by omega)]
      · simp [gather]
      · simp only [gather, List.cons_append, List.nil_append, offsetsFromUTF8, BitVec.zero_add]
        rw [w64 (by omega), w64 (by omega)]
        apply BitVec.eq_of_toNat_eq
        simp only [BitVec.toNat_sub, BitVec.toNat_add, BitVec.toNat_shiftLeft, BitVec.toNat_ofNat, Nat.shiftLeft_eq,
            Nat.reducePow, Nat.reduceMod, Nat.reduceSub, Nat.zero_add]
        omega
    · rw [if_neg h2]
      by_cases h3 : c < 0x10000
      · rw [if_pos h3]
        refine ⟨_, _, 2, rfl, ?_, rfl, ?_, ?_⟩
        · rw [trailing_of _ (by omega), if_neg (by omega), if_neg (by omega), if_neg (by omega), if_pos (by omega)]
        · simp [gather]
        · simp only [gather, List.cons_append, List.nil_append, offsetsFromUTF8, BitVec.zero_add]
          rw [w64 (by omega), w64 (by omega), w64 (by omega)]
          apply BitVec.eq_of_toNat_eq
          simp only [BitVec.toNat_sub, BitVec.toNat_add, BitVec.toNat_shiftLeft, BitVec.toNat_ofNat, Nat.shiftLeft_eq,
            Nat.reducePow, Nat.reduceMod, Nat.reduceSub, Nat.zero_add]
          omega
      · rw [if_neg h3]
        refine ⟨_, _, 3, rfl, ?_, rfl, ?_, ?_⟩
        · rw [trailing_of _ (by omega), if_neg (by omega), if_neg (by omega), if_neg (by omega), if_neg (by omega),
            if_pos (by omega)]
        · simp [gather]
        · simp only [gather, List.cons_append, List.nil_append, offsetsFromUTF8, BitVec.zero_add]
          rw [w64 (by omega), w64 (by omega), w64 (by omega), w64 (by omega)]
          apply BitVec.eq_of_toNat_eq
          simp only [BitVec.toNat_sub, BitVec.toNat_add, BitVec.toNat_shiftLeft, BitVec.toNat_ofNat, Nat.shiftLeft_eq,
            Nat.reducePow, Nat.reduceMod, Nat.reduceSub, Nat.zero_add]
          omega

theorem le_iff (c : Nat) (hcc : c < 0x110000) : (BitVec.ofNat 64 c ≤ 0xFFFF#64) ↔ c < 0x10000 := by
  simp only [BitVec.le_def, BitVec.toNat_ofNat, Nat.reducePow, Nat.reduceMod]; omega

theorem lo16 (c : Nat) : (BitVec.ofNat 64 c).setWidth 16 = BitVec.ofNat 16 c := by
  apply BitVec.eq_of_toNat_eq
  simp only [BitVec.toNat_setWidth, BitVec.toNat_ofNat, Nat.reducePow]; omega

theorem sub64 (c : Nat) (h : ¬ c < 0x10000) (hcc : c < 0x110000) :
    BitVec.ofNat 64 c - 0x10000#64 = BitVec.ofNat 64 (c - 0x10000) := by
  apply BitVec.eq_of_toNat_eq
  simp only [BitVec.toNat_sub, BitVec.toNat_ofNat, Nat.reducePow, Nat.reduceMod, Nat.reduceSub]; omega

theorem hi10 (d : Nat) (hd : d < 0x100000) :
    ((BitVec.ofNat 64 d >>> 10) + 0xD800#64).setWidth 16 = BitVec.ofNat 16 (0xD800 + d / 1024) := by
  apply BitVec.eq_of_toNat_eq
  simp only [BitVec.toNat_setWidth, BitVec.toNat_add, BitVec.toNat_ushiftRight, BitVec.toNat_ofNat,
    Nat.shiftRight_eq_div_pow, Nat.reducePow, Nat.reduceMod]
  omega

theorem lo10 (d : Nat) (hd : d < 0x100000) :
    ((BitVec.ofNat 64 d &&& 0x3ff#64) + 0xDC00#64).setWidth 16 = BitVec.ofNat 16 (0xDC00 + d % 1024) := by
  have hand : (BitVec.ofNat 64 d &&& 0x3ff#64) = BitVec.ofNat 64 (d % 1024) := by
    apply BitVec.eq_of_toNat_eq
    have : (0x3ff#64).toNat = 2 ^ 10 - 1 := rfl
    rw [BitVec.toNat_and, this, Nat.and_two_pow_sub_one_eq_mod]
    simp only [BitVec.toNat_ofNat, Nat.reducePow]
    omega
  rw [hand]
  apply BitVec.eq_of_toNat_eq
  simp only [BitVec.toNat_setWidth, BitVec.toNat_add, BitVec.toNat_ofNat, Nat.reducePow, Nat.reduceMod]
  omega

/-- **C40** A well-formed UTF-8 text is converted to the UTF-16 encoding of the same characters, given a
buffer that is large enough. -/
theorem C40_utf8_to_utf16 (cs : List Nat) (hc : ∀ c ∈ cs, IsCode c) (room : Nat)
    (hr : (cs.flatMap utf16).length ≤ room) : convert (cs.flatMap utf8) room = cs.flatMap utf16 := by
  induction cs generalizing room with
  | nil => simp [convert]
  | cons c cs ih =>
    have hcc := hc c (by simp)
    obtain ⟨b, bs, n, e, t, l, g2, g1⟩ := gather_utf8 c hcc (cs.flatMap utf8)
    simp only [List.flatMap_cons, List.length_append] at hr ⊢
    rw [e, List.cons_append]
    rw [convert.eq_def]
    have hu : 0 < (utf16 c).length := by unfold utf16; split <;> simp
    simp only []
    rw [if_neg (by omega)]
    simp only [t]
    rw [if_neg (by simp only [List.length_cons, List.length_append]; omega)]
    simp only [g1, g2]
    rw [dif_pos (by simp only [List.length_cons, List.length_append]; omega)]
    unfold IsCode at hcc
    have hle := le_iff c hcc
    by_cases h : c < 0x10000
    · rw [if_pos (hle.2 h)]
      have h16 : utf16 c = [BitVec.ofNat 16 c] := by unfold utf16; rw [if_pos h]
      rw [h16] at hr ⊢
      simp only [List.length_singleton] at hr
      rw [ih (fun x hx => hc x (by simp [hx])) (room - 1) (by omega)]
      rw [lo16]; rfl
    · rw [if_neg (fun x => h (hle.1 x))]
      have h16 : utf16 c = [BitVec.ofNat 16 (0xD800 + (c - 0x10000) / 1024),
          BitVec.ofNat 16 (0xDC00 + (c - 0x10000) % 1024)] := by unfold utf16; rw [if_neg h]
      rw [h16] at hr ⊢
      simp only [List.length_cons, List.length_nil] at hr
      rw [if_neg (by omega)]
      rw [ih (fun x hx => hc x (by simp [hx])) (room - 2) (by omega)]
      simp only [sub64 c h hcc]
      rw [hi10 _ (by omega), lo10 _ (by omega)]; rfl

/-- **C40** Whatever the bytes, at most `room` code units are written. -/
theorem C40_bounded (src : List Byte) (room : Nat) : (convert src room).length ≤ room := by
  induction h : src.length using Nat.strongRecOn generalizing src room with
  | ind n ih =>
    cases src with
    | nil => simp [convert]
    | cons b src' =>
      rw [convert.eq_def]
      simp only []
      split
      · simp
      · split
        · exact ih src'.length (by rw [← h]; simp) src' room rfl
        · split
          · simp
          · split
            · next hl =>
              rw [h] at hl
              split
              · have := ih _ hl _ (room - 1) rfl
                simp only [List.length_cons]; omega
              · split
                · simp
                · have := ih _ hl _ (room - 2) rfl
                  simp only [List.length_cons]; omega
            · simp

/-- The buffer size the callers pass, the number of bytes of the text, is always large enough. -/
theorem utf16_le_utf8 (cs : List Nat) : (cs.flatMap utf16).length ≤ (cs.flatMap utf8).length := by
  induction cs with
  | nil => simp
  | cons c cs ih =>
    simp only [List.flatMap_cons, List.length_append]
    have : (utf16 c).length ≤ (utf8 c).length := by
      unfold utf16 utf8
      repeat' split
      all_goals simp
      all_goals omega
    omega

/-- **C40** as called (data.c 813, invoke.c 3368): `UTF8toWideChar( s, len, NULL, buff, len )`. -/
theorem C40_as_called (cs : List Nat) (hc : ∀ c ∈ cs, IsCode c) :
    convert (cs.flatMap utf8) (cs.flatMap utf8).length = cs.flatMap utf16 :=
  C40_utf8_to_utf16 cs hc _ (utf16_le_utf8 cs)

example : convert ([0x61, 0xE9, 0x20AC, 0x1F600].flatMap utf8) 10 =
    [0x61#16, 0xE9#16, 0x20AC#16, 0xD83D#16, 0xDE00#16] := by
  rw [C40_utf8_to_utf16 _ (by simp [IsCode]) _ (by decide)]; decide

end Verif.Strings.Utf
