import Verif.Mangle.Model
/-! # Property theorems: name decoration (C09) -/
namespace Verif.Mangle

/-- Value of a decimal digit string. -/
def val (l : List Char) : Nat := l.foldl (fun a c => 10 * a + (c.toNat - 48)) 0

theorem digit_toNat (n : Nat) (h : n < 10) : (Char.ofNat (48 + n)).toNat = 48 + n := by
  have : ∀ n : Fin 10, (Char.ofNat (48 + n.1)).toNat = 48 + n.1 := by decide
  exact this ⟨n, h⟩

theorem val_decNat (n : Nat) : val (decNat n) = n := by
  induction n using decNat.induct with
  | case1 n h =>
    unfold decNat; rw [if_pos h]
    simp [val, digit_toNat n h]
  | case2 n h ih =>
    unfold decNat; rw [if_neg h]
    simp only [val, List.foldl_append] at ih ⊢
    rw [ih]; simp [digit_toNat (n % 10) (by omega)]; omega

theorem decNat_digits (n : Nat) : decNat n ≠ [] ∧ ∀ c ∈ decNat n, 48 ≤ c.toNat ∧ c.toNat ≤ 57 := by
  induction n using decNat.induct with
  | case1 n h =>
    unfold decNat; rw [if_pos h]
    simp [digit_toNat n h]; omega
  | case2 n h ih =>
    unfold decNat; rw [if_neg h]
    refine ⟨by simp, ?_⟩
    intro c hc
    simp only [List.mem_append, List.mem_singleton] at hc
    rcases hc with hc | rfl
    · exact ih.2 c hc
    · rw [digit_toNat _ (by omega)]; omega

theorem decNat_inj {a b : Nat} (h : decNat a = decNat b) : a = b := by
  rw [← val_decNat a, h, val_decNat]

theorem decInt_inj {a b : Int} (h : decInt a = decInt b) : a = b := by
  unfold decInt at h
  have neg : ∀ n : Nat, decNat n ≠ [] ∧ (decNat n).head? ≠ some '-' := by
    intro n
    have := decNat_digits n
    refine ⟨this.1, ?_⟩
    intro hh
    have := this.2 '-' (List.mem_of_mem_head? hh)
    simp at this
  split at h <;> split at h
  · have := decNat_inj (List.cons.inj h).2; omega
  · exfalso; apply (neg b.natAbs).2; rw [← h]; rfl
  · exfalso; apply (neg a.natAbs).2; rw [h]; rfl
  · have := decNat_inj h; omega

theorem decInt_no_at (i : Int) : '@' ∉ decInt i := by
  unfold decInt
  have : ∀ n : Nat, '@' ∉ decNat n := by
    intro n hn
    have := (decNat_digits n).2 _ hn
    simp at this
  split
  · simp [this]
  · exact this _

theorem decNat_no_at (n : Nat) : '@' ∉ decNat n := by
  intro hn
  have := (decNat_digits n).2 _ hn
  simp at this

/-- The documented external name. `bits64` selects Win64. -/
def documented (bits64 : Bool) (s : Sym) : List Char :=
  let n := s.parasize.toNat
  match s.lang, s.isproc, bits64 with
  | .c, _, _ => ['_'] ++ s.name
  | .stdcall, true, _ => ['_'] ++ s.name ++ ['@'] ++ decNat n
  | .stdcall, false, _ => ['_'] ++ s.name
  | .pascal, _, _ | .fortran, _, _ | .basic, _, _ => s.name.map upr
  | .fastcall, true, false => ['@'] ++ s.name ++ ['@'] ++ decNat n
  | .vectorcall, true, _ => s.name ++ ['@', '@'] ++ decNat n
  | _, _, _ => s.name

/-- Default options, `cmdline.c` 115-116. -/
def defaults (bits64 : Bool) : Opts :=
  ⟨false, .full, .full, if bits64 then .win64 else .msc, if bits64 then .win64 else .msc⟩

/-- **C09** The external name is the documented decoration (parameter size below 2^31). -/
theorem C09_documented (bits64 : Bool) (s : Sym) (h : s.parasize.toNat < 2 ^ 31) :
    mangle (defaults bits64) s = documented bits64 s := by
  have hi : decInt s.parasize.toInt = decNat s.parasize.toNat := by
    rw [BitVec.toInt_eq_toNat_of_lt (by omega)]
    simp [decInt]
  obtain ⟨name, lang, isproc, mem, ps⟩ := s
  simp only at h hi
  cases lang <;> cases isproc <;> cases bits64 <;>
    simp [mangle, documented, defaults, voidMangler, uscoreMangler, stdcallMangler, ucaseMangler, ms32, ms64, hi]

theorem append_at_inj (a b x y : List Char) (hx : '@' ∉ x) (hy : '@' ∉ y) (h : a ++ '@' :: x = b ++ '@' :: y) :
    a = b ∧ x = y := by
  have h' := congrArg List.reverse h
  simp only [List.reverse_append, List.reverse_cons, List.append_assoc, List.singleton_append] at h'
  have key : ∀ (p q r s : List Char), '@' ∉ p → '@' ∉ q → p ++ '@' :: r = q ++ '@' :: s → p = q ∧ r = s := by
    intro p
    induction p with
    | nil =>
      intro q r s _ hq h
      rcases q with _ | ⟨c, q⟩
      · simpa using h
      · simp at h; exact absurd (h.1 ▸ (by simp : c ∈ c :: q)) hq
    | cons c p ih =>
      intro q r s hp hq h
      rcases q with _ | ⟨d, q⟩
      · simp at h; exact absurd (h.1 ▸ (by simp : c ∈ c :: p)) hp
      · simp at h
        have := ih q r s (by simp at hp; exact hp.2) (by simp at hq; exact hq.2) h.2
        exact ⟨by rw [h.1, this.1], this.2⟩
  obtain ⟨h1, h2⟩ := key _ _ _ _ (by simpa using hx) (by simpa using hy) h'
  exact ⟨List.reverse_inj.mp h2, List.reverse_inj.mp h1⟩

/-- **C09** (no collisions) Two symbols of the same language type (other than the upper-casing Pascal, Fortran and Basic) and
the same kind (both procedures or both not, same memory class) with the same external name have the same source name; if the decoration
contains the parameter size it is the same too. Any option settings. -/
theorem C09_injective (o : Opts) (a b : Sym) (hl : a.lang = b.lang) (hp : a.isproc = b.isproc) (hm : a.mem = b.mem)
    (hu : a.lang ≠ .pascal ∧ a.lang ≠ .fortran ∧ a.lang ≠ .basic) (h : mangle o a = mangle o b) : a.name = b.name := by
  obtain ⟨name, lang, isproc, mem, ps⟩ := a
  obtain ⟨name', lang', isproc', mem', ps'⟩ := b
  simp only at hl hp hm hu ⊢
  subst hl hp hm
  have std : ∀ {p q : List Char}, name ++ '@' :: p = name' ++ '@' :: q → '@' ∉ p → '@' ∉ q → name = name' :=
    fun h h1 h2 => (append_at_inj _ _ _ _ h1 h2 h).1
  have vec : ∀ {i j : Int}, name ++ '@' :: '@' :: decInt i = name' ++ '@' :: '@' :: decInt j → name = name' := by
    intro i j h
    have : (name ++ ['@']) ++ '@' :: decInt i = (name' ++ ['@']) ++ '@' :: decInt j := by simpa using h
    have := (append_at_inj _ _ _ _ (decInt_no_at _) (decInt_no_at _) this).1
    simpa using this
  have hms32 : ms32 o ⟨name, lang, isproc, mem, ps⟩ = ms32 o ⟨name', lang, isproc, mem, ps'⟩ → name = name' := by
    intro h
    simp only [ms32] at h
    split at h
    · exact vec (by simpa using h)
    · split at h
      · exact std (by simpa using h) (decNat_no_at _) (decNat_no_at _)
      · exact h
  have hms64 : ms64 o ⟨name, lang, isproc, mem, ps⟩ = ms64 o ⟨name', lang, isproc, mem, ps'⟩ → name = name' := by
    intro h
    simp only [ms64] at h
    split at h
    · exact vec (by simpa using h)
    · exact h
  have how : ow ⟨name, lang, isproc, mem, ps⟩ = ow ⟨name', lang, isproc, mem, ps'⟩ → name = name' := by
    intro h
    simp only [ow] at h
    split at h
    · simpa using h
    · simpa using h
  cases lang <;> simp only [mangle] at h
  case pascal => simp at hu
  case fortran => simp at hu
  case basic => simp at hu
  case c => split at h <;> simpa [voidMangler, uscoreMangler] using h
  case stdcall =>
    split at h
    · simpa [voidMangler] using h
    · simp only [stdcallMangler] at h
      split at h
      · exact std (by simpa using h) (decInt_no_at _) (decInt_no_at _)
      · simpa [uscoreMangler] using h
  case fastcall => 
    cases hfc : o.modFc <;> simp only [hfc] at h
    · exact hms32 h
    · exact how h
    · exact hms64 h
  case vectorcall => 
    cases hfc : o.modFc <;> simp only [hfc] at h
    · exact hms32 h
    · exact how h
    · exact hms64 h
  all_goals simpa [voidMangler] using h

/-- **C09** (mixed kinds, partial) With the default options a procedure and a non-procedure of the same language cannot
collide if the source names contain no `@`. Names with `@` are legal in MASM syntax and can collide, see below.
Missing from the full property: names containing `@`. -/
theorem C09_no_mixed_collision_partial (bits64 : Bool) (a b : Sym) (hl : a.lang = b.lang)
    (hu : a.lang ≠ .pascal ∧ a.lang ≠ .fortran ∧ a.lang ≠ .basic) (ha : '@' ∉ a.name) (hb : '@' ∉ b.name)
    (h : mangle (defaults bits64) a = mangle (defaults bits64) b) : a.name = b.name := by
  obtain ⟨name, lang, isproc, mem, ps⟩ := a
  obtain ⟨name', lang', isproc', mem', ps'⟩ := b
  simp only at hl hu ha hb ⊢
  subst hl
  by_cases hp : isproc = isproc'
  · subst hp
    have := C09_injective (defaults bits64) ⟨name, lang, isproc, mem, ps⟩ ⟨name', lang, isproc, mem, ps'⟩ rfl rfl rfl hu
    apply this
    have hmem : ∀ x y : Mem, ∀ n p, mangle (defaults bits64) ⟨n, lang, isproc, x, p⟩ = mangle (defaults bits64) ⟨n, lang, isproc, y, p⟩ := by
      intro x y n p
      cases lang <;> cases bits64 <;> simp [mangle, defaults, voidMangler, uscoreMangler, stdcallMangler, ucaseMangler, ms32, ms64]
    rw [h]; exact hmem _ _ _ _
  · have key : ∀ (n n' : List Char) (m m' : Mem) (p p' : BitVec 32), '@' ∉ n' →
        mangle (defaults bits64) ⟨n, lang, true, m, p⟩ = mangle (defaults bits64) ⟨n', lang, false, m', p'⟩ → n = n' := by
      intro n n' m m' p p' hn' h
      cases lang <;> cases bits64 <;>
        simp [mangle, defaults, voidMangler, uscoreMangler, stdcallMangler, ucaseMangler, ms32, ms64] at h <;>
        first
        | exact h
        | (exfalso; apply hn'; rw [← h]; simp)
        | (simp at hu)
    cases isproc <;> cases isproc'
    · exact absurd rfl hp
    · exact (key _ _ _ _ _ _ ha h.symm).symm
    · exact key _ _ _ _ _ _ hb h
    · exact absurd rfl hp

/-- **C09** (finding) A STDCALL procedure `f` with 4 bytes of parameters and a STDCALL variable named `f@4` get the same external name. -/
theorem C09_collision : ∃ a b : Sym, a.lang = .stdcall ∧ b.lang = .stdcall ∧ a.name ≠ b.name ∧
    mangle (defaults false) a = mangle (defaults false) b :=
  ⟨⟨['f'], .stdcall, true, .codeLike, 4⟩, ⟨['f', '@', '4'], .stdcall, false, .data, 0⟩, rfl, rfl, by decide, by
    simp [mangle, defaults, stdcallMangler, uscoreMangler, decInt, decNat]⟩

/-- ASCII lower-casing. -/
def low (c : Char) : Char := if 65 ≤ c.toNat ∧ c.toNat ≤ 90 then Char.ofNat (c.toNat + 32) else c

theorem ofNat_toNat (n : Nat) (h : n < 0xd800) : (Char.ofNat n).toNat = n := by
  have : n.isValidChar := Or.inl h
  simp [Char.ofNat, this, Char.ofNatAux, Char.toNat]

theorem upr_toNat (c : Char) : (upr c).toNat = if 97 ≤ c.toNat ∧ c.toNat ≤ 122 then c.toNat - 32 else c.toNat := by
  unfold upr
  split
  · exact ofNat_toNat _ (by omega)
  · rfl

theorem low_toNat (c : Char) : (low c).toNat = if 65 ≤ c.toNat ∧ c.toNat ≤ 90 then c.toNat + 32 else c.toNat := by
  unfold low
  split
  · exact ofNat_toNat _ (by omega)
  · rfl

theorem char_eq (c d : Char) : c = d ↔ c.toNat = d.toNat := by
  constructor
  · rintro rfl; rfl
  · intro h
    apply Char.ext
    exact UInt32.toNat_inj.mp h

theorem upr_low (c d : Char) : upr c = upr d ↔ low c = low d := by
  rw [char_eq, char_eq, upr_toNat, upr_toNat, low_toNat, low_toNat]
  split <;> split <;> split <;> split <;> omega

/-- **C09** (Pascal, Fortran, Basic) Upper-cased names collide exactly when the source names agree up to ASCII case. -/
theorem C09_pascal (o : Opts) (a b : Sym) (ha : a.lang ∈ [Lang.pascal, .fortran, .basic]) (hb : b.lang ∈ [Lang.pascal, .fortran, .basic]) :
    mangle o a = mangle o b ↔ a.name.map low = b.name.map low := by
  have key : ∀ x y : List Char, x.map upr = y.map upr ↔ x.map low = y.map low := by
    intro x
    induction x with
    | nil => intro y; cases y <;> simp
    | cons c x ih =>
      intro y
      cases y with
      | nil => simp
      | cons d y => simp [ih, upr_low]
  have h : ∀ s : Sym, s.lang ∈ [Lang.pascal, .fortran, .basic] → mangle o s = s.name.map upr := by
    intro s hs
    simp only [List.mem_cons, List.not_mem_nil, or_false] at hs
    rcases hs with h | h | h <;> simp [mangle, h, ucaseMangler]
  rw [h a ha, h b hb, key]

example : mangle (defaults false) ⟨['f', 'o', 'o'], .stdcall, true, .codeLike, 12⟩ = ['_', 'f', 'o', 'o', '@', '1', '2'] := by
  simp [mangle, defaults, stdcallMangler, decInt, decNat]

end Verif.Mangle
