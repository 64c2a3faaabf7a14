import Verif.Macro.Store
/-!
# C16: parameters and locals are substituted in macro body lines
-/
namespace Verif.Macro

/-! ### The numbers of locals -/

theorem hexDigit_eq (x : Nat) : hexDigit x = (Nat.digitChar (x % 16)).toUpper := by
  have h : ∀ k : Fin 16, (if k.val > 9 then Char.ofNat (k.val - 10 + 'A'.toNat) else Char.ofNat (k.val + '0'.toNat)) =
      (Nat.digitChar k.val).toUpper := by decide +kernel
  exact h ⟨x % 16, Nat.mod_lt _ (by omega)⟩

theorem printX_eq (i : Nat) : printX i = (Nat.toDigits 16 i).map Char.toUpper := by
  induction i using Nat.strongRecOn with
  | ind i ih =>
    rw [printX, Nat.toDigits_eq_if (by omega)]
    by_cases h : i < 16
    · rw [if_pos h, if_pos h]; simp [hexDigit_eq, Nat.mod_eq_of_lt h]
    · rw [if_neg h, if_neg h, ih (i / 16) (by omega)]; simp [hexDigit_eq]

theorem localText_eq (i : Nat) : localText i = '?' :: '?' :: hexText 4 i := by
  unfold localText hexText
  by_cases h : i > 0xFFFF
  · rw [if_pos h, printX_eq]
    have : 4 - ((Nat.toDigits 16 i).map Char.toUpper).length = 0 := by
      have h4 : ¬ (Nat.toDigits 16 i).length ≤ 4 := by
        rw [Nat.length_toDigits_le_iff (by omega) (by omega)]; omega
      simp; omega
    simp only [this]
    simp
  · rw [if_neg h]
    have e : ∀ n, i >>> n = i / 2 ^ n := fun n => Nat.shiftRight_eq_div_pow i n
    simp only [e, hexDigit_eq]
    have z : (Nat.digitChar 0).toUpper = '0' := by decide
    by_cases h1 : i < 16
    · rw [Nat.toDigits_of_lt_base h1]
      simp [Nat.mod_eq_of_lt h1, show i / 4096 = 0 by omega, show i / 256 = 0 by omega, show i / 16 = 0 by omega, z,
        List.replicate]
    · rw [Nat.toDigits_of_base_le (by omega) (by omega)]
      by_cases h2 : i < 256
      · rw [Nat.toDigits_of_lt_base (show i / 16 < 16 by omega)]
        simp [show i / 4096 = 0 by omega, show i / 256 = 0 by omega, z, Nat.mod_eq_of_lt (show i / 16 < 16 by omega),
          List.replicate]
      · rw [Nat.toDigits_of_base_le (n := i / 16) (by omega) (by omega)]
        by_cases h3 : i < 4096
        · rw [Nat.toDigits_of_lt_base (show i / 16 / 16 < 16 by omega)]
          simp [show i / 4096 = 0 by omega, z, Nat.div_div_eq_div_mul, Nat.mod_eq_of_lt (show i / 256 < 16 by omega),
            List.replicate]
        · rw [Nat.toDigits_of_base_le (n := i / 16 / 16) (by omega) (by omega),
            Nat.toDigits_of_lt_base (show i / 16 / 16 / 16 < 16 by omega)]
          simp [Nat.div_div_eq_div_mul, Nat.mod_eq_of_lt (show i / 4096 < 16 by omega)]

/-- Value of a hexadecimal number. -/
def hexVal (t : Text) : Nat := t.foldl (fun v c => v * 16 + (if c.isDigit then c.toNat - 48 else c.toNat - 55)) 0

theorem hexVal_snoc (t : Text) (x : Nat) : hexVal (t ++ [hexDigit x]) = hexVal t * 16 + x % 16 := by
  have h : ∀ k : Fin 16, (let c := hexDigit k.val; if c.isDigit then c.toNat - 48 else c.toNat - 55) = k.val := by
    decide +kernel
  have := h ⟨x % 16, Nat.mod_lt _ (by omega)⟩
  have e : hexDigit (x % 16) = hexDigit x := by simp [hexDigit]
  simp only [e] at this
  simp [hexVal, List.foldl_append, this]

theorem hexVal_printX (i : Nat) : hexVal (printX i) = i := by
  induction i using Nat.strongRecOn with
  | ind i ih =>
    rw [printX, hexVal_snoc]
    by_cases h : i < 16
    · rw [if_pos h]; simp [hexVal]; omega
    · rw [if_neg h, ih (i / 16) (by omega)]; omega

theorem hexVal_hexText (n i : Nat) : hexVal (hexText n i) = i := by
  have h := hexVal_printX i
  rw [printX_eq] at h
  unfold hexText
  simp only []
  generalize n - _ = k
  have : ∀ t, hexVal (List.replicate k '0' ++ t) = hexVal t := by
    intro t
    induction k with
    | zero => simp
    | succ k ih => rw [List.replicate_succ, List.cons_append, ← ih]; simp [hexVal]
  rw [this, h]

/-- Different locals have different names. -/
theorem local_inj {i j : Nat} (h : '?' :: '?' :: hexText 4 i = '?' :: '?' :: hexText 4 j) : i = j := by
  have := congrArg (fun t => hexVal (t.drop 2)) h
  simpa [hexVal_hexText] using this

/-! ### Filling -/

theorem ofNat_toNat (k : Nat) (h : k < 256) : (Char.ofNat k).toNat = k := by
  have h2 : ∀ k : Fin 256, (Char.ofNat k.val).toNat = k.val := by decide +kernel
  exact h2 ⟨k, h⟩

theorem fill_chr (a l : Nat) (v : Nat → Option Text) (c : Char) (t : Text) (h : c ≠ placeholder) :
    fill a l v (c :: t) = c :: fill a l v t := by
  rw [fill.eq_def]; simp [h]

theorem fill_enc (args : List Text) (localstart : Nat) (argv : Nat → Option Text)
    (hargs : ∀ k (h : k < args.length), (argv k).getD [] = args[k]) (ps : List Piece)
    (h1 : ∀ c, .chr c ∈ ps → c ≠ placeholder) (h2 : ∀ k, .arg k ∈ ps → k < 255 ∧ localstart + (k - args.length) < 2 ^ 32) :
    fill args.length localstart argv (enc ps) = (ps.map (Piece.text args localstart)).flatten := by
  induction ps with
  | nil => simp [fill]
  | cons p ps ih =>
    have ih := ih (fun c hc => h1 c (List.mem_cons_of_mem _ hc)) (fun k hk => h2 k (List.mem_cons_of_mem _ hk))
    cases p with
    | chr c =>
      have := h1 c (List.mem_cons_self ..)
      simp [Piece.enc, fill_chr _ _ _ _ _ this, ih, Piece.text]
    | arg k =>
      have hk := h2 k (List.mem_cons_self ..)
      simp only [enc_cons, Piece.enc, List.cons_append, List.nil_append, fill, if_true, ih, List.map_cons, List.flatten_cons]
      rw [ofNat_toNat _ (by omega)]
      congr 1
      simp only [Piece.text, Nat.add_sub_cancel]
      by_cases h : k < args.length
      · rw [if_neg (by omega), dif_pos h, hargs k h]
      · rw [if_pos (by omega), dif_neg h, localText_eq,
          show localstart + k - args.length = localstart + (k - args.length) by omega, Nat.mod_eq_of_lt hk.2]

theorem lookup_lt {env : Names} {w : Text} {k : Nat} (h : env.lookup w = some k) : k < env.names.length :=
  (List.findIdx?_eq_some_iff_getElem.1 h).1

theorem dropAmp_mem {t : Text} {c : Char} (h : c ∈ dropAmp t) : c ∈ t := by
  rw [dropAmp_eq] at h
  split at h
  · exact List.mem_of_mem_tail h
  · exact h

theorem scan_mem (env : Names) (n : Nat) : ∀ (t : Text), t.length ≤ n → ∀ s prev, ∀ p ∈ scan env s prev t,
    (∀ c, p = .chr c → c ∈ t) ∧ (∀ k, p = .arg k → k < env.names.length) := by
  induction n with
  | zero =>
    intro t ht s prev p hp
    have : t = [] := List.length_eq_zero_iff.1 (by omega)
    subst this
    simp [scan.eq_def] at hp
  | succ n ih =>
    intro t ht s prev p hp
    cases t with
    | nil => simp [scan.eq_def] at hp
    | cons c cs =>
      have hwl := word_length c cs
      have hw := word_append c cs
      simp only [List.length_cons] at ht hwl
      have w1 : ∀ x ∈ (word c cs).1, x ∈ c :: cs := fun x hx => by rw [← hw]; exact List.mem_append_left _ hx
      have w2 : ∀ x ∈ (word c cs).2, x ∈ c :: cs := fun x hx => by rw [← hw]; exact List.mem_append_right _ hx
      have wordCase : ∀ s', p ∈ (word c cs).1.map Piece.chr ++ scan env s' (word c cs).1.getLast? (word c cs).2 →
          (∀ x, p = .chr x → x ∈ c :: cs) ∧ (∀ k, p = .arg k → k < env.names.length) := by
        intro s' hp
        rcases List.mem_append.1 hp with hp | hp
        · obtain ⟨x, hx, rfl⟩ := List.mem_map.1 hp
          exact ⟨fun y hy => by cases hy; exact w1 _ hx, fun k hk => by cases hk⟩
        · have := ih (word c cs).2 (by omega) _ _ p hp
          exact ⟨fun x hx => w2 _ (this.1 x hx), this.2⟩
      have sub : ∀ t' s' prev', t'.length ≤ n → (∀ x ∈ t', x ∈ c :: cs) → p ∈ scan env s' prev' t' →
          (∀ x, p = .chr x → x ∈ c :: cs) ∧ (∀ k, p = .arg k → k < env.names.length) := by
        intro t' s' prev' h1 h2 h3
        have := ih t' h1 _ _ p h3
        exact ⟨fun x hx => h2 _ (this.1 x hx), this.2⟩
      have chr : ∀ x, x ∈ c :: cs → p = .chr x →
          (∀ x, p = .chr x → x ∈ c :: cs) ∧ (∀ k, p = .arg k → k < env.names.length) := by
        rintro x hx rfl
        exact ⟨fun y hy => by cases hy; exact hx, fun k hk => by cases hk⟩
      rw [scan.eq_def] at hp
      simp only [] at hp
      split at hp
      · exact wordCase _ hp
      · split at hp
        · split at hp
          · next k hk =>
            rcases List.mem_cons.1 hp with rfl | hp
            · refine ⟨fun x hx => (by cases hx), fun k' hk' => ?_⟩
              cases hk'
              split at hk
              · exact lookup_lt hk
              · cases hk
            · exact sub _ _ _ (by have := dropAmp_length (word c cs).2; omega) (fun x hx => w2 _ (dropAmp_mem hx)) hp
          · exact wordCase _ hp
        · split at hp
          · exact sub _ _ _ (by omega) (fun x hx => List.mem_cons_of_mem _ hx) hp
          · split at hp
            · split at hp
              · rename_i d cs' _
                simp only [List.length_cons] at ht
                split at hp
                · rcases List.mem_cons.1 hp with h | hp
                  · exact chr c (by simp) h
                  · rcases List.mem_cons.1 hp with h | hp
                    · exact chr d (by simp) h
                    · exact sub _ _ _ (by omega) (fun x hx => by simp [hx]) hp
                · rcases List.mem_cons.1 hp with h | hp
                  · exact chr c (by simp) h
                  · exact sub _ _ _ (by simp; omega) (fun x hx => List.mem_cons_of_mem _ hx) hp
              · exact chr c (by simp) (by simpa using hp)
            · rcases List.mem_cons.1 hp with h | hp
              · exact chr c (by simp) h
              · exact sub _ _ _ (by omega) (fun x hx => List.mem_cons_of_mem _ hx) hp

theorem scan_noNames (env : Names) (h : env.names = []) (n : Nat) : ∀ (t : Text), t.length ≤ n → ∀ s prev,
    enc (scan env s prev t) = t ∧ (scan env s prev t).countP Piece.isArg = 0 := by
  have hl : ∀ w, env.lookup w = none := fun w => by simp [Names.lookup, h]
  have hpa : ∀ pr t, env.paramAt pr t = none := by
    intro pr t; cases t with
    | nil => rfl
    | cons c cs => simp [Names.paramAt, hl]
  induction n with
  | zero =>
    intro t ht s prev
    have : t = [] := List.length_eq_zero_iff.1 (by omega)
    subst this
    simp [scan.eq_def]
  | succ n ih =>
    intro t ht s prev
    cases t with
    | nil => simp [scan.eq_def]
    | cons c cs =>
      have hwl := word_length c cs
      have hw := word_append c cs
      simp only [List.length_cons] at ht hwl
      rw [scan.eq_def]
      simp only [hl, ite_self, hpa, Option.isSome_none, Bool.false_eq_true, and_false, if_false]
      split
      · have := ih (word c cs).2 (by omega) s (word c cs).1.getLast?
        simp [this.1, this.2, hw]
      · split
        · have := ih (word c cs).2 (by omega) s (word c cs).1.getLast?
          simp [this.1, this.2, hw]
        · split
          · split
            · next d cs' =>
              simp only [List.length_cons] at ht
              split
              · have := ih cs' (by omega) s (some d)
                simp [this.1, this.2, Piece.enc, List.countP_cons]
              · have := ih (d :: cs') (by simp; omega) s (some c)
                simp [this.1, this.2, Piece.enc, List.countP_cons]
            · simp [Piece.enc]
          · have := ih cs (by omega) (s.step c) (some c)
            simp [this.1, this.2, Piece.enc, List.countP_cons]

/-- **C16.** A stored and then expanded line is the line of the specification, for all lines, parameters, locals and
arguments. Hypotheses: the line has no newline (source lines never have) and does not end with `!`; less than 256 names, with
index bytes that mean nothing to the scanner (see `C16_upTo32`); less than 256 replacements in the line; the counter of locals
does not exceed 32 bits. -/
theorem C16_substitution_partial (env : Names) (args : List Text) (localstart : Nat) (argv : Nat → Option Text) (line : Text)
    (hn : env.names.length < 256) (hin : ∀ k < env.names.length, inert k)
    (hnl : '\n' ∉ line) (hlast : line.getLast? ≠ some '!')
    (hcnt : (scan env {} none line).countP Piece.isArg < 256)
    (hargs : ∀ k (h : k < args.length), (argv k).getD [] = args[k]) (hloc : localstart + env.names.length < 2 ^ 32) :
    ∃ stored, storeLine env line = some (.ok stored) ∧
      getLine args.length localstart argv stored = expand env args localstart line := by
  have hf := fill_enc args localstart argv hargs (scan env {} none line)
    (fun c hc e => hnl (by have := (scan_mem env _ line (Nat.le_refl _) _ _ _ hc).1 c rfl; rw [e] at this; exact this))
    (fun k hk => by
      have := (scan_mem env _ line (Nat.le_refl _) _ _ _ hk).2 k rfl
      exact ⟨by omega, by omega⟩)
  have key : ∀ stored, stored = (enc (scan env {} none line), (scan env {} none line).countP Piece.isArg % 256) →
      getLine args.length localstart argv stored = expand env args localstart line := by
    rintro _ rfl
    unfold getLine expand
    simp only []
    rw [Nat.mod_eq_of_lt hcnt, ← hf]
    by_cases h0 : (scan env {} none line).countP Piece.isArg = 0
    · rw [if_neg (by simpa using h0)]
      rw [List.countP_eq_zero] at h0
      -- no replacements: filling changes nothing
      have : ∀ ps : List Piece, (∀ a ∈ ps, ¬ a.isArg = true) → (∀ c, .chr c ∈ ps → c ≠ placeholder) →
          fill args.length localstart argv (enc ps) = enc ps := by
        intro ps
        induction ps with
        | nil => intro _ _; simp [fill]
        | cons p ps ih =>
          intro h1 h2
          cases p with
          | chr c =>
            have := h2 c (List.mem_cons_self ..)
            simp [Piece.enc, fill_chr _ _ _ _ _ this,
              ih (fun a ha => h1 a (List.mem_cons_of_mem _ ha)) (fun c hc => h2 c (List.mem_cons_of_mem _ hc))]
          | arg k => exact (h1 _ (List.mem_cons_self ..) rfl).elim
      exact (this _ h0 (fun c hc e => hnl (by
        have := (scan_mem env _ line (Nat.le_refl _) _ _ _ hc).1 c rfl; rw [e] at this; exact this))).symm
    · rw [if_pos h0]
  unfold storeLine
  by_cases h0 : env.names.length = 0
  · rw [if_pos h0]
    have := scan_noNames env (List.length_eq_zero_iff.1 h0) _ line (Nat.le_refl _) {} none
    exact ⟨(line, 0), rfl, key _ (by rw [this.1, this.2])⟩
  · rw [if_neg h0]
    have := loop_ok env hn hin _ line (Nat.le_refl _) hlast [] {} {} none 0 (.inl rfl) ⟨rfl, rfl, rfl⟩
    simp [strip] at this
    exact ⟨_, by simp only [this, bind, Option.bind]; rfl, key _ rfl⟩

/-- Up to 32 parameters and locals there is no restriction by the index bytes. -/
theorem C16_upTo32 (k : Nat) (h : k < 32) : inert k := by
  have h2 : ∀ k : Fin 32, inert k.val := by decide +kernel
  exact h2 ⟨k, h⟩

theorem scan_noArgs (env : Names) (n : Nat) : ∀ (t : Text), t.length ≤ n → ∀ s prev,
    (∀ k, Piece.arg k ∉ scan env s prev t) → enc (scan env s prev t) = t := by
  induction n with
  | zero =>
    intro t ht s prev _
    have : t = [] := List.length_eq_zero_iff.1 (by omega)
    subst this
    simp [scan.eq_def]
  | succ n ih =>
    intro t ht s prev
    cases t with
    | nil => simp [scan.eq_def]
    | cons c cs =>
      have hwl := word_length c cs
      have hw := word_append c cs
      simp only [List.length_cons] at ht hwl
      rw [scan.eq_def]
      simp only []
      have wordCase : (∀ k, Piece.arg k ∉ (word c cs).1.map Piece.chr ++ scan env s (word c cs).1.getLast? (word c cs).2) →
          enc ((word c cs).1.map Piece.chr ++ scan env s (word c cs).1.getLast? (word c cs).2) = c :: cs := by
        intro h
        have := ih (word c cs).2 (by omega) s (word c cs).1.getLast? (fun k hk => h k (List.mem_append_right _ hk))
        simp [this, hw]
      split
      · exact wordCase
      · split
        · split
          · intro h; exact absurd (List.mem_cons_self ..) (h _)
          · exact wordCase
        · split
          · next hamp =>
            intro h
            exfalso
            obtain ⟨rfl, hp⟩ := hamp
            cases cs with
            | nil => simp [Names.paramAt] at hp
            | cons d ds =>
              cases hb : env.begins (some '&') d with
              | false => simp [Names.paramAt, hb] at hp
              | true =>
                simp only [Names.paramAt, hb, if_true] at hp
                obtain ⟨k, hk⟩ := Option.isSome_iff_exists.1 hp
                have hd : isDigit d = false := by
                  unfold Names.begins at hb; revert hb; cases isDigit d <;> simp
                apply h k
                rw [scan.eq_def]
                simp [hd, hb, hk]
          · split
            · split
              · rename_i d cs' _
                simp only [List.length_cons] at ht
                split
                · intro h
                  have := ih cs' (by omega) s (some d) (fun k hk => h k (by simp [hk]))
                  simp [this, Piece.enc]
                · intro h
                  have := ih (d :: cs') (by simp; omega) s (some c) (fun k hk => h k (by simp [hk]))
                  simp [this, Piece.enc]
              · intro _; simp [Piece.enc]
            · intro h
              have := ih cs (by omega) (s.step c) (some c) (fun k hk => h k (by simp [hk]))
              simp [this, Piece.enc]

/-- A line in which nothing is replaced is unchanged. -/
theorem C16_other_text (env : Names) (args : List Text) (localstart : Nat) (line : Text)
    (h : ∀ k, Piece.arg k ∉ scan env {} none line) : expand env args localstart line = line := by
  have := scan_noArgs env _ line (Nat.le_refl _) _ _ h
  conv => rhs; rw [← this]
  unfold expand enc
  congr 1
  apply List.map_congr_left
  intro p hp
  cases p with
  | chr c => rfl
  | arg k => exact absurd hp (h k)

/-! ### Locals of different expansions -/

/-- The first local numbers of a sequence of macro calls, from the counter `c`; `cnts` are the numbers of locals. -/
def starts : Nat → List Nat → List Nat
  | _, [] => []
  | c, n :: ns => (runLocals c n).1 :: starts (runLocals c n).2 ns

theorem starts_ge (c : Nat) (ns : List Nat) : ∀ i (h : i < (starts c ns).length), c ≤ (starts c ns)[i] := by
  induction ns generalizing c with
  | nil => intro i h; simp [starts] at h
  | cons n ns ih =>
    intro i h
    cases i with
    | zero => simp [starts, runLocals]
    | succ i =>
      have := ih (c + n) i (by simpa [starts, runLocals] using h)
      simp [starts, runLocals]; omega

theorem starts_length (c : Nat) (ns : List Nat) : (starts c ns).length = ns.length := by
  induction ns generalizing c with
  | nil => rfl
  | cons n ns ih => simp [starts, ih]

theorem starts_lt (c : Nat) (ns : List Nat) (i j : Nat) (hij : i < j) (hj : j < ns.length) :
    (starts c ns)[i]'(by rw [starts_length]; omega) + ns[i] ≤ (starts c ns)[j]'(by rw [starts_length]; omega) := by
  induction ns generalizing c i j with
  | nil => simp at hj
  | cons n ns ih =>
    obtain ⟨j, rfl⟩ : ∃ j', j = j' + 1 := ⟨j - 1, by omega⟩
    simp only [List.length_cons] at hj
    cases i with
    | zero =>
      have := starts_ge (c + n) ns j (by rw [starts_length]; omega)
      simpa [starts, runLocals] using this
    | succ i =>
      have := ih (c + n) i j (by omega) (by omega)
      simpa [starts, runLocals] using this

/-- The label generated for a local is different from those of all other locals of this and all other expansions. -/
theorem C16_locals_unique (c : Nat) (cnts : List Nat) (i j a b : Nat) (hi : i < cnts.length) (hj : j < cnts.length)
    (ha : a < cnts[i]) (hb : b < cnts[j])
    (h : localText ((starts c cnts)[i]'(by rw [starts_length]; exact hi) + a) =
      localText ((starts c cnts)[j]'(by rw [starts_length]; exact hj) + b)) : i = j ∧ a = b := by
  rw [localText_eq, localText_eq] at h
  have e := local_inj h
  rcases Nat.lt_trichotomy i j with hij | rfl | hij
  · have := starts_lt c cnts i j hij hj; omega
  · exact ⟨rfl, by omega⟩
  · have := starts_lt c cnts j i hij hi; omega

/-! ### A case -/

/-- `mac macro x, y` with a local `lab` -/
def env1 : Names := { dotname := false, same := fun a b => a == b, names := ["x".toList, "y".toList, "lab".toList] }

example : expand env1 ["eax".toList, "5".toList] 3 "lab&1: mov x, '&y' + 0xy ; x&y \"x\" !".toList =
    "??00031: mov eax, '5' + 0xy ; eax5 \"x\" !".toList := by
  decide +kernel

example : env1.names.length < 256 ∧ (∀ k < env1.names.length, inert k) ∧
    "lab&1: mov x, '&y' + 0xy ; x&y \"x\"".toList.getLast? ≠ some '!' := by decide +kernel

/-! ### Findings -/

/-- A line that ends with an exclamation mark outside of a string: the scanner reads and edits behind the end of the line. -/
theorem C16_exclamation_overrun (env : Names) (h : env.names ≠ []) : storeLine env "!".toList = some (.error .oob) := by
  unfold storeLine
  rw [if_neg (by simpa using h), storeLoop.eq_def]
  simp [isDigit, isId]

/-- The loop with a bound for the steps (for evaluation). -/
def storeFuel (env : Names) : Nat → Text → Nat → Q → Nat → Option (Except Err (Text × Nat))
  | 0, _, _, _, _ => none
  | fuel + 1, line, p, q, params =>
    match line[p]? with
    | none => some (.ok (line, params))
    | some c =>
      if isDigit c then storeFuel env fuel line (p + ((line.drop p).takeWhile isId).length) q params
      else if isId c = true ∨ (c = '.' ∧ env.dotname = true ∧
          (p = 0 ∨ (match line[p - 1]? with | some d => decide (d ≠ ']' ∧ isId d = false) | none => true) = true)) then
        let p' := p + 1 + ((line.drop (p + 1)).takeWhile isId).length
        let substprf := (0 < p ∧ line[p - 1]? = some '&') ∨ line[p']? = some '&'
        if q.quote = none ∨ substprf then
          match replaceParm env line p (p' - p) with
          | some (line', p'') => storeFuel env fuel line' p'' q (params + 1)
          | none => storeFuel env fuel line p' q params
        else storeFuel env fuel line p' q params
      else if c = '!' then
        if q.quote = none then
          match line[p + 1]? with
          | none => some (.error .oob)
          | some d => storeFuel env fuel line (if d = '<' ∨ d = '>' ∨ d = '"' ∨ d = '\'' then p + 2 else p + 1) q params
        else storeFuel env fuel line (p + 1) q params
      else storeFuel env fuel line (p + 1) (punct q c) params

theorem fuel_ok (env : Names) (fuel : Nat) : ∀ line p q params r, storeFuel env fuel line p q params = some r →
    storeLoop env line p q params = some r := by
  induction fuel with
  | zero => intro _ _ _ _ _ h; simp [storeFuel] at h
  | succ fuel ih =>
    intro line p q params r h
    rw [storeLoop.eq_def]
    unfold storeFuel at h
    cases hc : line[p]? with
    | none => rw [hc] at h; simpa using h
    | some c =>
      rw [hc] at h
      simp only [] at h ⊢
      have e : (∀ d, line[p - 1]? = some d → d ≠ ']' ∧ isId d = false) ↔
          (match line[p - 1]? with | some d => decide (d ≠ ']' ∧ isId d = false) | none => true) = true := by
        cases line[p - 1]? <;> simp
      by_cases hd : isDigit c = true
      · rw [if_pos hd] at h ⊢
        simp [ih _ _ _ _ _ h]
      · rw [if_neg hd] at h ⊢
        simp only [← e] at h
        split at h
        · next hb =>
          rw [if_pos hb]
          split at h
          · next hs =>
            rw [if_pos hs]
            split at h
            · next hr => rw [hr]; simp [ih _ _ _ _ _ h]
            · next hr => rw [hr]; simp [ih _ _ _ _ _ h]
          · next hs => rw [if_neg hs]; simp [ih _ _ _ _ _ h]
        · next hb =>
          rw [if_neg hb]
          split at h
          · next hx =>
            rw [if_pos hx]
            split at h
            · next hq =>
              rw [if_pos hq]
              split at h
              · next hr => rw [hr]; simpa using h
              · next hr => rw [hr]; simp [ih _ _ _ _ _ h]
            · next hq => rw [if_neg hq]; simp [ih _ _ _ _ _ h]
          · next hx => rw [if_neg hx]; simp [ih _ _ _ _ _ h]

deriving instance DecidableEq for Except

/-- 34 parameters `p1`, ..., `p33` and `v`. -/
def env34 : Names :=
  { dotname := false, same := fun a b => a == b, names := (List.range 33).map (fun i => 'p' :: Nat.toDigits 10 (i + 1)) ++ ["v".toList] }

/-- The 34th parameter has a name of one character: its index is the byte 22h, which the scanner then takes for a quote: the
second use of the parameter in the line is not replaced. -/
theorem C16_index_rescanned : storeLine env34 "v+v".toList = some (.ok (['\n', '"', '+', 'v'], 1)) ∧
    scan env34 {} none "v+v".toList = [.arg 33, .chr '+', .arg 33] := by
  constructor
  · unfold storeLine
    rw [if_neg (by decide +kernel), fuel_ok env34 10 _ _ _ _ (.ok (['\n', '"', '+', 'v'], 1)) (by decide +kernel)]
    rfl
  · decide +kernel

/-- 65 parameters, the last is named `A`. -/
def env65 : Names :=
  { dotname := false, same := fun a b => a == b, names := (List.range 64).map (fun i => 'p' :: Nat.toDigits 10 (i + 1)) ++ ["A".toList] }

theorem env65_replace (n : Nat) : replaceParm env65 (List.replicate n '\n' ++ ['A']) n 1 =
    some (List.replicate (n + 1) '\n' ++ ['A'], n + 1) := by
  have h1 : ((List.replicate n '\n' ++ ['A']).drop n).take 1 = ['A'] := by
    conv => lhs; arg 2; arg 1; rw [← List.length_replicate (n := n) (a := '\n')]
    rw [List.drop_left' (by simp)]; rfl
  have h2 : findName env65.same ['A'] 1 env65.names = some 65 := by decide +kernel
  unfold replaceParm
  rw [h1, h2]
  have h3 : ¬ (n ≠ 0 ∧ (List.replicate n '\n' ++ ['A'])[n - 1]? = some '&') := by
    rintro ⟨a, b⟩
    rw [List.getElem?_append_left (by simp; omega)] at b
    simp [List.getElem?_replicate] at b
  have h4 : ¬ ((List.replicate n '\n' ++ ['A'])[n + 1]? = some '&') := by
    rw [List.getElem?_eq_none (by simp)]; simp
  simp only [if_neg h3, if_neg h4]
  simp [placeholder, List.replicate_succ']

/-- A macro whose 65th parameter is named `A` (for example) cannot be defined: for the line `A` the assembler does not
terminate (in the program: until the buffer has overflown). -/
theorem C16_index_loop : storeLine env65 "A".toList = none := by
  have key : ∀ n q cnt r, storeLoop env65 (List.replicate n '\n' ++ ['A']) n q cnt ≠ some r ∨ q.quote ≠ none := by
    intro n q cnt r
    by_cases hq : q.quote = none
    · left
      intro h
      have := storeLoop.partial_correctness env65
        (fun line p q _ _ => q.quote = none → line ≠ List.replicate p '\n' ++ ['A']) ?_ _ _ _ _ _ h hq
      · exact this rfl
      · intro f ih line p q cnt r hr hq he
        subst he
        have hc : (List.replicate p '\n' ++ ['A'])[p]? = some 'A' := by simp
        have hdr : (List.replicate p '\n' ++ ['A']).drop (p + 1) = [] := by simp
        rw [hc] at hr
        simp only [hdr, hq] at hr
        have := env65_replace p
        simp [isDigit, isId, this] at hr
        exact ih _ _ _ _ _ hr hq rfl
    · exact .inr hq
  unfold storeLine
  rw [if_neg (by decide +kernel)]
  have := fun r => key 0 {} 0 r
  cases h : storeLoop env65 "A".toList 0 {} 0 with
  | none => rfl
  | some r => rcases this r with h' | h'
              · exact absurd h h'
              · exact absurd rfl h'

/-- The number of replacements is stored in one byte: a line with 256 of them is stored as if it had none, and the expanded
line is the internal form of the line. -/
theorem C16_count_wraps (env : Names) (args : List Text) (localstart : Nat) (argv : Nat → Option Text) (line : Text)
    (hn : env.names.length < 256) (hpos : env.names ≠ []) (hin : ∀ k < env.names.length, inert k)
    (hlast : line.getLast? ≠ some '!') (hcnt : (scan env {} none line).countP Piece.isArg = 256) :
    ∃ stored, storeLine env line = some (.ok stored) ∧
      getLine args.length localstart argv stored = enc (scan env {} none line) := by
  unfold storeLine
  rw [if_neg (by simpa using hpos)]
  have := loop_ok env hn hin _ line (Nat.le_refl _) hlast [] {} {} none 0 (.inl rfl) ⟨rfl, rfl, rfl⟩
  simp [strip] at this
  refine ⟨_, by simp only [this, bind, Option.bind]; rfl, ?_⟩
  simp [getLine, hcnt]

example : (scan env1 {} none (List.replicate 256 ['x', ' ']).flatten).countP Piece.isArg = 256 := by decide +kernel

end Verif.Macro
