import Verif.Macro.Spec
/-! store_placeholders computes an encoding of the pieces of the specification. -/
namespace Verif.Macro

def Piece.enc : Piece → Text
  | .chr c => [c]
  | .arg k => [placeholder, Char.ofNat (k + 1)]

def enc (ps : List Piece) : Text := (ps.map Piece.enc).flatten

def Piece.isArg : Piece → Bool
  | .arg _ => true
  | _ => false

@[simp] theorem isArg_chr (c : Char) : (Piece.chr c).isArg = false := rfl
@[simp] theorem isArg_arg (k : Nat) : (Piece.arg k).isArg = true := rfl

@[simp] theorem enc_nil : enc [] = [] := rfl
@[simp] theorem enc_cons (p : Piece) (ps : List Piece) : enc (p :: ps) = p.enc ++ enc ps := by simp [enc]
@[simp] theorem enc_append (a b : List Piece) : enc (a ++ b) = enc a ++ enc b := by simp [enc]
@[simp] theorem enc_chrs (w : Text) : enc (w.map .chr) = w := by
  induction w with
  | nil => rfl
  | cons c w ih => simp [Piece.enc, ih]
@[simp] theorem count_chrs (w : Text) : (w.map Piece.chr).countP Piece.isArg = 0 := by
  induction w with
  | nil => rfl
  | cons c w ih => simp [Piece.isArg]

theorem findName_eq (same : Text → Text → Bool) (w : Text) (ns : List Text) (c : Nat) :
    findName same w c ns = (ns.findIdx? (fun n => n.length == w.length && same w n)).map (· + c) := by
  induction ns generalizing c with
  | nil => rfl
  | cons n ns ih =>
    rw [findName, List.findIdx?_cons, ih]
    by_cases h : n.length = w.length ∧ same w n = true
    · rw [if_pos h]; simp [h.1, h.2]
    · rw [if_neg h]
      have : (n.length == w.length && same w n) = false := by
        rw [Bool.eq_false_iff]; simpa using h
      rw [this]
      simp [Function.comp_def]
      congr 1
      funext x; omega

/-- The index byte of name number `k` is an ordinary character for the scanner. -/
def inert (k : Nat) : Prop :=
  let c := Char.ofNat (k + 1)
  isId c = false ∧ c ≠ '!' ∧ c ≠ '<' ∧ c ≠ '>' ∧ c ≠ '"' ∧ c ≠ '\'' ∧ c ≠ '.' ∧ c ≠ '&' ∧ c ≠ ']'

instance (k : Nat) : Decidable (inert k) := by unfold inert; infer_instance

theorem digit_id {c : Char} (h : isDigit c = true) : isId c = true := by simp [isId, h]

/-- The last character of the text before the position. -/
def R (A : Text) (prev : Option Char) : Prop :=
  prev = A.getLast? ∨ (prev = none ∧ ∃ b, A.getLast? = some b ∧ isId b = false ∧ b ≠ ']' ∧ b ≠ '&')

theorem before (A t : Text) (hp : 0 < A.length) : (A ++ t)[A.length - 1]? = A.getLast? := by
  rw [List.getElem?_append_left (by omega), List.getLast?_eq_getElem?]

theorem R_amp {A : Text} {prev : Option Char} (h : R A prev) (t : Text) :
    (0 < A.length ∧ (A ++ t)[A.length - 1]? = some '&') ↔ prev = some '&' := by
  by_cases hp : 0 < A.length
  · rw [before A t hp]
    rcases h with rfl | ⟨rfl, b, hb, _, _, h3⟩
    · simp [hp]
    · simp [hb, h3]
  · have : A = [] := List.length_eq_zero_iff.1 (by omega)
    subst this
    rcases h with rfl | ⟨rfl, b, hb, _⟩ <;> simp

theorem R_begins (env : Names) {A : Text} {prev : Option Char} (h : R A prev) (c : Char) (t : Text) (hd : isDigit c = false) :
    (isId c = true ∨ (c = '.' ∧ env.dotname = true ∧
        (A.length = 0 ∨ ∀ d, (A ++ t)[A.length - 1]? = some d → d ≠ ']' ∧ isId d = false))) ↔ env.begins prev c = true := by
  have key : (A.length = 0 ∨ ∀ d, (A ++ t)[A.length - 1]? = some d → d ≠ ']' ∧ isId d = false) ↔
      dotAfter prev = true := by
    by_cases hp : 0 < A.length
    · rw [before A t hp]
      have h0 : ¬ A.length = 0 := by omega
      rcases h with rfl | ⟨rfl, b, hb, h1, h2, _⟩
      · cases hl : A.getLast? with
        | none => simp [dotAfter]
        | some d => simp [h0, dotAfter]
      · simp [hb, h1, h2, dotAfter]
    · have : A = [] := List.length_eq_zero_iff.1 (by omega)
      subst this
      rcases h with rfl | ⟨rfl, b, hb, _⟩ <;> simp [dotAfter]
  rw [key]
  simp [Names.begins, hd, and_assoc]

theorem punct_eq (q : Q) (s : Lex) (h : q.quote = s.quote ∧ q.brlevel = s.level ∧ q.qlevel = s.qlevel) (c : Char) :
    (punct q c).quote = (s.step c).quote ∧ (punct q c).brlevel = (s.step c).level ∧ (punct q c).qlevel = (s.step c).qlevel := by
  obtain ⟨q1, q2, q3⟩ := q
  obtain ⟨s1, s2, s3⟩ := s
  obtain ⟨rfl, rfl, rfl⟩ : q1 = s1 ∧ q2 = s2 ∧ q3 = s3 := h
  unfold punct Lex.step
  by_cases h1 : c = '<'
  · subst h1; simp
  · by_cases h2 : c = '>'
    · subst h2
      by_cases h0 : q2 = 0
      · simp [h0]
      · simp [h0]
    · by_cases h3 : c = '"'
      · subst h3
        cases q1 with
        | none => simp
        | some d =>
          by_cases hd : d = '"'
          · simp [hd]
          · simp [hd]
      · by_cases h4 : c = '\''
        · subst h4
          cases q1 with
          | none => simp
          | some d =>
            by_cases hd : d = '\''
            · simp [hd]
            · simp [hd]
        · simp [h1, h2, h3, h4]

theorem word_append (c : Char) (cs : Text) : (word c cs).1 ++ (word c cs).2 = c :: cs := by
  simp [word]

theorem word_last (c : Char) (cs : Text) : ∃ d, (word c cs).1.getLast? = some d ∧ (isId d = true ∨ d = c) := by
  unfold word
  cases h : cs.takeWhile isId with
  | nil => exact ⟨c, by simp, .inr rfl⟩
  | cons a l =>
    refine ⟨(a :: l).getLast (by simp), by simp [List.getLast?_cons_cons, List.getLast?_eq_some_getLast], .inl ?_⟩
    have : (a :: l).getLast (by simp) ∈ cs.takeWhile isId := by rw [h]; exact List.getLast_mem _
    have h2 := List.all_takeWhile (p := isId) (l := cs)
    exact (List.all_eq_true.1 h2) _ this

/-- `&` in front of a replaced name. -/
def strip (A : Text) (b : Bool) : Text := if b then A.dropLast else A

theorem dropAmp_eq (t : Text) : dropAmp t = if t.head? = some '&' then t.tail else t := by
  unfold dropAmp
  split
  · simp
  · next h =>
    rw [if_neg]
    cases t with
    | nil => simp
    | cons a t => intro he; simp at he; exact h t (by rw [he])

/-- replace_parm on a name that begins behind `A`. -/
theorem replaceParm_ok (env : Names) {A : Text} {prev : Option Char} (h : R A prev) (w after : Text) (hw : 1 ≤ w.length)
    (hn : env.names.length < 256) :
    replaceParm env (A ++ (w ++ after)) A.length w.length = (env.lookup w).map fun k =>
      let A' := strip A (prev == some '&')
      (A' ++ ([placeholder, Char.ofNat (k + 1)] ++ dropAmp after),
        if w.length = 1 ∧ prev ≠ some '&' ∧ after.head? ≠ some '&' then A'.length + 1 else A'.length + 2) := by
  unfold replaceParm
  rw [List.drop_left, List.take_left, findName_eq]
  unfold Names.lookup
  cases hk : env.names.findIdx? (fun n => n.length == w.length && env.same w n) with
  | none => rfl
  | some k =>
    have hlt : k < env.names.length := by
      have := List.findIdx?_eq_some_iff_getElem.1 hk
      exact this.1
    simp only [Option.map_some]
    rw [if_neg (by omega)]
    have ha := R_amp h (w ++ after)
    have hrest : (A ++ (w ++ after))[A.length + w.length]? = after.head? := by
      rw [← List.append_assoc, ← List.length_append, List.getElem?_append_right (by simp)]
      simp [List.head?_eq_getElem?]
    rw [hrest]
    have hs : (if A.length ≠ 0 ∧ (A ++ (w ++ after))[A.length - 1]? = some '&' then A.length - 1 else A.length) =
        (strip A (prev == some '&')).length := by
      by_cases hp : prev = some '&'
      · have := ha.2 hp
        rw [if_pos ⟨by omega, this.2⟩]; simp [strip, hp]
      · rw [if_neg (fun hh => hp (ha.1 ⟨by omega, hh.2⟩))]; simp [strip, hp]
    rw [hs]
    have htake : (A ++ (w ++ after)).take (strip A (prev == some '&')).length = strip A (prev == some '&') := by
      unfold strip
      split
      · rw [List.take_append_of_le_length (by simp), List.length_dropLast, List.dropLast_eq_take]
      · simp
    rw [htake]
    have hdrop : (A ++ (w ++ after)).drop (if after.head? = some '&' then A.length + w.length + 1 else A.length + w.length) =
        dropAmp after := by
      rw [dropAmp_eq]
      split
      · rw [← List.append_assoc, ← List.length_append, ← List.drop_drop, List.drop_left, List.drop_one]
      · rw [← List.append_assoc, ← List.length_append, List.drop_left]
    rw [hdrop]
    have hcond : (strip A (prev == some '&')).length + 1 ≥
        (if after.head? = some '&' then A.length + w.length + 1 else A.length + w.length) ↔
        w.length = 1 ∧ prev ≠ some '&' ∧ after.head? ≠ some '&' := by
      have : (strip A (prev == some '&')).length = if prev = some '&' then A.length - 1 else A.length := by
        unfold strip
        by_cases hp : prev = some '&' <;> simp [hp]
      rw [this]
      by_cases hp : prev = some '&'
      · have := (ha.2 hp).1
        simp only [hp, if_true, ne_eq, not_true_eq_false, false_and, and_false, iff_false]
        split <;> omega
      · simp only [hp, if_false, ne_eq, not_false_eq_true, true_and]
        by_cases h2 : after.head? = some '&'
        · simp only [h2, if_true, not_true_eq_false, and_false, iff_false]; omega
        · simp only [h2, if_false, not_false_eq_true, and_true]; omega
    simp only [List.append_assoc]
    by_cases hc : w.length = 1 ∧ prev ≠ some '&' ∧ after.head? ≠ some '&'
    · rw [if_pos (hcond.2 hc), if_pos hc]
    · rw [if_neg (fun hh => hc (hcond.1 hh)), if_neg hc]

theorem getElem?_at (A : Text) (c : Char) (t : Text) : (A ++ c :: t)[A.length]? = some c := by simp

/-- The scanner passes over an index byte. -/
theorem step_inert (env : Names) (A : Text) (k : Nat) (t : Text) (q : Q) (n : Nat) (h : inert k) :
    storeLoop env (A ++ Char.ofNat (k + 1) :: t) A.length q n =
      storeLoop env (A ++ Char.ofNat (k + 1) :: t) (A.length + 1) q n := by
  obtain ⟨h0, h1, h2, h3, h4, h5, h6, _⟩ := h
  conv => lhs; rw [storeLoop.eq_def]
  have hd : isDigit (Char.ofNat (k + 1)) = false := by
    cases hx : isDigit (Char.ofNat (k + 1)) with
    | false => rfl
    | true => rw [digit_id hx] at h0; cases h0
  simp only [getElem?_at, hd, h0, h1, h6, Bool.false_eq_true, if_false, false_and, or_self]
  have : punct q (Char.ofNat (k + 1)) = q := by simp [punct, h2, h3, h4, h5]
  rw [this]

theorem getLast?_suffix {a b : Text} {c : Char} (h : (a ++ b).getLast? ≠ some c) : b.getLast? ≠ some c := by
  cases b with
  | nil => simp
  | cons x b => rwa [List.getLast?_append, List.getLast?_cons, Option.some_or, ← List.getLast?_cons] at h

theorem loop_ok (env : Names) (hn : env.names.length < 256) (hin : ∀ k < env.names.length, inert k) (n : Nat) :
    ∀ (rest : Text), rest.length ≤ n → rest.getLast? ≠ some '!' → ∀ (A : Text) (q : Q) (s : Lex) (prev : Option Char) (cnt : Nat),
      R A prev → (q.quote = s.quote ∧ q.brlevel = s.level ∧ q.qlevel = s.qlevel) →
      storeLoop env (A ++ rest) A.length q cnt =
        some (.ok (strip A (prev == some '&' && (env.paramAt prev rest).isSome) ++ enc (scan env s prev rest),
          cnt + (scan env s prev rest).countP Piece.isArg)) := by
  induction n with
  | zero =>
    intro rest hl _ A q s prev cnt hR hq
    have : rest = [] := List.length_eq_zero_iff.1 (by omega)
    subst this
    rw [storeLoop.eq_def, scan.eq_def]
    simp [Names.paramAt, strip]
  | succ n ih =>
    intro rest hl hlast A q s prev cnt hR hq
    cases rest with
    | nil =>
      rw [storeLoop.eq_def, scan.eq_def]
      simp [Names.paramAt, strip]
    | cons c cs =>
      have hwl := word_length c cs
      have hw := word_append c cs
      obtain ⟨dl, hdl, hdl2⟩ := word_last c cs
      have hlen : (word c cs).1.length = 1 + (cs.takeWhile isId).length := by simp [word]; omega
      -- behind a word that is not replaced
      have skipWord : c ≠ '&' → ∀ cnt, storeLoop env (A ++ c :: cs) (A.length + (word c cs).1.length) q cnt =
          some (.ok (A ++ (word c cs).1 ++ enc (scan env s (word c cs).1.getLast? (word c cs).2),
            cnt + (scan env s (word c cs).1.getLast? (word c cs).2).countP Piece.isArg)) := by
        intro hc cnt
        have h1 := ih (word c cs).2 (by simp at hl hwl; omega) (getLast?_suffix (by rw [hw]; exact hlast))
          (A ++ (word c cs).1) q s (word c cs).1.getLast? cnt ?_ hq
        · rw [List.append_assoc, hw, List.length_append] at h1
          rw [h1]
          have : ((word c cs).1.getLast? == some '&') = false := by
            rw [hdl]
            rcases hdl2 with h | h
            · cases he : (some dl == some '&') with
              | false => rfl
              | true =>
                have : dl = '&' := by simpa using he
                subst this; revert h; decide
            · subst h; simp [hc]
          rw [this]
          simp [strip]
        · left
          rw [hdl, List.getLast?_append, hdl]; rfl
      rw [storeLoop.eq_def, scan.eq_def]
      simp only [getElem?_at, List.drop_left]
      by_cases hd : isDigit c = true
      · have hc : c ≠ '&' := by rintro rfl; revert hd; decide
        rw [if_pos hd]
        have e1 : A.length + (List.takeWhile isId (c :: cs)).length = A.length + (word c cs).1.length := by
          rw [List.takeWhile_cons_of_pos (digit_id hd)]; simp [word]
        rw [e1, skipWord hc]
        have e2 : env.paramAt prev (c :: cs) = none := by simp [Names.paramAt, Names.begins, hd]
        simp [e2, strip, hd, List.append_assoc]
      · have hd : isDigit c = false := by simpa using hd
        rw [hd]
        simp only [Bool.false_eq_true, if_false, R_begins env hR c (c :: cs) hd]
        by_cases hb : env.begins prev c = true
        · have hc : c ≠ '&' := by rintro rfl; revert hb; simp [Names.begins]; intro h; revert h; decide
          have epa : env.paramAt prev (c :: cs) = env.lookup (word c cs).1 := by simp [Names.paramAt, hb]
          rw [if_pos hb, if_pos hb]
          have ed : (A ++ c :: cs).drop (A.length + 1) = cs := by
            rw [← List.drop_drop, List.drop_left]; rfl
          have ep : A.length + 1 + (List.takeWhile isId cs).length = A.length + (word c cs).1.length := by omega
          have eh : (A ++ c :: cs)[A.length + (word c cs).1.length]? = (word c cs).2.head? := by
            rw [← hw, ← List.append_assoc, ← List.length_append, List.getElem?_append_right (by simp)]
            simp [List.head?_eq_getElem?]
          rw [ed, ep, eh]
          have eamp := R_amp hR (c :: cs)
          have erp := replaceParm_ok env hR (word c cs).1 (word c cs).2 (by omega) hn
          rw [hw] at erp
          rw [Nat.add_sub_cancel_left, erp]
          simp only [eamp, hq.1]
          by_cases hs : s.quote = none ∨ prev = some '&' ∨ (word c cs).2.head? = some '&'
          · rw [if_pos hs, if_pos hs, epa]
            cases hlk : env.lookup (word c cs).1 with
            | none =>
              simp only [Option.map_none]
              rw [skipWord hc]
              simp [strip, List.append_assoc]
            | some k =>
              have hk : k < env.names.length := (List.findIdx?_eq_some_iff_getElem.1 hlk).1
              simp only [Option.map_some]
              have hik := hin k hk
              -- the rest
              have h1 := ih (dropAmp (word c cs).2) (by have := dropAmp_length (word c cs).2; simp at hl hwl; omega) ?_
                (strip A (prev == some '&') ++ [placeholder, Char.ofNat (k + 1)]) q s none (cnt + 1) ?_ hq
              · have h2 : storeLoop env (strip A (prev == some '&') ++ ([placeholder, Char.ofNat (k + 1)] ++ dropAmp (word c cs).2))
                    (if (word c cs).1.length = 1 ∧ prev ≠ some '&' ∧ (word c cs).2.head? ≠ some '&' then
                      (strip A (prev == some '&')).length + 1 else (strip A (prev == some '&')).length + 2) q (cnt + 1) =
                    storeLoop env (strip A (prev == some '&') ++ [placeholder, Char.ofNat (k + 1)] ++ dropAmp (word c cs).2)
                    (strip A (prev == some '&') ++ [placeholder, Char.ofNat (k + 1)]).length q (cnt + 1) := by
                  split
                  · have := step_inert env (strip A (prev == some '&') ++ [placeholder]) k (dropAmp (word c cs).2) q (cnt + 1) hik
                    simpa using this
                  · simp
                rw [h2, h1]
                simp [strip, Piece.enc, List.countP_cons]
                omega
              · rw [dropAmp_eq]
                have := getLast?_suffix (a := (word c cs).1) (b := (word c cs).2) (c := '!') (by rw [hw]; exact hlast)
                split
                · cases he : (word c cs).2 with
                  | nil => simp
                  | cons x l => rw [he] at this; exact getLast?_suffix (a := [x]) this
                · exact this
              · right
                exact ⟨rfl, Char.ofNat (k + 1), by simp, hik.1, hik.2.2.2.2.2.2.2.2, hik.2.2.2.2.2.2.2.1⟩
          · rw [if_neg hs, if_neg hs]
            simp only []
            rw [skipWord hc, epa]
            have : ¬ prev = some '&' := fun h => hs (.inr (.inl h))
            simp [strip, this, List.append_assoc]
        · rw [if_neg hb, if_neg hb]
          have epa : env.paramAt prev (c :: cs) = none := by simp [Names.paramAt, hb]
          rw [epa]
          have hcs : cs.getLast? ≠ some '!' := getLast?_suffix (a := [c]) hlast
          -- one character
          have one : ∀ (q' : Q) (s' : Lex), (q'.quote = s'.quote ∧ q'.brlevel = s'.level ∧ q'.qlevel = s'.qlevel) →
              storeLoop env (A ++ c :: cs) (A.length + 1) q' cnt =
              some (.ok (strip (A ++ [c]) (some c == some '&' && (env.paramAt (some c) cs).isSome) ++
                enc (scan env s' (some c) cs), cnt + (scan env s' (some c) cs).countP Piece.isArg)) := by
            intro q' s' hq'
            have := ih cs (by simp at hl; omega) hcs (A ++ [c]) q' s' (some c) cnt (.inl (by simp)) hq'
            simpa using this
          by_cases he : c = '!'
          · subst he
            simp only [if_true, Char.reduceEq, false_and, if_false, true_and, hq.1]
            by_cases hqn : s.quote = none
            · simp only [hqn, if_true]
              cases cs with
              | nil => simp at hlast
              | cons d cs' =>
                have e1 : (A ++ '!' :: d :: cs')[A.length + 1]? = some d := by
                  rw [List.getElem?_append_right (by omega)]; simp
                rw [e1]
                simp only []
                by_cases hsp : d = '<' ∨ d = '>' ∨ d = '"' ∨ d = '\''
                · rw [if_pos hsp, if_pos hsp]
                  have h1 := ih cs' (by simp at hl; omega) (getLast?_suffix (a := [d]) hcs) (A ++ ['!', d]) q s (some d) cnt
                    (.inl (by simp)) hq
                  have h2 : storeLoop env (A ++ '!' :: d :: cs') (A.length + 2) q cnt =
                      storeLoop env (A ++ ['!', d] ++ cs') (A ++ ['!', d]).length q cnt := by simp
                  rw [h2, h1]
                  have : (some d == some '&') = false := by
                    rcases hsp with rfl | rfl | rfl | rfl <;> decide
                  simp [this, strip, Piece.enc]
                · rw [if_neg hsp, if_neg hsp, one q s hq]
                  simp [strip, Piece.enc]
            · simp only [hqn, if_false]
              rw [one q (s.step '!') ⟨by simp [Lex.step, hq.1], by simp [Lex.step, hq.2.1], by simp [Lex.step, hq.2.2]⟩]
              simp [strip, Piece.enc]
          · simp only [if_neg he, he, false_and, if_false]
            rw [one _ (s.step c) (punct_eq q s hq c)]
            by_cases ha : c = '&'
            · subst ha
              have hstep : s.step '&' = s := rfl
              rw [hstep]
              cases hp : (env.paramAt (some '&') cs).isSome with
              | true => simp [strip]
              | false => simp [strip, Piece.enc]
            · simp [ha, strip, Piece.enc]

end Verif.Macro
