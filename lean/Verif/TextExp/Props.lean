import Verif.TextExp.Spec
/-!
# C79: expansion of `%` lines
-/
namespace Verif.TextExp

theorem amp_not_first (E : Env) : isFirst E '&' = false := by
  have : isLabel '&' = false := by decide
  simp [isFirst, this]

theorem amp_not_id : isIdChar '&' = false := by decide

theorem scan_nil (E : Env) (d : Nat) (st : St) : scan E d [] st = st := by unfold scan; rfl

theorem scan_char (E : Env) (d : Nat) (c : Char) (s : Text) (st : St) (h : isFirst E c = false) :
    scan E d (c :: s) st = scan E d s { st with out := c :: st.out, quote := toggle st.quote c } := by
  rw [scan.eq_def]; simp [h]

theorem span_take (s t : Text) (hs : ∀ x ∈ s, isIdChar x = true) (ht : ∀ c, t.head? = some c → isIdChar c = false) :
    (s ++ t).takeWhile isIdChar = s ∧ (s ++ t).dropWhile isIdChar = t := by
  induction s with
  | nil =>
    cases t with
    | nil => simp
    | cons c t => have := ht c rfl; simp [List.takeWhile, List.dropWhile, this]
  | cons x s ih =>
    have h1 := hs x (by simp)
    have := ih (fun y hy => hs y (by simp [hy]))
    simp [List.takeWhile, List.dropWhile, h1, this]

/-- One step at a name. -/
theorem scan_name (E : Env) (d : Nat) (n t : Text) (st : St) (hn : IsName E n) (ht : ∀ c, t.head? = some c → isIdChar c = false) :
    scan E d (n ++ t) st =
      match E.value n with
      | none => scan E d t { st with out := n.reverse ++ st.out }
      | some v =>
        if st.quote.isSome && st.out.head? != some '&' && t.head? != some '&' then
          scan E d t { st with out := n.reverse ++ st.out }
        else
          let st1 := { st with out := if st.out.head? = some '&' then st.out.tail else st.out, expanded := true }
          let rest1 := if t.head? = some '&' then t.tail else t
          match d with
          | 0 => scan E 0 rest1 { st1 with errs := st1.errs + 1 }
          | d' + 1 => scan E (d' + 1) rest1 (scan E d' v st1) := by
  obtain ⟨c, s, rfl, hc, hs⟩ := hn
  obtain ⟨h1, h2⟩ := span_take s t hs ht
  rw [List.cons_append, scan.eq_def]
  simp only [hc, if_true, h1, h2]
  cases d <;> rfl

def QOk (q : Option Char) : Prop := ∀ x, q = some x → x = '"' ∨ x = '\''

theorem toggle_spec (q : Option Char) (c : Char) (h : QOk q) :
    toggle q c = quoteStep c q ∧
    QOk (toggle q c) := by
  constructor
  · unfold toggle quoteStep
    cases q with
    | none => simp
    | some x =>
      have := h x rfl
      split
      · rfl
      · rename_i hc
        have hne : c ≠ x := by rintro rfl; exact hc this
        simp [hne]
  · unfold toggle
    split
    · rename_i hc
      cases q with
      | none => intro y hy; simp at hy; subst hy; exact hc
      | some x => intro y hy; dsimp at hy; split at hy <;> simp at hy; subst hy; exact h x rfl
    · exact h

theorem scan_chars (E : Env) (d : Nat) (t s : Text) : ∀ (st : St), QOk st.quote → (∀ c ∈ t, isFirst E c = false) →
    scan E d (t ++ s) st = scan E d s { st with out := t.reverse ++ st.out, quote := quoteAfter st.quote t } ∧
      QOk (quoteAfter st.quote t) := by
  induction t with
  | nil => intro st hq _; exact ⟨rfl, hq⟩
  | cons c t ih =>
    intro st hq h
    obtain ⟨e, hq'⟩ := toggle_spec st.quote c hq
    rw [List.cons_append, scan_char E d c (t ++ s) st (h c (by simp))]
    have := ih { st with out := c :: st.out, quote := toggle st.quote c } hq' (fun x hx => h x (by simp [hx]))
    rw [this.1]
    have e2 : quoteAfter st.quote (c :: t) = quoteAfter (toggle st.quote c) t := by rw [e]; rfl
    rw [e2]
    exact ⟨by simp, this.2⟩

/-- In front of a name nothing of the output reads as a `&`. -/
def Ready (ps : List Part) (out : Text) : Prop := ∀ a b n r, ps = .name a b n :: r → out.head? ≠ some '&'

theorem Ready.of_ne (ps : List Part) (out : Text) (h : out.head? ≠ some '&') : Ready ps out := fun _ _ _ _ _ => h

/-- What follows a name. -/
theorem after_name {E : Env} {a b : Bool} {n : Text} {ps : List Part} (h : Line E (.name a b n :: ps)) :
    IsName E n ∧ Line E ps ∧ (∀ out, Ready ps out) ∧ (textOf ps).head? ≠ some '&' ∧
    (b = false → ∀ c, (textOf ps).head? = some c → isIdChar c = false) := by
  cases h with
  | name hn => exact ⟨hn, .nil, (by intro _ _ _ _ _ h; cases h), by simp [textOf], by simp [textOf]⟩
  | @nameChars _ _ _ t ps hn hb hl =>
    have ht : IsChars E t := by cases hl <;> assumption
    have hh : (textOf (.chars t :: ps)).head? = t.head? := by
      obtain ⟨h0, _⟩ := ht
      cases t with
      | nil => simp at h0
      | cons c t => simp [textOf, Part.text]
    refine ⟨hn, hl, (by intro _ _ _ _ _ h; cases h), ?_, ?_⟩
    · rw [hh]; intro e
      cases t with
      | nil => simp at e
      | cons c t => simp at e; exact (ht.2 c (by simp)).2 e
    · rw [hh]; exact hb

theorem after_chars {E : Env} {t : Text} {ps : List Part} (h : Line E (.chars t :: ps)) : IsChars E t ∧ Line E ps := by
  cases h with
  | chars ht => exact ⟨ht, .nil⟩
  | charsName ht _ hl => exact ⟨ht, hl⟩

theorem textOf_cons (p : Part) (ps : List Part) : textOf (p :: ps) = p.text ++ textOf ps := by simp [textOf]

theorem chars_last {E : Env} {t : Text} (h : IsChars E t) (out : Text) : (t.reverse ++ out).head? ≠ some '&' := by
  obtain ⟨h0, h1⟩ := h
  have : t.reverse ≠ [] := by simpa using h0
  obtain ⟨c, s, hc⟩ : ∃ c s, t.reverse = c :: s := by cases hr : t.reverse with | nil => exact absurd hr this | cons c s => exact ⟨c, s, rfl⟩
  rw [hc]; simp
  have : c ∈ t := by have : c ∈ t.reverse := by rw [hc]; simp
                     simpa using this
  exact (h1 c this).2

/-- A name that stays, with its `&`s. -/
theorem scan_kept (E : Env) (d : Nat) (a b : Bool) (n : Text) (ps : List Part) (st : St) (hl : Line E (.name a b n :: ps))
    (hq : QOk st.quote) (h : E.value n = none ∨ (a = false ∧ b = false ∧ st.quote ≠ none ∧ st.out.head? ≠ some '&')) :
    scan E d (textOf (.name a b n :: ps)) st =
      scan E d (textOf ps) { st with out := (Part.name a b n).text.reverse ++ st.out } := by
  obtain ⟨hn, -, -, hamp, hid⟩ := after_name hl
  have hpush : ∀ (s : Text) (st : St), QOk st.quote → scan E d ('&' :: s) st = scan E d s { st with out := '&' :: st.out } := by
    intro s st hq
    rw [scan_char E d '&' s st (amp_not_first E)]
    rw [show toggle st.quote '&' = st.quote from by simp [toggle]]
  have core : ∀ (st : St), QOk st.quote → (E.value n = none ∨ (b = false ∧ st.quote ≠ none ∧ st.out.head? ≠ some '&')) →
      scan E d (n ++ ((if b then ['&'] else []) ++ textOf ps)) st =
        scan E d (textOf ps) { st with out := (if b then ['&'] else []) ++ (n.reverse ++ st.out) } := by
    intro st hq h
    cases b with
    | true =>
      rcases h with h | ⟨h, -⟩
      · rw [scan_name E d n _ st hn (by intro c hc; simp at hc; subst hc; exact amp_not_id)]
        simp only [h]
        exact hpush _ _ hq
      · cases h
    | false =>
      rw [scan_name E d n _ st hn (by simpa using hid rfl)]
      rcases h with h | ⟨-, h1, h2⟩
      · simp [h]
      · have : (st.quote.isSome && st.out.head? != some '&' && ((if false = true then ['&'] else []) ++ textOf ps).head? != some '&') = true := by
          have : st.quote.isSome = true := by cases hs : st.quote with | none => exact absurd hs h1 | some x => rfl
          simp [this, h2, hamp]
        cases hv : E.value n with
        | none => simp
        | some v => simp only [this, if_true]; simp
  rw [textOf_cons]
  cases a with
  | false =>
    simp only [Part.text, Bool.false_eq_true, if_false, List.nil_append, List.append_assoc]
    rw [core st hq (by rcases h with h | ⟨-, h⟩; exact .inl h; exact .inr h)]
    cases b <;> simp
  | true =>
    have h : E.value n = none := by rcases h with h | ⟨h, -⟩; exact h; cases h
    simp only [Part.text, if_true, List.singleton_append, List.cons_append, List.nil_append, List.append_assoc]
    rw [hpush _ _ hq, core { st with out := '&' :: st.out } hq (.inl h)]
    cases b <;> simp

/-- A name that is replaced. -/
theorem scan_replaced (E : Env) (d : Nat) (a b : Bool) (n v : Text) (ps : List Part) (st : St) (hl : Line E (.name a b n :: ps))
    (hq : QOk st.quote) (hr : st.out.head? ≠ some '&') (hv : E.value n = some v) (h : st.quote = none ∨ a = true ∨ b = true) :
    scan E d (textOf (.name a b n :: ps)) st =
      match d with
      | 0 => scan E 0 (textOf ps) { st with expanded := true, errs := st.errs + 1 }
      | d' + 1 => scan E (d' + 1) (textOf ps) (scan E d' v { st with expanded := true }) := by
  obtain ⟨hn, -, -, hamp, hid⟩ := after_name hl
  have core : ∀ (st : St), (st.quote = none ∨ st.out.head? = some '&' ∨ b = true) →
      scan E d (n ++ ((if b then ['&'] else []) ++ textOf ps)) st =
        (let st1 := { st with out := if st.out.head? = some '&' then st.out.tail else st.out, expanded := true }
          match d with
          | 0 => scan E 0 (textOf ps) { st1 with errs := st1.errs + 1 }
          | d' + 1 => scan E (d' + 1) (textOf ps) (scan E d' v st1)) := by
    intro st h
    cases b with
    | true =>
      rw [scan_name E d n _ st hn (by intro c hc; simp at hc; subst hc; exact amp_not_id)]
      simp [hv]
    | false =>
      rw [scan_name E d n _ st hn (by simpa using hid rfl)]
      have : (st.quote.isSome && st.out.head? != some '&' && ((if false = true then ['&'] else []) ++ textOf ps).head? != some '&') = false := by
        rcases h with h | h | h
        · simp [h]
        · simp [h]
        · cases h
      simp only [hv, this]
      simp [hamp]
  rw [textOf_cons]
  cases a with
  | false =>
    simp only [Part.text, Bool.false_eq_true, if_false, List.nil_append, List.append_assoc]
    rw [core st (by rcases h with h | h | h; exact .inl h; cases h; exact .inr (.inr h))]
    simp only [hr, if_false]
  | true =>
    simp only [Part.text, if_true, List.singleton_append, List.cons_append, List.nil_append, List.append_assoc]
    rw [scan_char E d '&' _ st (amp_not_first E), show toggle st.quote '&' = st.quote from by simp [toggle],
      core { st with out := '&' :: st.out } (.inr (.inl rfl))]
    simp

theorem scan_means {E : Env} {d : Nat} {q q' : Option Char} {ps : List Part} {r : Text} (h : Means E d q ps q' r) :
    ∀ (st : St), Line E ps → st.quote = q → QOk q → Ready ps st.out →
      QOk q' ∧ ∃ b, scan E d (textOf ps) st = { out := r.reverse ++ st.out, quote := q', errs := st.errs, expanded := b } ∧
        (b = false → st.expanded = false ∧ r = textOf ps) := by
  induction h with
  | nil =>
    intro st _ hq hok _
    refine ⟨hok, st.expanded, ?_, ?_⟩
    · subst hq; simp [textOf, scan_nil]
    · intro h; exact ⟨h, rfl⟩
  | @chars d q t ps q' r hm ih =>
    intro st hl hq hok hr
    obtain ⟨ht, hl'⟩ := after_chars hl
    subst hq
    obtain ⟨e, hok'⟩ := scan_chars E d t (textOf ps) st hok (fun c hc => (ht.2 c hc).1)
    obtain ⟨h1, b, h2, h3⟩ := ih { st with out := t.reverse ++ st.out, quote := quoteAfter st.quote t } hl' rfl hok'
      (Ready.of_ne _ _ (chars_last ht _))
    refine ⟨h1, b, ?_, ?_⟩
    · rw [textOf_cons]; simp only [Part.text]; rw [e, h2]; simp
    · intro hb; obtain ⟨x, y⟩ := h3 hb; exact ⟨x, by rw [textOf_cons, y]; rfl⟩
  | @plain d q a b n ps q' r hv hm ih =>
    intro st hl hq hok hr
    obtain ⟨-, hl', hrdy, -, -⟩ := after_name hl
    subst hq
    rw [scan_kept E d a b n ps st hl hok (.inl hv)]
    obtain ⟨h1, c, h2, h3⟩ := ih { st with out := (Part.name a b n).text.reverse ++ st.out } hl' rfl hok (hrdy _)
    refine ⟨h1, c, ?_, ?_⟩
    · rw [h2]; simp
    · intro hb; obtain ⟨x, y⟩ := h3 hb; exact ⟨x, by rw [textOf_cons, y]⟩
  | @quoted d q n v ps q' r hv hn hm ih =>
    intro st hl hq hok hr
    obtain ⟨-, hl', hrdy, -, -⟩ := after_name hl
    subst hq
    rw [scan_kept E d false false n ps st hl hok (.inr ⟨rfl, rfl, hn, hr _ _ _ _ rfl⟩)]
    obtain ⟨h1, c, h2, h3⟩ := ih { st with out := (Part.name false false n).text.reverse ++ st.out } hl' rfl hok (hrdy _)
    refine ⟨h1, c, ?_, ?_⟩
    · rw [h2]; simp [Part.text]
    · intro hb; obtain ⟨x, y⟩ := h3 hb; exact ⟨x, by rw [textOf_cons, y]; simp [Part.text]⟩
  | @replaced d q a b n v vs ps q1 r1 q' r hv hc hvs hlv hm1 hm2 ih1 ih2 =>
    intro st hl hq hok hr
    obtain ⟨-, hl', hrdy, -, -⟩ := after_name hl
    subst hq
    have hamp := hr _ _ _ _ rfl
    rw [scan_replaced E (d + 1) a b n v ps st hl hok hamp hv hc]
    obtain ⟨k1, c1, k2, k3⟩ := ih1 { st with expanded := true } hlv rfl hok (Ready.of_ne _ _ hamp)
    subst hvs
    dsimp only
    rw [k2]
    obtain ⟨h1, c, h2, h3⟩ := ih2 { out := r1.reverse ++ st.out, quote := q1, errs := st.errs, expanded := c1 } hl' rfl k1 (hrdy _)
    refine ⟨h1, c, ?_, ?_⟩
    · rw [h2]; simp
    · intro hb
      obtain ⟨x, -⟩ := h3 hb
      exact absurd (k3 x).1 (by simp)

/-- **C79** (expansion): a `%` line that means something with at most 19 text macros inside of each other is expanded to that, without
an error. Partial: macro functions, and names with digits in front of them (`C79_defect_number`). -/
theorem C79_expand_partial (E : Env) (ps : List Part) (q : Option Char) (r : Text) (hl : Line E ps) (h : Means E 19 none ps q r) :
    expandText E (textOf ps) = r ∧ errors E (textOf ps) = 0 := by
  obtain ⟨-, b, h1, h2⟩ := scan_means h start hl rfl (by intro x hx; cases hx) (Ready.of_ne _ _ (by simp [start]))
  refine ⟨?_, ?_⟩
  · simp only [expandText, maxNesting, Nat.reduceSub, h1]
    cases b with
    | true => simp [start]
    | false => simp [(h2 rfl).2]
  · simp only [errors, maxNesting]
    rw [h1]; rfl

theorem errs_mono (E : Env) (d : Nat) (src : Text) (st : St) : st.errs ≤ (scan E d src st).errs := by
  fun_induction scan E d src st
  case case1 => exact Nat.le_refl _
  case case2 ih => exact ih
  case case3 ih => exact ih
  case case4 ih => exact Nat.le_trans (Nat.le_succ _) ih
  case case5 ih1 ih2 => exact Nat.le_trans ‹_› ‹_›
  case case6 ih => exact ih

/-- Either a row has a meaning or an error is reported. -/
theorem means_or_error (E : Env) (hV : ValuesRead E) : ∀ (d : Nat) (ps : List Part), Line E ps → ∀ (st : St), QOk st.quote → Ready ps st.out →
    (∃ q r, Means E d st.quote ps q r) ∨ st.errs < (scan E d (textOf ps) st).errs := by
  intro d
  induction d using Nat.strongRecOn with
  | _ d ihd =>
  intro ps
  induction ps with
  | nil => intro _ st _ _; exact .inl ⟨_, _, .nil⟩
  | cons p ps ih =>
    intro hl st hok hr
    cases p with
    | chars t =>
      obtain ⟨ht, hl'⟩ := after_chars hl
      obtain ⟨e, hok'⟩ := scan_chars E d t (textOf ps) st hok (fun c hc => (ht.2 c hc).1)
      rw [textOf_cons]; simp only [Part.text]; rw [e]
      rcases ih hl' { st with out := t.reverse ++ st.out, quote := quoteAfter st.quote t } hok' (Ready.of_ne _ _ (chars_last ht _)) with ⟨q, r, h⟩ | h
      · exact .inl ⟨_, _, .chars h⟩
      · exact .inr h
    | name a b n =>
      obtain ⟨-, hl', hrdy, -, -⟩ := after_name hl
      have hamp := hr _ _ _ _ rfl
      cases hv : E.value n with
      | none =>
        rw [scan_kept E d a b n ps st hl hok (.inl hv)]
        rcases ih hl' { st with out := (Part.name a b n).text.reverse ++ st.out } hok (hrdy _) with ⟨q, r, h⟩ | h
        · exact .inl ⟨_, _, .plain hv h⟩
        · exact .inr h
      | some v =>
        by_cases hc : st.quote = none ∨ a = true ∨ b = true
        · rw [scan_replaced E d a b n v ps st hl hok hamp hv hc]
          cases d with
          | zero =>
            right
            have := errs_mono E 0 (textOf ps) { st with expanded := true, errs := st.errs + 1 }
            simp only at this ⊢; omega
          | succ d =>
            obtain ⟨vs, hvs, hlv⟩ := hV n v hv
            dsimp only
            rcases ihd d (by omega) vs hlv { st with expanded := true } hok (Ready.of_ne _ _ hamp) with ⟨q1, r1, h⟩ | h
            · obtain ⟨k1, c1, k2, k3⟩ := scan_means h { st with expanded := true } hlv rfl hok (Ready.of_ne _ _ hamp)
              rw [hvs, k2]
              rcases ih hl' { out := r1.reverse ++ st.out, quote := q1, errs := st.errs, expanded := c1 } k1 (hrdy _) with ⟨q, r, h'⟩ | h'
              · exact .inl ⟨_, _, .replaced hv hc hvs hlv h h'⟩
              · exact .inr h'
            · right
              rw [← hvs] at h
              exact Nat.lt_of_lt_of_le h (errs_mono E (d + 1) (textOf ps) _)
        · have hb : a = false ∧ b = false := by cases a <;> cases b <;> simp_all
          obtain ⟨rfl, rfl⟩ := hb
          have hn : st.quote ≠ none := fun e => hc (.inl e)
          rw [scan_kept E d false false n ps st hl hok (.inr ⟨rfl, rfl, hn, hamp⟩)]
          rcases ih hl' { st with out := (Part.name false false n).text.reverse ++ st.out } hok (hrdy _) with ⟨q, r, h⟩ | h
          · exact .inl ⟨_, _, .quoted hv hn h⟩
          · exact .inr h

/-- **C79** (nesting): an error is reported exactly for the lines without a meaning within 19 levels; in particular for each macro
that contains itself the expansion ends, with an error. -/
theorem C79_nesting (E : Env) (hV : ValuesRead E) (ps : List Part) (hl : Line E ps) :
    0 < errors E (textOf ps) ↔ ¬ ∃ q r, Means E 19 none ps q r := by
  constructor
  · rintro h ⟨q, r, hm⟩
    have := (C79_expand_partial E ps q r hl hm).2
    omega
  · intro h
    rcases means_or_error E hV 19 ps hl start (by intro x hx; cases hx) (Ready.of_ne _ _ (by simp [start])) with h' | h'
    · exact absurd h' h
    · have h0 : start.errs = 0 := rfl
      rw [h0] at h'; exact h'

/-- **C79** (one meaning): the meaning of a line is unique. -/
theorem C79_unique (E : Env) (ps : List Part) (q q' : Option Char) (r r' : Text) (hl : Line E ps) (h : Means E 19 none ps q r)
    (h' : Means E 19 none ps q' r') : r = r' :=
  (C79_expand_partial E ps q r hl h).1.symm.trans (C79_expand_partial E ps q' r' hl h').1

theorem scan_none (E : Env) (d : Nat) (src : Text) (st : St) (h : ∀ n, E.value n = none) :
    (scan E d src st).out = src.reverse ++ st.out ∧ (scan E d src st).errs = st.errs := by
  fun_induction scan E d src st
  case case1 => simp
  case case2 st c s hc id rest hv ih =>
    have : id ++ rest = c :: s := by simp [id, rest]
    rw [← this]
    simp only [ih]
    simp
  case case3 => exact absurd ‹E.value _ = some _› (by rw [h]; simp)
  case case4 => exact absurd ‹E.value _ = some _› (by rw [h]; simp)
  case case5 => exact absurd ‹E.value _ = some _› (by rw [h]; simp)
  case case6 ih => simp [ih]

/-- **C79** (other lines): without text macros every line, of whatever characters, stays as it is. -/
theorem C79_unchanged (E : Env) (h : ∀ n, E.value n = none) (line : Text) : expandText E line = line ∧ errors E line = 0 := by
  obtain ⟨h1, h2⟩ := scan_none E (maxNesting - 1) line start h
  refine ⟨?_, h2⟩
  unfold expandText
  dsimp only
  split
  · rw [h1]; simp [start]
  · rfl

/-- **C79** (recursion): the expansion of a text macro that contains itself ends, with one error. -/
theorem C79_self (E : Env) (n : Text) (hn : IsName E n) (hv : E.value n = some n) : errors E n = 1 ∧ expandText E n = [] := by
  have key : ∀ d (st : St), st.quote = none → st.out = [] →
      scan E d n st = { st with errs := st.errs + 1, expanded := true } := by
    intro d
    induction d with
    | zero =>
      intro st hq ho
      have e := scan_name E 0 n [] st hn (by simp)
      rw [List.append_nil] at e
      rw [e]; simp only [hv]; simp [hq, ho, scan_nil]
    | succ d ih =>
      intro st hq ho
      have e := scan_name E (d + 1) n [] st hn (by simp)
      rw [List.append_nil] at e
      rw [e]; simp only [hv]; simp [hq, ho, scan_nil, ih]
  have := key (maxNesting - 1) start rfl rfl
  constructor
  · simp only [errors, this]; rfl
  · simp only [expandText, this]; rfl

/-- **C79** (defect): a text macro is replaced behind digits also, inside of what is written as one number. -/
theorem C79_defect_number (E : Env) (t n v : Text) (ht : ∀ c ∈ t, c.isDigit = true) (hn : IsName E n) (hv : E.value n = some v)
    (vs : List Part) (hvs : v = textOf vs) (hl : Line E vs) (q : Option Char) (r : Text) (hm : Means E 18 none vs q r) :
    expandText E (t ++ n) = t ++ r := by
  have hd : ∀ c ∈ t, isFirst E c = false ∧ c ≠ '&' := by
    intro c hc
    have hx := ht c hc
    simp only [Char.isDigit, Bool.and_eq_true, decide_eq_true_eq] at hx
    have h1 : 48 ≤ c.toNat ∧ c.toNat ≤ 57 := by simpa [UInt32.le_iff_toNat_le] using hx
    have hne : ∀ y : Char, ¬(48 ≤ y.toNat ∧ y.toNat ≤ 57) → c ≠ y := by rintro y hy rfl; exact hy h1
    refine ⟨?_, hne _ (by decide)⟩
    have ha : c.isAlpha = false := by
      have : ¬ (65 ≤ c.toNat ∧ c.toNat ≤ 90) ∧ ¬ (97 ≤ c.toNat ∧ c.toNat ≤ 122) := by omega
      simp only [Char.isAlpha, Char.isUpper, Char.isLower, Bool.or_eq_false_iff, Bool.and_eq_false_iff, decide_eq_false_iff_not,
        UInt32.le_iff_toNat_le]
      simp only [Char.toNat] at this
      simp
      omega
    simp [isFirst, isLabel, ha, hne '_' (by decide), hne '@' (by decide), hne '$' (by decide), hne '?' (by decide), hne '.' (by decide)]
  obtain ⟨e, -⟩ := scan_chars E (maxNesting - 1) t n start (by intro x hx; cases hx) (fun c hc => (hd c hc).1)
  have hq : quoteAfter none t = none := by
    have : ∀ c ∈ t, quoteStep c none = none := by
      intro c hc
      have hx := ht c hc
      have h1 : c ≠ '"' := by rintro rfl; revert hx; decide
      have h2 : c ≠ '\'' := by rintro rfl; revert hx; decide
      simp [quoteStep, h1, h2]
    clear e
    induction t with
    | nil => rfl
    | cons c t ih =>
      show quoteAfter (quoteStep c none) t = none
      rw [this c (by simp)]
      exact ih (fun x hx => ht x (by simp [hx])) (fun x hx => hd x (by simp [hx])) (fun x hx => this x (by simp [hx]))
  have hamp : ¬ t.getLast? = some '&' := by
    intro h
    exact (hd '&' (List.mem_of_getLast? h)).2 rfl
  have e1 := scan_name E (maxNesting - 1) n [] { start with out := t.reverse, quote := none } hn (by simp)
  obtain ⟨-, b, e2, hb⟩ := scan_means hm { start with out := t.reverse, quote := none, expanded := true } hl rfl (by intro x hx; cases hx)
    (Ready.of_ne _ _ (by simpa using hamp))
  have hb : b = true := by cases b with | true => rfl | false => exact absurd (hb rfl).1 (by simp)
  subst hb
  rw [← hvs] at e2
  simp only [List.append_nil] at e1
  have hs : scan E (maxNesting - 1) (t ++ n) start = ⟨r.reverse ++ t.reverse, q, 0, true⟩ := by
    rw [e]
    simp only [start, hq, List.append_nil]
    simp only [start] at e1 e2
    rw [e1]
    simp only [hv, maxNesting]
    simp [hamp, e2, scan_nil]
  simp only [expandText, hs]
  simp

/-! ## Concrete cases -/

/-- `A` is `B!`, `B` is `y`, `T` is `T`. -/
def env0 : Env :=
  ⟨false, fun n => if n = ['A'] then some ['B', '!'] else if n = ['B'] then some ['y'] else if n = ['T'] then some ['T'] else none⟩

/-- `A,"A"` -/
def line0 : List Part := [.name false false ['A'], .chars [',', '"'], .name false false ['A'], .chars ['"']]
/-- `A,"&A"` -/
def line1 : List Part := [.name false false ['A'], .chars [',', '"'], .name true false ['A'], .chars ['"']]

theorem isNameA : IsName env0 ['A'] := ⟨'A', [], rfl, by decide, by simp⟩
theorem isNameB : IsName env0 ['B'] := ⟨'B', [], rfl, by decide, by simp⟩
theorem isNameT : IsName env0 ['T'] := ⟨'T', [], rfl, by decide, by simp⟩
theorem isNameY : IsName env0 ['y'] := ⟨'y', [], rfl, by decide, by simp⟩
theorem line_end : Line env0 [.chars ['"']] := .chars ⟨by simp, by decide⟩
theorem line_mid (a : Bool) : Line env0 [.chars [',', '"'], .name a false ['A'], .chars ['"']] :=
  .charsName ⟨by simp, by decide⟩ (by intro _ c hc; simp at hc; subst hc; decide)
    (.nameChars isNameA (by intro _ c hc; simp at hc; subst hc; decide) line_end)
theorem line_all (a : Bool) : Line env0 [.name false false ['A'], .chars [',', '"'], .name a false ['A'], .chars ['"']] :=
  .nameChars isNameA (by intro _ c hc; simp at hc; subst hc; decide) (line_mid a)

theorem means_A {q : Option Char} (a : Bool) (h : q = none ∨ a = true ∨ false = true) (d : Nat) {ps q' r} (hr : q = none → Means env0 (d + 2) none ps q' r)
    (hq : q = none) : Means env0 (d + 2) q (.name a false ['A'] :: ps) q' (['y', '!'] ++ r) := by
  subst hq
  have hB : Means env0 (d + 1) none [.name false false ['B'], .chars ['!']] none ['y', '!'] := by
    have := Means.replaced (E := env0) (d := d) (q := none) (a := false) (b := false) (n := ['B']) (v := ['y'])
      (vs := [.name false false ['y']]) (ps := [.chars ['!']]) (q1 := none) (r1 := ['y']) (q' := none) (r := ['!'])
      (by decide) (.inl rfl) (by decide) (.name isNameY) (.plain (r := []) (by decide) .nil) (.chars (r := []) .nil)
    exact this
  exact .replaced (v := ['B', '!']) (by decide) h (by decide)
    (.nameChars isNameB (by intro _ c hc; simp at hc; subst hc; decide) (.chars ⟨by simp, by decide⟩)) hB (hr rfl)

/-- outside of the string only -/
theorem means0 : Means env0 19 none line0 none "y!,\"A\"".toList :=
  means_A (r := [',', '"', 'A', '"']) false (.inl rfl) 17 (fun _ => .chars (r := ['A', '"']) (.quoted (r := ['"']) (v := ['B', '!']) (by decide) (by decide)
    (.chars (r := []) .nil))) rfl

example : expandText env0 "A,\"A\"".toList = "y!,\"A\"".toList := (C79_expand_partial env0 line0 none _ (line_all false) means0).1
/-- `T` contains itself: an error -/
example : errors env0 ['T'] = 1 := (C79_self env0 ['T'] isNameT (by decide)).1
/-- `10B` is read as `10` and the text macro `B` -/
example : expandText env0 (['1', '0'] ++ ['B']) = ['1', '0', 'y'] :=
  C79_defect_number env0 ['1', '0'] ['B'] ['y'] (by decide) isNameB (by decide) [.name false false ['y']] (by decide) (.name isNameY) none ['y']
    (.plain (r := []) (by decide) .nil)

end Verif.TextExp
