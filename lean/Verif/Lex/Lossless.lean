import Verif.Lex.Fuel
import Verif.Lex.Spec
/-! No part of a line is lost by the tokenizer. -/
namespace Verif.Lex
open Verif.Num (hd toLower isIdChar getNumber)
open Spec

theorem skipSp_split (s : Str) : ∃ sp, Blank sp ∧ s = sp ++ skipSp s := by
  refine ⟨s.takeWhile isSpace, ?_, (List.takeWhile_append_dropWhile ..).symm⟩
  intro c hc
  exact List.all_eq_true.1 List.all_takeWhile c hc

theorem concatLine_nil (src : Str) (n : Nat) : concatLine src n [] = none := by
  unfold concatLine; split <;> rfl

theorem quoted_spec {q : Nat} : ∀ {s : Str} {n : Nat} {t : Str} {m : Nat} {b : Bool} {r : Str}, quoted q s n = some (t, m, b, r) →
    (b = true ∧ ∃ u, s = double q u ++ q :: r ∧ t = u ++ [q] ∧ m = n + u.length) ∨
    (b = false ∧ ∃ u, s = double q u ∧ r = [] ∧ t = u ∧ m = n + u.length + 1)
  | [], n, t, m, b, r, h => by
    simp only [quoted] at h
    split at h
    · cases h
    · split at h
      · cases h
      · simp only [Option.some.injEq, Prod.mk.injEq] at h
        obtain ⟨rfl, rfl, rfl, rfl⟩ := h
        exact .inr ⟨rfl, [], rfl, rfl, rfl, rfl⟩
  | [c], n, t, m, b, r, h => by
    unfold quoted at h
    split at h
    · cases h
    · split at h
      · rename_i hc
        simp only [Option.some.injEq, Prod.mk.injEq] at h
        obtain ⟨rfl, rfl, rfl, rfl⟩ := h
        subst hc
        exact .inl ⟨rfl, [], rfl, rfl, rfl⟩
      · rename_i hc
        simp only [Option.map_eq_some_iff] at h
        obtain ⟨⟨t', m', b', r'⟩, h1, h2⟩ := h
        simp only [Prod.mk.injEq] at h2
        obtain ⟨rfl, rfl, rfl, rfl⟩ := h2
        rcases quoted_spec h1 with ⟨hb, u, e1, e2, e3⟩ | ⟨hb, u, e1, e2, e3, e4⟩
        · exact absurd (congrArg List.length e1) (by simp)
        · refine .inr ⟨hb, c :: u, ?_, e2, by rw [e3], by simp [e4]; omega⟩
          simp [double, hc, ← e1]
  | c :: d :: s, n, t, m, b, r, h => by
    unfold quoted at h
    split at h
    · cases h
    · split at h
      · rename_i hc
        split at h
        · rename_i hd'
          simp only [Option.map_eq_some_iff] at h
          obtain ⟨⟨t', m', b', r'⟩, h1, h2⟩ := h
          simp only [Prod.mk.injEq] at h2
          obtain ⟨rfl, rfl, rfl, rfl⟩ := h2
          subst hc; subst hd'
          rcases quoted_spec h1 with ⟨hb, u, e1, e2, e3⟩ | ⟨hb, u, e1, e2, e3, e4⟩
          · exact .inl ⟨hb, d :: u, by simp [double, e1], by simp [e2], by simp [e3]; omega⟩
          · exact .inr ⟨hb, d :: u, by simp [double, e1], e2, by simp [e3], by simp [e4]; omega⟩
        · simp only [Option.some.injEq, Prod.mk.injEq] at h
          obtain ⟨rfl, rfl, rfl, rfl⟩ := h
          subst hc
          exact .inl ⟨rfl, [], rfl, rfl, rfl⟩
      · rename_i hc
        simp only [Option.map_eq_some_iff] at h
        obtain ⟨⟨t', m', b', r'⟩, h1, h2⟩ := h
        simp only [Prod.mk.injEq] at h2
        obtain ⟨rfl, rfl, rfl, rfl⟩ := h2
        rcases quoted_spec h1 with ⟨hb, u, e1, e2, e3⟩ | ⟨hb, u, e1, e2, e3, e4⟩
        · exact .inl ⟨hb, c :: u, by simp [double, hc, e1], by simp [e2], by simp [e3]; omega⟩
        · exact .inr ⟨hb, c :: u, by simp [double, hc, e1], e2, by simp [e3], by simp [e4]; omega⟩

theorem inQuote_spec {q : Nat} : ∀ {s : Str} {n : Nat} {t : Str} {m : Nat} {r : Str}, inQuote q s n = some (t, m, r) →
    ∃ b, s = b ++ r ∧ Stripped b t ∧ m = n + t.length
  | [], n, t, m, r, h => by simp [inQuote] at h
  | [c], n, t, m, r, h => by
    simp only [inQuote] at h
    split at h
    · simp only [Option.some.injEq, Prod.mk.injEq] at h
      obtain ⟨rfl, rfl, rfl⟩ := h
      exact ⟨[c], rfl, .keep c .nil, rfl⟩
    · cases h
  | c :: d :: s, n, t, m, r, h => by
    simp only [inQuote] at h
    split at h
    · simp only [Option.some.injEq, Prod.mk.injEq] at h
      obtain ⟨rfl, rfl, rfl⟩ := h
      exact ⟨[c], rfl, .keep c .nil, rfl⟩
    · split at h
      · cases h
      · split at h
        · rename_i hc
          simp only [Option.map_eq_some_iff] at h
          obtain ⟨⟨t', m', r'⟩, h1, h2⟩ := h
          simp only [Prod.mk.injEq] at h2
          obtain ⟨rfl, rfl, rfl⟩ := h2
          obtain ⟨b, e1, e2, e3⟩ := inQuote_spec h1
          subst hc
          exact ⟨33 :: d :: b, by simp [e1], .bang d e2, by simp [e3]; omega⟩
        · simp only [Option.map_eq_some_iff] at h
          obtain ⟨⟨t', m', r'⟩, h1, h2⟩ := h
          simp only [Prod.mk.injEq] at h2
          obtain ⟨rfl, rfl, rfl⟩ := h2
          obtain ⟨b, e1, e2, e3⟩ := inQuote_spec h1
          exact ⟨c :: b, by simp [e1], .keep c e2, by simp [e3]; omega⟩

theorem stripped_append {b s : Str} (h : Stripped b s) {b' s' : Str} (h' : Stripped b' s') : Stripped (b ++ b') (s ++ s') := by
  induction h with
  | nil => exact h'
  | keep c _ ih => exact .keep c ih
  | bang d _ ih => exact .bang d ih

/-- what `lit` has read -/
def LitGood (src dst : Str) (n : Nat) (t : Str) (m : Nat) (r : Str) (ms : List Str) : Prop :=
  ms = [] ∧ ∃ b u, src = b ++ 62 :: r ∧ t = dst ++ u ∧ Stripped b u ∧ m = n + u.length

theorem LitGood.keep {src dst n t m r ms} (c : Nat) (h : LitGood src (dst ++ [c]) (n + 1) t m r ms) : LitGood (c :: src) dst n t m r ms := by
  obtain ⟨h1, b, u, rfl, rfl, e3, rfl⟩ := h
  exact ⟨h1, c :: b, c :: u, by simp, by simp, .keep _ e3, by simp; omega⟩
theorem LitGood.bang {src dst n t m r ms} (c : Nat) (h : LitGood src (dst ++ [c]) (n + 1) t m r ms) : LitGood (33 :: c :: src) dst n t m r ms := by
  obtain ⟨h1, b, u, rfl, rfl, e3, rfl⟩ := h
  exact ⟨h1, 33 :: c :: b, c :: u, by simp, by simp, .bang _ e3, by simp; omega⟩

theorem lit_spec {dflt : Bool} {f2 level n : Nat} {src dst : Str} {more : List Str} : more = [] →
    ∀ {t m r ms}, lit dflt f2 level n src dst more = .closed t m r ms → LitGood src dst n t m r ms := by
  fun_induction lit dflt f2 level n src dst more <;> intro hm t m r ms hh
  all_goals try (cases hh; done)
  case case3 => cases hm
  case case6 => cases hh; exact ⟨hm, [], [], rfl, by simp, .nil, rfl⟩
  case case8 c s _ _ _ t1 m1 r1 h ih =>
    obtain ⟨h1, b, u, e1, e2, e3, e4⟩ := ih hm hh
    obtain ⟨b', f1, f2, f3⟩ := inQuote_spec h
    exact ⟨h1, c :: b' ++ b, c :: t1 ++ u, by simp [f1, e1], by simp [e2], stripped_append (Stripped.keep c f2) e3, by simp [e4, f3]; omega⟩
  case case12 h ih => rw [hm, concatLine_nil] at h; cases h
  case case10 hb ih =>
    obtain ⟨rfl, -⟩ := hb
    exact .bang _ (ih hm hh)
  case case5 ih => exact .keep _ (ih hm hh)
  case case7 ih => exact .keep _ (ih hm hh)
  case case9 ih => exact .keep _ (ih hm hh)
  case case13 ih => exact .keep _ (ih hm hh)
  case case14 ih => exact .keep _ (ih hm hh)

theorem raw_spec {dflt tl : Bool} {n : Nat} {src : Str} {more : List Str} : more = [] →
    (∀ {t m r ms}, raw dflt tl n src more = .done t m r ms → ms = [] ∧ src = t ++ r) ∧ (∀ {r ms}, raw dflt tl n src more ≠ .empty r ms) := by
  fun_induction raw dflt tl n src more <;> intro hm
  case case4 h _ ih => rw [hm, concatLine_nil] at h; cases h
  case case5 h _ => rw [hm, concatLine_nil] at h; cases h
  case case1 => exact ⟨fun hh => by (cases hh), fun hh => by (cases hh)⟩
  case case2 => exact ⟨fun hh => by cases hh; exact ⟨hm, rfl⟩, fun hh => by (cases hh)⟩
  case case3 => exact ⟨fun hh => by cases hh; exact ⟨hm, rfl⟩, fun hh => by (cases hh)⟩
  case case8 => exact ⟨fun hh => by (cases hh), fun hh => by (cases hh)⟩
  all_goals
    rename_i ih
    refine ⟨fun hh => ?_, fun hh => ?_⟩
    · obtain ⟨t', h1, rfl⟩ := RawRes.push_done hh
      have := (ih hm).1 h1
      exact ⟨this.1, by simp [this.2]⟩
    · exact (ih hm).2 (RawRes.push_empty hh)

/-- one token is read without loss -/
def Good (cfg : Cfg) (idx : Nat) (o : Out) (input : Str) : Prop :=
  (∀ t r f ms, o = .tok t r f ms → ms = [] ∧
    ((∃ p r', Spelled p t ∧ input = p ++ r' ∧ skipSp r' = skipSp r) ∨
     (r = [] ∧ ∃ q s, (q = 34 ∨ q = 39) ∧ input = q :: double q s ∧ t = ⟨.str 0 (s.length + 1), q :: s⟩)) ∧
    (t.kind = .directive T_COMMENT DRT_CONDDIR → ∃ df, cfg.resword t.text = .directive T_COMMENT DRT_CONDDIR df ∧ input = t.text ++ r)) ∧
  (∀ r e ms, o = .empty r e ms → ms = [] ∧ input = 37 :: r ∧ idx = 0 ∧ cfg.dflt = true)

/-- the token is its text and not COMMENT -/
def Plain (k : Kind) : Prop := (∀ d n, k = .str d n → d = 0) ∧ k ≠ .directive T_COMMENT DRT_CONDDIR

section
variable {cfg : Cfg} {idx : Nat}
theorem good_error {s} : Good cfg idx .error s := ⟨fun _ _ _ _ e => by (cases e), fun _ _ _ e => by (cases e)⟩
theorem good_outside {s} : Good cfg idx .outside s := ⟨fun _ _ _ _ e => by (cases e), fun _ _ _ e => by (cases e)⟩
theorem good_empty {s e} (h1 : idx = 0) (h2 : cfg.dflt = true) : Good cfg idx (.empty s e []) (37 :: s) :=
  ⟨fun _ _ _ _ e => by (cases e), fun _ _ _ e => by cases e; exact ⟨rfl, rfl, h1, h2⟩⟩
theorem good_tok {t r f s} (p r' : Str) (h1 : Spelled p t) (h2 : s = p ++ r') (h3 : skipSp r' = skipSp r)
    (h4 : t.kind ≠ .directive T_COMMENT DRT_CONDDIR) : Good cfg idx (.tok t r f []) s :=
  ⟨fun _ _ _ _ e => by cases e; exact ⟨rfl, .inl ⟨p, r', h1, h2, h3⟩, fun h => absurd h h4⟩, fun _ _ _ e => by (cases e)⟩
theorem good_exact {k p r f s} (h : s = p ++ r) (h0 : p ≠ []) (hk : Plain k) : Good cfg idx (.tok ⟨k, p⟩ r f []) s :=
  good_tok p r (.exact h0 hk.1) h rfl hk.2
theorem good_ite {p : Prop} [Decidable p] {a b : Out} {i} (h1 : p → Good cfg idx a i) (h2 : ¬ p → Good cfg idx b i) :
    Good cfg idx (if p then a else b) i := by
  split
  · exact h1 ‹_›
  · exact h2 ‹_›
end

theorem raw_ne_nil {dflt tl : Bool} {c : Nat} {s : Str}
    (hc : ¬ (isSpace c = true ∨ c = 44 ∨ c = 41 ∨ c = 37 ∨ c = 59 ∧ dflt = true))
    {t m r ms} (h : raw dflt tl 0 (c :: s) [] = .done t m r ms) : t ≠ [] := by
  have h1 := raw_mu_lt hc h
  have h2 := (raw_spec rfl).1 h
  rintro rfl
  rw [h2.2, h2.1] at h1
  simp at h1

theorem getString_good {cfg idx f2 c s} (hc : ¬ (isSpace c = true ∨ c = 44 ∨ c = 41 ∨ c = 37 ∨ c = 59 ∧ cfg.dflt = true)) :
    Good cfg idx (getString cfg f2 (c :: s) []) (c :: s) := by
  unfold getString
  split
  · exact good_error
  rename_i c' s' heq
  cases heq
  refine good_ite (fun hq => ?_) fun _ => good_ite (fun _ => good_outside) fun _ => good_ite (fun h60 => ?_) fun _ => ?_
  · split
    · exact good_error
    · rename_i t n cl rest h
      refine ⟨fun _ _ _ _ e => ?_, fun _ _ _ e => by (cases e)⟩
      cases e
      refine ⟨rfl, ?_, fun h => by (cases h)⟩
      rcases quoted_spec h with ⟨rfl, u, e1, e2, e3⟩ | ⟨rfl, u, e1, e2, e3, e4⟩
      · refine .inl ⟨c :: double c u ++ [c], rest, ?_, by simp [e1], rfl⟩
        rw [e2, e3, Nat.zero_add]
        exact Spelled.quoted hq
      · refine .inr ⟨e2, c, u, hq, by rw [e1], by simp [e3, e4]⟩
  · split
    · rename_i h
      obtain ⟨rfl, b, u, e1, e2, e3, e4⟩ := lit_spec rfl h
      subst h60
      refine good_tok (60 :: b ++ [62]) _ ?_ (by simp [e1]) rfl nofun
      simp only [List.nil_append, Nat.zero_add] at e2 e4
      subst e2; subst e4
      exact .literal e3
    · exact good_error
    · refine good_ite (fun _ => ?_) fun _ => good_outside
      split
      · rename_i h
        obtain ⟨rfl, e⟩ := (raw_spec rfl).1 h
        exact good_exact (by rw [e]; rfl) (by simp) ⟨by intro d n e; cases e; rfl, nofun⟩
      · exact good_outside
      · exact good_error
  · split
    · rename_i h
      have h0 := raw_ne_nil hc h
      obtain ⟨rfl, e⟩ := (raw_spec rfl).1 h
      exact good_exact e h0 ⟨by intro d n e; cases e; rfl, nofun⟩
    · rename_i h
      exact absurd h ((raw_spec rfl).2)
    · exact good_error

theorem getNum_good {cfg idx f2 c s} (h : isDigit c = true) : Good cfg idx (getNum cfg f2 (c :: s) []) (c :: s) := by
  unfold getNum
  obtain ⟨n, ht, hr, hn⟩ := getNumber_shape cfg.radix (c :: s) (by simpa [hd_cons] using h)
  have hne : 0 < n → (getNumber cfg.radix (c :: s)).text ≠ [] := by
    intro hn; rw [ht]; cases n <;> simp at *
  have hsp : c :: s = (getNumber cfg.radix (c :: s)).text ++ (getNumber cfg.radix (c :: s)).rest := by
    rw [ht, hr, List.take_append_drop]
  dsimp only
  cases k : (getNumber cfg.radix (c :: s)).kind with
  | num => exact good_exact hsp (hne (by simpa [k] using hn)) ⟨nofun, nofun⟩
  | badNum => exact good_exact hsp (hne (by simpa [k] using hn)) ⟨nofun, nofun⟩
  | float =>
    refine good_ite (fun _ => ?_) fun h0 => good_exact hsp h0 ⟨nofun, nofun⟩
    exact good_exact (scanFloat_split ..).symm (scanFloat_digit c s h) ⟨nofun, nofun⟩

theorem skipSp_idem (s : Str) : skipSp (skipSp s) = skipSp s := by
  rcases skipSp_hd s with h | ⟨c, t, h, hc⟩
  · rw [h]; rfl
  · rw [h]; simp [skipSp, hc]

theorem getId_good {cfg idx f2 c s} : Good cfg idx (getId cfg f2 (c :: s) []) (c :: s) := by
  unfold getId
  split
  · exact good_error
  rename_i c' s' heq
  cases heq
  have hsp : c :: s = (c :: s.takeWhile isIdChar) ++ s.dropWhile isIdChar := by simp
  dsimp only
  refine good_ite (fun _ => good_error) fun _ => good_ite (fun h => ?_) fun _ => ?_
  · rw [← h]; exact good_exact hsp (by simp) ⟨nofun, nofun⟩
  · split
    · refine good_ite (fun h => ?_) fun _ => good_exact hsp (by simp) ⟨nofun, nofun⟩
      rw [h.1]; exact good_exact rfl (by simp) ⟨nofun, nofun⟩
    · exact good_exact hsp (by simp) ⟨nofun, nofun⟩
    · exact good_ite (fun _ => good_outside) fun _ => good_tok _ _ (.exact (by simp) nofun) hsp (skipSp_idem _).symm nofun
    · rename_i tv dt df hr
      refine ⟨fun _ _ _ _ e => ?_, fun _ _ _ e => by (cases e)⟩
      cases e
      refine ⟨rfl, .inl ⟨_, _, .exact (by simp) nofun, hsp, rfl⟩, fun h => ?_⟩
      simp only [Kind.directive.injEq] at h
      exact ⟨df, by rw [← h.1, ← h.2]; exact hr, hsp⟩
    all_goals exact good_exact hsp (by simp) ⟨nofun, nofun⟩

theorem getBack_good {cfg idx f2 s} : Good cfg idx (getBack f2 s []) (96 :: s) := by
  unfold getBack
  dsimp only
  refine good_ite (fun h => ?_) fun _ => good_error
  have h1 := List.takeWhile_append_dropWhile (p := fun c => decide (c ≠ 96) && decide (c ≠ 59)) (l := s)
  generalize List.takeWhile _ s = a at *
  generalize List.dropWhile _ s = b at *
  cases b with
  | nil => simp [hd] at h
  | cons x b =>
    have : x = 96 := h
    subst this
    refine good_tok (96 :: a ++ [96]) b .back ?_ rfl nofun
    simp [← h1]

theorem getSpecial_good {cfg idx prev f2 c s} (hs : isSpace c = false) (hc : ¬ (c = 59 ∧ cfg.dflt = true)) :
    Good cfg idx (getSpecial cfg idx prev f2 (c :: s) []) (c :: s) := by
  unfold getSpecial
  split
  · exact good_error
  rename_i c' s' heq
  cases heq
  have hk0 : Plain Kind.sym := ⟨nofun, nofun⟩
  have hk1 : Plain (Kind.directive T_EQU DRT_EQUALSGN) := ⟨nofun, by decide⟩
  have hk1' : Plain (Kind.directive T_ECHO DRT_ECHO) := ⟨nofun, by decide⟩
  have hk2 : ∀ a, Plain (Kind.str 0 a) := fun a => ⟨by intro d n e; cases e; rfl, nofun⟩
  have ht1 : ∀ k a, c = a → Plain k → ∀ f, Good cfg idx (.tok ⟨k, [a]⟩ s f []) (c :: s) := fun k a h hk f => by
    rw [h]; exact good_exact rfl (by simp) hk
  have ht2 : ∀ k a b, c = a → b ≠ 0 → hd s = b → Plain k → ∀ f, Good cfg idx (.tok ⟨k, [a, b]⟩ (s.drop 1) f []) (c :: s) := fun k a b h hb h' hk f => by
    rw [h]
    cases s with
    | nil => exact absurd h'.symm hb
    | cons x s => have : x = b := h'; subst this; exact good_exact rfl (by simp) hk
  refine good_ite (fun h1 => good_ite (fun h2 => ht2 _ _ _ h1 (by decide) h2 hk0 _) fun _ => ht1 _ _ h1 hk0 _) fun n1 => ?_
  refine good_ite (fun h1 => good_ite (fun h2 => ht2 _ _ _ h1 (by decide) h2 hk0 _) fun _ => ht1 _ _ h1 hk0 _) fun n2 => ?_
  refine good_ite (fun h1 => good_ite (fun h2 => ?_) fun _ => good_ite (fun h2 => by rw [h1]; exact good_empty h2.2 h2.1) fun _ => ht1 _ _ h1 hk0 _) fun n3 => ?_
  · rw [h1]
    refine good_exact ?_ (by simp) hk1'
    simp
  refine good_ite (fun h1 => ht1 _ _ h1 hk0 _) fun n4 => ?_
  refine good_ite (fun h1 => ht1 _ _ rfl hk0 _) fun n5 => ?_
  refine good_ite (fun h1 => good_ite (fun h2 => good_outside) fun _ => ?_) fun n6 => ?_
  · rw [h1]
    split
    · rename_i h43
      obtain ⟨sp, hb, e⟩ := skipSp_split s
      cases hx : skipSp s with
      | nil => rw [hx] at h43; cases h43
      | cons x y =>
        rw [hx] at h43 e
        have : x = 43 := h43
        subst this
        refine good_tok (91 :: sp ++ [43]) y (.plus hb) (by rw [e]; simp) rfl nofun
    · exact good_tok [91] s (.exact (by simp) hk0.1) rfl (skipSp_idem _).symm nofun
  refine good_ite (fun h1 => good_ite (fun h2 => good_outside) fun _ => ?_) fun n7 => ?_
  · rw [h1]; exact good_tok [93] s (.exact (by simp) hk0.1) rfl (skipSp_idem _).symm nofun
  refine good_ite (fun h1 => ht1 _ _ h1.1 hk1 _) fun n8 => ?_
  refine good_ite (fun h1 => good_ite (fun h3 => good_ite (fun h4 => ht2 _ _ _ rfl (by omega) h4 (hk2 _) _) fun _ => ht1 _ _ rfl (hk2 _) _)
    fun _ => good_ite (fun h4 => ht2 _ _ _ rfl (by omega) h4 (hk2 _) _) fun _ => ht1 _ _ rfl (hk2 _) _) fun n9 => ?_
  refine good_ite (fun h1 => ht1 _ _ h1 hk0 _) fun n10 => ?_
  apply getString_good
  rintro (h | h | h | h | h)
  · rw [hs] at h; cases h
  · exact n5 (by simp [h])
  · exact n5 (by simp [h])
  · exact n3 h
  · exact hc h

theorem getToken_good {cfg idx prev f2 c s} (hs : isSpace c = false) (hc : ¬ (c = 59 ∧ cfg.dflt = true)) :
    Good cfg idx (getToken cfg idx prev f2 (c :: s) []) (c :: s) := by
  unfold getToken
  dsimp only
  refine good_ite (fun h => getNum_good h) fun _ => good_ite (fun h => getId_good) fun _ => good_ite (fun h => getId_good) fun _ =>
    good_ite (fun h => ?_) fun _ => getSpecial_good hs hc
  have : c = 96 := h.1
  subst this
  exact getBack_good

theorem blank_append {a b : Str} (ha : Blank a) (hb : Blank b) : Blank (a ++ b) := by
  intro c hc
  rcases List.mem_append.1 hc with h | h
  · exact ha c h
  · exact hb c h

theorem reads_blank {cfg : Cfg} {i : Nat} {s : Str} {ts : List Token} (h : Reads cfg i s ts) {sp : Str} (hb : Blank sp) :
    Reads cfg i (sp ++ s) ts := by
  cases h with
  | nil h => exact .nil (blank_append hb h)
  | comment hd h => rw [← List.append_assoc]; exact .comment hd (blank_append hb h)
  | block hi h hr => rw [← List.append_assoc, ← List.append_assoc]; exact .block hi (blank_append hb h) hr
  | percent hd h hr => rw [← List.append_assoc]; exact .percent hd (blank_append hb h) hr
  | unterminated hq h => rw [← List.append_assoc]; exact .unterminated hq (blank_append hb h)
  | token h hp hr => rw [← List.append_assoc, ← List.append_assoc]; exact .token (blank_append hb h) hp hr

theorem reads_skip {cfg : Cfg} {i : Nat} {s : Str} {ts : List Token} (h : Reads cfg i (skipSp s) ts) : Reads cfg i s ts := by
  obtain ⟨sp, hb, e⟩ := skipSp_split s
  rw [e]; exact reads_blank h hb

theorem loop_reads (cfg : Cfg) : ∀ (n : Nat) (toks : List Token) (exp : Bool) (f2 : Nat) (input : Str) {toks' exp' inside more},
    loop cfg n toks exp f2 input [] = .done toks' exp' inside more →
    more = [] ∧ ∃ ts, toks' = toks ++ ts ∧ Reads cfg toks.length (skipSp input) ts
  | 0, toks, exp, f2, input, _, _, _, _, h => by rw [loop.eq_def] at h; cases h
  | n + 1, toks, exp, f2, input, toks', exp', inside, more, h => by
    rcases loop_cases cfg input with h0 | ⟨c, t, h0, hsp, hc⟩
    · have h1 : Reads cfg toks.length (skipSp input) [] := by
        rcases h0 with h0 | h0
        · rw [h0]; exact .nil (by intro c hc; cases hc)
        · cases hx : skipSp input with
          | nil => exact .nil (by intro c hc; cases hc)
          | cons x y =>
            rw [hx] at h0
            have : x = 59 := h0.1
            subst this
            exact Reads.comment (sp := []) h0.2 (by intro c hc; cases hc)
      rw [loop_end h0] at h
      split at h
      · cases h; exact ⟨rfl, [], by simp, h1⟩
      · cases h; exact ⟨rfl, [], by simp, h1⟩
    · rw [loop_step h0 hc] at h
      rw [h0]
      have hg := getToken_good (cfg := cfg) (idx := toks.length) (prev := toks.getLast?) (f2 := f2) (s := t) hsp hc
      cases ho : getToken cfg toks.length toks.getLast? f2 (c :: t) [] with
      | error => rw [ho] at h; cases h
      | outside => rw [ho] at h; cases h
      | empty r e ms =>
        rw [ho] at h
        obtain ⟨rfl, hi, h0, hd⟩ := hg.2 _ _ _ ho
        obtain ⟨h1, ts, e1, h2⟩ := loop_reads cfg n _ _ _ _ h
        refine ⟨h1, ts, e1, ?_⟩
        rw [h0] at h2 ⊢
        rw [hi]
        exact Reads.percent (sp := []) hd (by intro c hc; cases hc) (reads_skip h2)
      | tok tk r f ms =>
        rw [ho] at h
        obtain ⟨rfl, hi, hcm⟩ := hg.1 _ _ _ _ ho
        dsimp only at h
        split at h
        · rename_i hcom
          have hk : tk.kind = .directive T_COMMENT DRT_CONDDIR ∧ (toks.length = 0 ∨ toks.length = 2) := by
            unfold isComment at hcom
            simp only [Bool.and_eq_true, Bool.or_eq_true, decide_eq_true_eq] at hcom
            refine ⟨?_, hcom.1.imp id (·.1)⟩
            have := hcom.2
            split at this
            · rename_i a b hk
              simp only [Bool.and_eq_true, decide_eq_true_eq] at this
              rw [hk, this.1, this.2]
            · cases this
          obtain ⟨df, hr, he⟩ := hcm hk.1
          unfold startComment at h
          split at h
          · cases h
          · cases h
            refine ⟨rfl, [], by simp, ?_⟩
            rw [he]
            exact Reads.block (sp := []) hk.2 (by intro c hc; cases hc) hr
        · split at h
          · cases h
          · obtain ⟨h1, ts, e1, h2⟩ := loop_reads cfg n _ _ _ _ h
            refine ⟨h1, tk :: ts, by rw [e1]; simp, ?_⟩
            rw [List.length_append, List.length_singleton] at h2
            rcases hi with ⟨p, r', hp, he, hs⟩ | ⟨hr, q, s, hq, he, ht⟩
            · rw [he]
              rw [← hs] at h2
              exact Reads.token (sp := []) (by intro c hc; cases hc) hp (reads_skip h2)
            · rw [hr] at h
              cases n with
              | zero => rw [loop.eq_def] at h; cases h
              | succ n =>
                rw [loop_end (.inl rfl)] at h
                have : toks' = toks ++ [tk] := by
                  split at h <;> cases h <;> rfl
                have : ts = [] := by rw [this] at e1; simpa using e1
                rw [this, he, ht]
                exact Reads.unterminated (sp := []) hq (by intro c hc; cases hc)

end Verif.Lex
