import Verif.Call.Scan
/-! # Calls are parsed as they are written -/
namespace Verif.Call
open Verif.Loop (Text isSpace nul)

/-- the tokens left behind the arguments of `m` -/
def left (m : Macro) (as : Args) (k : List Tok) : List Tok :=
  match m.parms with
  | [] => as.toks k
  | p :: ps => leftover m (p :: ps) as k

theorem findClose_pieces (ps : Pieces) (h : ps.noParen = true) (k : List Tok) : findClose (ps.toks k) = findClose k := by
  induction ps using Pieces.rec (motive_1 := fun _ => True) (motive_3 := fun _ => True) with
  | nil => rfl
  | cons p ps _ ih =>
    simp only [Pieces.noParen, Bool.and_eq_true] at h
    rw [Pieces.toks, ← ih h.2]
    cases p <;> first | rfl | simp [Piece.noParen] at h
  | _ => trivial

theorem findClose_args (as : Args) (h : as.noParenFrom 0 = true) (k : List Tok) : findClose (as.toks k) = findClose k := by
  induction as using Args.rec (motive_1 := fun _ => True) (motive_2 := fun _ => True) with
  | one ps => exact findClose_pieces ps h k
  | more ps bl as _ ih =>
    simp only [Args.noParenFrom, Bool.and_eq_true] at h
    rw [Args.toks, findClose_pieces ps h.1, findClose, ih h.2]
    simp
  | _ => trivial

theorem leftover_fits {m : Macro} : ∀ (ps : List Parm) (as : Args) (k : List Tok), ps ≠ [] →
    (m.vararg = true ∨ as.count ≤ ps.length → leftover m ps as k = k) ∧
    (m.vararg = false → ps.length < as.count → ∃ bl t, leftover m ps as k = .comma bl :: t ∧
      (as.noParenFrom ps.length = true → findClose t = findClose k))
  | [], _, _, h => absurd rfl h
  | _ :: _, .one g, k, _ => by
    constructor
    · intro _; cases ‹List Parm› <;> rfl
    · intro _ h; simp [Args.count] at h
  | [p], .more g bl as, k, _ => by
    constructor
    · rintro (h | h)
      · simp [leftover, h]
      · cases as <;> simp [Args.count] at h
    · intro hv _
      refine ⟨bl, as.toks k, by simp [leftover, hv], fun h => findClose_args as ?_ k⟩
      simpa [Args.noParenFrom] using h
  | p :: q :: ps, .more g bl as, k, _ => by
    have ih := leftover_fits (m := m) (q :: ps) as k (by simp)
    constructor
    · intro h
      rw [leftover]
      exact ih.1 (by simpa [Args.count] using h)
    · intro hv h
      rw [leftover]
      obtain ⟨b, t, h1, h2⟩ := ih.2 hv (by simpa [Args.count] using h)
      exact ⟨b, t, h1, fun h => h2 (by simpa [Args.noParenFrom] using h)⟩

theorem args_notClose (as : Args) (h : as.isBlank = false) (k : List Tok) :
    isClose (as.toks k) = false ∧ as.toks k ≠ [] := by
  cases as with
  | one ps =>
    cases ps with
    | nil => simp [Args.isBlank] at h
    | cons p ps => exact ⟨(fits_piece p _).2.2, (fits_piece p _).1⟩
  | more ps bl as =>
    cases ps with
    | nil => simp [Args.toks, Pieces.toks, isClose]
    | cons p ps => exact ⟨(fits_piece p _).2.2, (fits_piece p _).1⟩

theorem surplus_nil {m : Macro} (hp : m.parms = []) (as : Args) : surplus m as = !as.isBlank := by
  unfold surplus
  rw [hp]
  cases as with
  | one ps => cases ps <;> rfl
  | more ps bl as => rfl

theorem surplus_cons {m : Macro} {p : Parm} {ps : List Parm} (hp : m.parms = p :: ps) (as : Args) :
    surplus m as = (!m.vararg && decide (m.parms.length < as.count)) := by
  unfold surplus
  rw [hp]

theorem left_cases (m : Macro) (as : Args) (k : List Tok) :
    (surplus m as = false ∧ left m as k = k) ∨
    (surplus m as = true ∧ left m as k ≠ [] ∧ isClose (left m as k) = false ∧
      (as.noParenFrom m.parms.length = true → findClose (left m as k) = findClose k)) := by
  unfold left
  cases hp : m.parms with
  | nil =>
    rw [surplus_nil hp]
    cases hb : as.isBlank with
    | true =>
      left
      cases as with
      | one ps => cases ps <;> simp_all [Args.isBlank, Args.toks, Pieces.toks]
      | more ps bl as => simp [Args.isBlank] at hb
    | false =>
      right
      obtain ⟨h1, h2⟩ := args_notClose as hb k
      exact ⟨rfl, h2, h1, fun h => findClose_args as h k⟩
  | cons p ps =>
    rw [surplus_cons hp]
    obtain ⟨h1, h2⟩ := leftover_fits (m := m) (p :: ps) as k (by simp)
    by_cases hc : m.vararg = true ∨ as.count ≤ (p :: ps).length
    · left
      refine ⟨?_, h1 hc⟩
      rcases hc with hc | hc
      · simp [hc]
      · rw [hp]; simp only [Bool.and_eq_false_iff, decide_eq_false_iff_not]; right; omega
    · right
      simp only [not_or, Bool.not_eq_true, Nat.not_le] at hc
      obtain ⟨b, t, h3, h4⟩ := h2 hc.1 hc.2
      simp only []
      rw [h3]
      refine ⟨by rw [hp, hc.1]; simp only [Bool.not_false, Bool.true_and, decide_eq_true_eq]; exact hc.2, by simp, rfl,
        fun h => ?_⟩
      rw [findClose]
      · exact h4 h
      · simp

theorem closeCall_left {σ : Type} (W : World σ) (m : Macro) (as : Args) (st : σ) (bl : Text) (k : List Tok)
    (h : (surplus m as && !as.noParenFrom m.parms.length) = false) :
    closeCall W m st (left m as (.rpar bl :: k)) = .ok (if surplus m as then W.warn st m else st, bl, k) := by
  rcases left_cases m as (.rpar bl :: k) with ⟨h1, h2⟩ | ⟨h1, _, h3, h4⟩
  · rw [h2, h1]; simp [closeCall]
  · rw [h1] at h ⊢
    have := h4 (by simpa using h)
    generalize left m as (.rpar bl :: k) = t at *
    unfold closeCall
    cases t with
    | nil => simp [findClose] at this
    | cons u t => cases u <;> simp_all [isClose, findClose]

/-- A call of a macro function, given what its parameters get. -/
theorem run_conv {σ : Type} (W : World σ) (m : Macro) (lbl : Text) (as : Args) (bl1 bl : Text) (k : List Tok) (st : σ)
    (r : R (σ × List Text)) (hlev : W.level st ≠ 128) (hp : m.purged = false)
    (hs : (surplus m as && !as.noParenFrom m.parms.length) = false)
    (hb : BindTo W m m.parms none st (as.toks (.rpar bl :: k)) r (left m as (.rpar bl :: k))) (hr : r ≠ .none) :
    Conv (fun n => run W n m lbl st (.lpar bl1 :: as.toks (.rpar bl :: k)))
      (r.bind fun (st1, args) =>
        let b := W.body (if surplus m as then W.warn st1 m else st1) m (if m.label then lbl :: args else args)
        .ok (b.1, b.2, bl, k)) := by
  have h := hb hr
  have hstep : ∀ n, run W (n + 1) m lbl st (.lpar bl1 :: as.toks (.rpar bl :: k)) =
      (bindParms W n m m.parms false 1 none st (as.toks (.rpar bl :: k))).bind fun (st1, args, rest) =>
      (closeCall W m st1 rest).bind fun (st2, bl, rest2) =>
      .ok ((W.body st2 m (if m.label then lbl :: args else args)).1,
        (W.body st2 m (if m.label then lbl :: args else args)).2, bl, rest2) := by
    intro n
    rw [run]
    simp only [maxNesting, hlev, if_false, hp, List.tail_cons, Bool.false_eq_true]
  refine Conv.succ (h.bind _ _ ?_ ?_ ?_) hstep
  · intro e he; cases r <;> simp_all [R.bind]
  · intro he; cases r <;> simp_all [R.bind]
  · intro a ha
    cases r with
    | none => exact absurd rfl hr
    | err e => simp [R.bind] at ha
    | ok x =>
      obtain ⟨st1, args⟩ := x
      simp only [R.bind, R.ok.injEq] at ha
      subst ha
      refine ⟨0, fun n _ => ?_⟩
      simp only [closeCall_left W m as st1 bl k hs, R.bind]

/-- what `joined` says of the loop over the arguments of a VARARG parameter -/
def JoinTo {σ : Type} (W : World σ) (m : Macro) (p : Parm) (e : Next) (as : Args) (k : List Tok) : Prop :=
  ∀ (acc : Option Text) (st : σ), as.joined W m.isFunc e st ≠ .none →
    Conv (fun n => bindParms W n m [p] false 1 acc st (as.toks k))
      ((as.joined W m.isFunc e st).bind fun (st', y, o) =>
        if p.required && o then .err (.missingArg m.name) else .ok (st', [acc.getD [] ++ y], k))

/-- one turn of the loop of the parameters with an argument -/
theorem bind_step {σ : Type} (W : World σ) (m : Macro) (p : Parm) (ps : List Parm) (acc : Option Text) (st : σ)
    (toks : List Tok) (h1 : atEnd m.isFunc toks = false) (h2 : isComma toks = true → (m.vararg && ps.isEmpty) = true) (n : Nat) :
    bindParms W (n + 1) m (p :: ps) false 1 acc st toks =
      (scan W n m.isFunc 1 st toks).bind fun (st1, text, level1, toks1) =>
        if m.vararg && ps.isEmpty then
          if isComma toks1 then
            if !m.isFunc || !isClose toks1.tail then
              bindParms W n m (p :: ps) false level1 (some (acc.getD [] ++ text ++ [','])) st1 toks1.tail
            else .ok (st1, [acc.getD [] ++ text], toks1.tail)
          else .ok (st1, [acc.getD [] ++ text], toks1)
        else (bindParms W n m ps true level1 none st1 toks1).bind fun r => .ok (consArg text r) := by
  rw [bindParms]
  have : (atEnd m.isFunc toks || isComma toks && !(m.vararg && ps.isEmpty)) = false := by
    rw [h1, Bool.false_or]
    cases hc : isComma toks with
    | false => rfl
    | true => rw [h2 hc]; rfl
  simp only [Bool.and_false, Bool.false_eq_true, if_false, this]

theorem more_notEnd {fn : Bool} (g : Pieces) (bl : Text) (k : List Tok) : atEnd fn (g.toks (.comma bl :: k)) = false := by
  cases g with
  | nil => simp [Pieces.toks, atEnd, isClose]
  | cons p ps =>
    obtain ⟨h1, _, h3⟩ := fits_piece p (ps.toks (.comma bl :: k))
    simp only [Pieces.toks]
    simp [atEnd, h1, h3]

/-- the scan of an argument in front of a comma -/
theorem scan_to_comma {σ : Type} {W : World σ} {fn : Bool} {st st1 : σ} {g : Pieces} {bl x : Text} {k : List Tok}
    {r : R (σ × Text)} (hs : ScanTo W fn 1 st (g.toks (.comma bl :: k)) r (.comma bl :: k)) (hr : r = .ok (st1, x)) :
    Conv (fun n => scan W n fn 1 st (g.toks (.comma bl :: k))) (.ok (st1, x, 1, .comma bl :: k)) := by
  have := hs.2 st1 x _ hr (scan_comma W fn 1 bl k st1)
  simpa [R.bind, addText] using this

theorem bind_more_var {σ : Type} (W : World σ) (m : Macro) (p : Parm) (e : Next) (g : Pieces) (bl : Text) (as : Args)
    (k : List Tok) (hv : m.vararg = true) (hk : EndTok m.isFunc k)
    (hs : ∀ st, ScanTo W m.isFunc 1 st (g.toks (.comma bl :: as.toks k)) (g.text W m.isFunc .comma st) (.comma bl :: as.toks k))
    (hV : as.isBlank = false → JoinTo W m p e as k) : JoinTo W m p e (.more g bl as) k := by
  intro acc st hne
  have hstep := bind_step W m p [] acc st (g.toks (.comma bl :: as.toks k)) (more_notEnd g bl _) (by simp [hv])
  simp only [hv, List.isEmpty_nil, Bool.and_self, if_true] at hstep
  show Conv (fun n => bindParms W n m [p] false 1 acc st (g.toks (.comma bl :: as.toks k))) _
  rw [Args.joined] at hne ⊢
  cases hg : g.text W m.isFunc .comma st with
  | none => simp [hg, R.bind] at hne
  | err er =>
    simp only [R.bind]
    refine Conv.succ (((hs st).1 er hg).bind _ _ ?_ ?_ ?_) hstep
    · intro e' he; simpa using he
    · intro h; simp at h
    · intro a h; simp at h
  | ok x =>
    obtain ⟨st1, x⟩ := x
    simp only [hg, R.bind] at hne ⊢
    refine Conv.succ ((scan_to_comma (hs st) hg).bind _ _ ?_ ?_ ?_) hstep
    · intro e' he; simp at he
    · intro h; simp at h
    intro a ha
    simp only [R.ok.injEq] at ha
    subst ha
    simp only [isComma, if_true, List.tail_cons]
    unfold joinTo at hne ⊢
    cases hb : as.isBlank with
    | true =>
      have hk' : as.toks k = k := by
        cases as with
        | one ps => cases ps <;> simp_all [Args.isBlank, Args.toks, Pieces.toks]
        | more ps bl as => simp [Args.isBlank] at hb
      simp only [hk', if_true, R.bind]
      cases hf : m.isFunc with
      | true =>
        rw [hf] at hk
        have hc : isClose k = true := by simpa [EndTok] using hk
        simp [hc]
        exact ⟨0, fun _ _ => rfl⟩
      | false =>
        rw [hf] at hk
        have hc : k = [] := by simpa [EndTok] using hk
        subst hc
        simp only [Bool.not_false, Bool.true_or, if_true, Bool.and_true]
        cases hr : p.required with
        | true =>
          exact Conv.const fun n => by rw [bindParms]; simp [isComma, atEnd, hr]
        | false =>
          refine ⟨2, fun n hn => ?_⟩
          obtain ⟨j, rfl⟩ : ∃ j, n = j + 2 := ⟨n - 2, by omega⟩
          have aux : ∀ l, bindParms W (j + 1) m [] true l none st1 [] = .ok (st1, [], []) := by
            intro l; rw [bindParms]
          show bindParms W ((j + 1) + 1) m _ _ _ _ _ _ = _
          rw [bindParms]
          simp [isComma, atEnd, hr, aux, R.bind, consArg, blankValue]
    | false =>
      simp only [hb, Bool.false_eq_true, if_false] at hne ⊢
      simp only [(args_notClose as hb k).1, Bool.not_false, Bool.or_true, if_true]
      have hne' : as.joined W m.isFunc e st1 ≠ .none := by
        intro h; rw [h] at hne; simp [R.bind] at hne
      have := hV hb (some (acc.getD [] ++ x ++ [','])) st1 hne'
      refine this.imp fun N h n hn => ?_
      rw [h n hn]
      cases as.joined W m.isFunc e st1 with
      | none => rfl
      | err e => rfl
      | ok y =>
        obtain ⟨st2, y, o⟩ := y
        simp only [R.bind, Option.getD_some]
        by_cases ho : (p.required && o) = true <;> simp [ho]

theorem values_nil {σ : Type} (W : World σ) (fn : Bool) (e : Next) (m : Macro) (st : σ) (as : Args) :
    as.values W fn e m [] st = .ok (st, []) := by cases as <;> rw [Args.values]

theorem call_shape {α β γ : Type} (x : R α) (f : α → R β) (g : β → R γ) : (x.bind f).bind g = x.bind fun a => (f a).bind g := by
  cases x <;> rfl

/-- the last step of an argument that belongs to a single parameter -/
theorem bind_conv {σ : Type} {W : World σ} {m : Macro} {ps : List Parm} {l : Nat} {st1 : σ} {x : Text} {t rest : List Tok}
    {r : R (σ × List Text)}
    (h : Conv (fun n => bindParms W n m ps true l none st1 t) (r.bind fun y => .ok (y.1, y.2, rest))) :
    Conv (fun n => (bindParms W n m ps true l none st1 t).bind fun r => .ok (consArg x r))
      ((r.bind fun (st2, q) => R.ok (st2, x :: q)).bind fun y => .ok (y.1, y.2, rest)) := by
  have := h.map (fun r => R.ok (consArg x r))
  refine this.imp fun N h n hn => ?_
  rw [h n hn]
  cases r <;> simp [R.bind, consArg]

mutual
theorem scan_piece {σ : Type} (W : World σ) (p : Piece) (hw : p.WF) (fn : Bool) (nx : Next) (level : Nat)
    (hl : fn = true → 1 ≤ level) (st : σ) (k : List Tok) (hk : Fits nx k)
    (hp : p.isFuncName W st = true → ∀ b u, k ≠ .lpar b :: u) :
    ScanTo W fn level st (p.toks k) (p.text W fn nx st) k := by
  cases p with
  | item t bl =>
    refine ⟨fun e h => by simp [Piece.text] at h, fun st' x res h hr => ?_⟩
    simp only [Piece.text, R.ok.injEq, Prod.mk.injEq] at h
    obtain ⟨rfl, rfl⟩ := h
    refine scan_tok (fun n => ?_) hr
    rw [Piece.toks, scan, copyItem_eq hk hw.1 hw.2]
  | ident t bl =>
    refine ⟨fun e h => by simp [Piece.text] at h, fun st' x res h hr => ?_⟩
    simp only [Piece.text, R.ok.injEq, Prod.mk.injEq] at h
    obtain ⟨rfl, rfl⟩ := h
    refine scan_tok (fun n => ?_) hr
    rw [Piece.toks, scan_ident W n fn level st t bl k (fun h => hp (by simpa [Piece.isFuncName] using h)),
      copyItem_eq hk hw.1 hw.2]
  | bare cs bl =>
    refine ⟨fun e h => by simp [Piece.text] at h, fun st' x res h hr => ?_⟩
    simp only [Piece.text, R.ok.injEq, Prod.mk.injEq] at h
    obtain ⟨rfl, rfl⟩ := h
    refine scan_tok (fun n => ?_) hr
    rw [Piece.toks, scan, copyBare_eq hk hw.1 hw.2.1 hw.2.2]
  | lit t bl =>
    refine ⟨fun e h => by simp [Piece.text] at h, fun st' x res h hr => ?_⟩
    simp only [Piece.text, R.ok.injEq, Prod.mk.injEq] at h
    obtain ⟨rfl, rfl⟩ := h
    refine scan_tok (fun n => ?_) hr
    rw [Piece.toks, scan]
  | paren bl0 ps bl =>
    have hsol : Solid ['('] := ⟨'(', rfl, by decide⟩
    have hsol' : Solid [')'] := ⟨')', rfl, by decide⟩
    have ih := scan_pieces W ps hw.2.1 fn .close (if fn then level + 1 else level) (by intro h; simp [h]) st (.rpar bl :: k) rfl (by simp)
    have hstep : ∀ n, scan W (n + 1) fn level st (Piece.toks (.paren bl0 ps bl) k) =
        (scan W n fn (if fn then level + 1 else level) st (ps.toks (.rpar bl :: k))).bind fun r =>
          .ok (addText (['('] ++ blanksAt fn bl0 (ps.nextOr .close)) r) := by
      intro n
      rw [Piece.toks, scan, copyItem_eq (fits_nextOr (e := .close) (k := .rpar bl :: k) rfl ps) hsol hw.1]
    rw [Piece.text]
    constructor
    · intro e h
      cases hx : ps.text W fn .close st with
      | none => simp [hx, R.bind] at h
      | ok y => simp [hx, R.bind] at h
      | err e' =>
        simp only [hx, R.bind, R.err.injEq] at h
        subst h
        have := (ih.1 _ hx).map (fun r => R.ok (addText (['('] ++ blanksAt fn bl0 (ps.nextOr .close)) r))
        exact this.succ hstep
    · intro st' x res h hr
      cases hx : ps.text W fn .close st with
      | none => simp [hx, R.bind] at h
      | err e' => simp [hx, R.bind] at h
      | ok y =>
        obtain ⟨st1, y⟩ := y
        simp only [hx, R.bind, R.ok.injEq, Prod.mk.injEq] at h
        obtain ⟨rfl, rfl⟩ := h
        have h1 : Conv (fun n => scan W n fn (if fn then level + 1 else level) st1 (.rpar bl :: k))
            (res.bind fun r => .ok (addText ([')'] ++ blanksAt fn bl nx) r)) := by
          refine scan_tok (fun n => ?_) hr
          rw [scan, copyItem_eq hk hsol' hw.2.2]
          cases fn with
          | false => simp
          | true =>
            have := hl rfl
            simp [show ¬ level = 0 from by omega]
        have h2 := ih.2 _ _ _ hx h1
        have h3 := scan_tok hstep h2
        rw [bind_addText, bind_addText] at h3
        simpa [List.append_assoc] using h3
  | call f bl0 bl1 as bl =>
    rw [Piece.text]
    cases hm : W.lookup st f with
    | none => exact ⟨fun e h => by simp at h, fun st' x res h => by simp at h⟩
    | some m =>
      simp only []
      cases hf : m.isFunc with
      | false => exact ⟨fun e h => by simp at h, fun st' x res h => by simp at h⟩
      | true =>
        have hstep : ∀ n, scan W (n + 1) fn level st (Piece.toks (.call f bl0 bl1 as bl) k) =
            (run W n m [] st (.lpar bl1 :: as.toks (.rpar bl :: k))).bind fun (st1, out, bl1, rest) =>
              (scan W n fn level st1 rest).bind fun r => .ok (addText (out ++ callBlanks bl1 rest) r) := by
          intro n
          rw [Piece.toks, scan]
          simp [hm, hf]
        -- the step from a result of `run`
        have herr : ∀ e, Conv (fun n => run W n m [] st (.lpar bl1 :: as.toks (.rpar bl :: k))) (.err e) →
            Conv (fun n => scan W n fn level st (Piece.toks (.call f bl0 bl1 as bl) k)) (.err e) := by
          intro e h
          exact (h.bind _ _ (by intro e' he; simpa using he) (by intro h; simp at h) (by intro a h; simp at h)).succ hstep
        have hok : ∀ st1 out res, Conv (fun n => run W n m [] st (.lpar bl1 :: as.toks (.rpar bl :: k))) (.ok (st1, out, bl, k)) →
            Conv (fun n => scan W n fn level st1 k) res →
            Conv (fun n => scan W n fn level st (Piece.toks (.call f bl0 bl1 as bl) k))
              (res.bind fun r => .ok (addText (out ++ blanksAtCall bl nx) r)) := by
          intro st1 out res h hr
          refine Conv.succ (h.bind _ _ (by intro e' he; simp at he) (by intro h; simp at h) ?_) hstep
          intro a ha
          simp only [R.ok.injEq] at ha
          subst ha
          simp only [callBlanks_eq hk]
          exact hr.map _
        simp only [Bool.true_eq_false, if_false]
        by_cases hlev : W.level st = 128
        · simp only [hlev, if_true]
          refine ⟨fun e h => ?_, fun st' x res h => by simp at h⟩
          simp only [R.err.injEq] at h
          subst h
          exact herr _ (Conv.const fun n => by rw [run]; simp [maxNesting, hlev])
        simp only [hlev, if_false]
        cases hpu : m.purged with
        | true =>
          simp only [if_true]
          refine ⟨fun e h => by simp at h, fun st' x res h hr => ?_⟩
          simp only [R.ok.injEq, Prod.mk.injEq] at h
          obtain ⟨rfl, rfl⟩ := h
          have := hok st [] res (Conv.const fun n => by
            rw [run]
            obtain ⟨b', hb'⟩ := skip_args as 0 [] (.rpar bl :: k)
            simp only [maxNesting, hlev, if_false, hpu, if_true, List.tail_cons]
            rw [show (1 : Nat) = 0 + 1 from rfl, hb', skipParens, skipParens]) hr
          simpa using this
        | false =>
          simp only [Bool.false_eq_true, if_false]
          by_cases hs : (surplus m as && !as.noParenFrom m.parms.length) = true
          · simp only [hs, if_true]
            exact ⟨fun e h => by simp at h, fun st' x res h => by simp at h⟩
          rw [Bool.not_eq_true] at hs
          simp only [hs, Bool.false_eq_true, if_false]
          have hb : BindTo W m m.parms none st (as.toks (.rpar bl :: k)) (as.values W true .close m m.parms st)
              (left m as (.rpar bl :: k)) := by
            unfold left
            cases hps : m.parms with
            | nil =>
              intro _
              rw [values_nil]
              exact Conv.const fun n => by rw [bindParms]; rfl
            | cons p ps =>
              have := bind_args W as hw.2.2.2.1 m .close (.rpar bl :: k) (by simp [EndTok, hf, isClose]) rfl (by simp) p ps st
              rw [hf] at this
              exact this
          cases hv : as.values W true .close m m.parms st with
          | none => exact ⟨fun e h => by simp [R.bind] at h, fun st' x res h => by simp [R.bind] at h⟩
          | err e =>
            have hc := run_conv W m [] as bl1 bl k st _ hlev hpu hs hb (by rw [hv]; simp)
            rw [hv] at hc
            refine ⟨fun e' h => ?_, fun st' x res h => by simp [R.bind] at h⟩
            simp only [R.bind, R.err.injEq] at h
            subst h
            exact herr _ hc
          | ok y =>
            obtain ⟨st1, args⟩ := y
            have hc := run_conv W m [] as bl1 bl k st _ hlev hpu hs hb (by rw [hv]; simp)
            rw [hv] at hc
            refine ⟨fun e' h => by simp [R.bind] at h, fun st' x res h hr => ?_⟩
            simp only [R.bind, R.ok.injEq, Prod.mk.injEq] at h
            obtain ⟨rfl, rfl⟩ := h
            exact hok _ _ res hc hr

theorem scan_pieces {σ : Type} (W : World σ) (ps : Pieces) (hw : ps.WF) (fn : Bool) (e : Next) (level : Nat)
    (hl : fn = true → 1 ≤ level) (st : σ) (k : List Tok) (hk : Fits e k) (hne : e ≠ .piece) :
    ScanTo W fn level st (ps.toks k) (ps.text W fn e st) k := by
  cases ps with
  | nil =>
    refine ⟨fun e h => by simp [Pieces.text] at h, fun st' x res h hr => ?_⟩
    simp only [Pieces.text, R.ok.injEq, Prod.mk.injEq] at h
    obtain ⟨rfl, rfl⟩ := h
    refine hr.imp fun N h n hn => ?_
    rw [Pieces.toks, h n hn]
    cases res <;> simp [R.bind, addText]
  | cons p ps =>
    rw [Pieces.text, Pieces.toks]
    by_cases hc : (ps.startsParen && p.isFuncName W st) = true
    · simp only [hc, if_true]
      exact ⟨fun e h => by simp at h, fun st' x res h => by simp at h⟩
    rw [Bool.not_eq_true] at hc
    simp only [hc, Bool.false_eq_true, if_false]
    have hp : p.isFuncName W st = true → ∀ b u, ps.toks k ≠ .lpar b :: u := by
      intro hf b u hu
      rw [hf, Bool.and_true] at hc
      cases ps with
      | nil =>
        rw [Pieces.toks] at hu
        subst hu
        cases e <;> simp [Fits, isComma, isClose] at hk hne
      | cons q qs =>
        cases q <;> simp_all [Pieces.toks, Piece.toks, Pieces.startsParen]
    have h1 := scan_piece W p hw.1 fn (ps.nextOr e) level hl st (ps.toks k) (fits_nextOr hk ps) hp
    constructor
    · intro er h
      cases hx : p.text W fn (ps.nextOr e) st with
      | none => simp [hx, R.bind] at h
      | err e' =>
        simp only [hx, R.bind, R.err.injEq] at h
        subst h
        exact h1.1 _ hx
      | ok y =>
        obtain ⟨st1, y⟩ := y
        simp only [hx, R.bind] at h
        have h2 := scan_pieces W ps hw.2 fn e level hl st1 k hk hne
        cases hz : ps.text W fn e st1 with
        | none => simp [hz] at h
        | ok z => simp [hz] at h
        | err e' =>
          simp only [hz, R.err.injEq] at h
          subst h
          have := h1.2 _ _ _ hx (h2.1 _ hz)
          simpa [R.bind] using this
    · intro st' x res h hr
      cases hx : p.text W fn (ps.nextOr e) st with
      | none => simp [hx, R.bind] at h
      | err e' => simp [hx, R.bind] at h
      | ok y =>
        obtain ⟨st1, y⟩ := y
        simp only [hx, R.bind] at h
        have h2 := scan_pieces W ps hw.2 fn e level hl st1 k hk hne
        cases hz : ps.text W fn e st1 with
        | none => simp [hz] at h
        | err e' => simp [hz] at h
        | ok z =>
          obtain ⟨st2, z⟩ := z
          simp only [hz, R.ok.injEq, Prod.mk.injEq] at h
          obtain ⟨rfl, rfl⟩ := h
          have := h1.2 _ _ _ hx (h2.2 _ _ _ hz hr)
          rwa [bind_addText] at this

theorem bind_args {σ : Type} (W : World σ) (as : Args) (hw : as.WF) (m : Macro) (e : Next) (k : List Tok)
    (hk : EndTok m.isFunc k) (he : Fits e k) (hep : e ≠ .piece) (p : Parm) (ps : List Parm) (st : σ) :
    BindTo W m (p :: ps) none st (as.toks k) (as.values W m.isFunc e m (p :: ps) st) (leftover m (p :: ps) as k) := by
  intro hne
  cases as with
  | one g =>
    rw [Args.values] at hne ⊢
    have hlo : leftover m (p :: ps) (.one g) k = k := by cases ps <;> rfl
    rw [hlo, Args.toks]
    cases hg : g.isNil with
    | true =>
      cases g with
      | cons => simp [Pieces.isNil] at hg
      | nil =>
        simp only [if_true]
        have := bind_absent W m (p :: ps) false 1 st hk
        refine this.imp fun N h n hn => ?_
        rw [Pieces.toks, h n hn]
        cases absent m (p :: ps) <;> rfl
    | false =>
      simp only [hg, Bool.false_eq_true, if_false] at hne ⊢
      have hs := scan_pieces W g hw m.isFunc e 1 (by simp) st k he hep
      obtain ⟨h1, h2⟩ := pieces_notEnd (fn := m.isFunc) g k hg
      have hstep := bind_step W m p ps none st (g.toks k) h1 (by simp [h2])
      cases hx : g.text W m.isFunc e st with
      | none => simp [hx, R.bind] at hne
      | err er =>
        simp only [R.bind]
        exact ((hs.1 er hx).bind _ _ (by intro e' he; simpa using he) (by intro h; simp at h) (by intro a h; simp at h)).succ hstep
      | ok y =>
        obtain ⟨st1, x⟩ := y
        simp only [hx, R.bind] at hne ⊢
        obtain ⟨l, hend⟩ := scan_end W hk st1
        have h3 := hs.2 _ _ _ hx hend
        simp only [R.bind, addText, List.append_nil] at h3
        refine (h3.bind _ _ (by intro e' he; simp at he) (by intro h; simp at h) ?_).succ hstep
        intro a ha
        simp only [R.ok.injEq] at ha
        subst ha
        by_cases hv : (m.vararg && ps.isEmpty) = true
        · simp only [hv, if_true, end_notComma hk, Bool.false_eq_true, if_false]
          have : ps = [] := List.isEmpty_iff.mp (Bool.and_eq_true _ _ ▸ hv).2
          subst this
          exact ⟨0, fun n _ => by simp [absent]⟩
        · rw [Bool.not_eq_true] at hv
          simp only [hv, Bool.false_eq_true, if_false]
          have := (bind_absent W m ps true l st1 hk).map (fun r => R.ok (consArg x r))
          refine this.imp fun N h n hn => ?_
          rw [h n hn]
          cases absent m ps <;> simp [R.bind, consArg]
  | more g bl as =>
    have hs := fun st => scan_pieces W g hw.1 m.isFunc .comma 1 (by simp) st (.comma bl :: as.toks k) rfl (by simp)
    rw [Args.values] at hne ⊢
    by_cases hv : (m.vararg && ps.isEmpty) = true
    · have hps : ps = [] := List.isEmpty_iff.mp (Bool.and_eq_true _ _ ▸ hv).2
      have hvar : m.vararg = true := (Bool.and_eq_true _ _ ▸ hv).1
      subst hps
      have hlo : leftover m [p] (.more g bl as) k = k := by simp [leftover, hvar]
      rw [hlo]
      simp only [hv, if_true] at hne ⊢
      have hJ := bind_more_var W m p e g bl as k hvar hk hs (fun hb => bind_joined W as hw.2.2 m e k hk he hep p hvar hb) none st
      rw [Args.joined] at hJ
      cases hx : g.text W m.isFunc .comma st with
      | none => simp [hx, R.bind] at hne
      | err er =>
        rw [hx] at hJ
        simpa [R.bind] using hJ (by simp [R.bind])
      | ok y =>
        obtain ⟨st1, x⟩ := y
        rw [hx] at hJ
        simp only [hx, R.bind] at hne hJ ⊢
        cases hj : joinTo m.isFunc st1 x as.isBlank (as.joined W m.isFunc e st1) with
        | none => simp [hj] at hne
        | err er => simpa [hj] using hJ (by simp [hj])
        | ok z =>
          obtain ⟨st2, y, o⟩ := z
          have := hJ (by simp [hj])
          simp only [hj] at this
          by_cases ho : (p.required && o) = true
          · simpa [ho] using this
          · rw [Bool.not_eq_true] at ho
            simpa [ho] using this
    · rw [Bool.not_eq_true] at hv
      simp only [hv, Bool.false_eq_true, if_false] at hne ⊢
      -- the parameters behind `p`
      have hnext : ∀ st1, as.values W m.isFunc e m ps st1 ≠ .none →
          Conv (fun n => bindParms W n m ps true 1 none st1 (.comma bl :: as.toks k))
            ((as.values W m.isFunc e m ps st1).bind fun y => .ok (y.1, y.2, leftover m (p :: ps) (.more g bl as) k)) := by
        intro st1 hn1
        cases ps with
        | nil =>
          have hvar : m.vararg = false := by simpa using hv
          rw [values_nil]
          exact Conv.const fun n => by rw [bindParms]; simp [R.bind, leftover, hvar]
        | cons q qs =>
          exact bind_skip W m q qs 1 st1 bl _ _ (bind_args W as hw.2.2 m e k hk he hep q qs st1 hn1)
      cases hg : g.isNil with
      | true =>
        cases g with
        | cons => simp [Pieces.isNil] at hg
        | nil =>
          simp only [hg, if_true] at hne ⊢
          show Conv (fun n => bindParms W n m (p :: ps) false 1 none st (.comma bl :: as.toks k)) _
          have hstep : ∀ n, bindParms W (n + 1) m (p :: ps) false 1 none st (.comma bl :: as.toks k) =
              if p.required then .err (.missingArg m.name)
              else (bindParms W n m ps true 1 none st (.comma bl :: as.toks k)).bind fun r =>
                .ok (consArg (p.deflt.getD []) r) := by
            intro n
            rw [bindParms]
            simp [isComma, hv, blankValue]
          cases hr : p.required with
          | true => exact Conv.const fun n => by rw [hstep]; simp [hr, R.bind]
          | false =>
            simp only [hr, Bool.false_eq_true, if_false] at hne hstep ⊢
            have hn1 : as.values W m.isFunc e m ps st ≠ .none := by
              intro h; rw [h] at hne; simp [R.bind] at hne
            exact (bind_conv (hnext st hn1)).succ hstep
      | false =>
        simp only [hg, Bool.false_eq_true, if_false] at hne ⊢
        have hstep := bind_step W m p ps none st (g.toks (.comma bl :: as.toks k)) (more_notEnd g bl _)
          (by simp [(pieces_notEnd (fn := m.isFunc) g (.comma bl :: as.toks k) hg).2])
        simp only [hv, Bool.false_eq_true, if_false] at hstep
        show Conv (fun n => bindParms W n m (p :: ps) false 1 none st (g.toks (.comma bl :: as.toks k))) _
        cases hx : g.text W m.isFunc .comma st with
        | none => simp [hx, R.bind] at hne
        | err er =>
          simp only [R.bind]
          exact (((hs st).1 er hx).bind _ _ (by intro e' he; simpa using he) (by intro h; simp at h)
            (by intro a h; simp at h)).succ hstep
        | ok y =>
          obtain ⟨st1, x⟩ := y
          rw [hx] at hne
          have hn1 : as.values W m.isFunc e m ps st1 ≠ .none := by
            intro h; simp [h, R.bind] at hne
          refine ((scan_to_comma (hs st) hx).bind _ _ (by intro e' he; simp at he) (by intro h; simp at h) ?_).succ hstep
          intro a ha
          simp only [R.ok.injEq] at ha
          subst ha
          exact bind_conv (hnext st1 hn1)

theorem bind_joined {σ : Type} (W : World σ) (as : Args) (hw : as.WF) (m : Macro) (e : Next) (k : List Tok)
    (hk : EndTok m.isFunc k) (he : Fits e k) (hep : e ≠ .piece) (p : Parm) (hv : m.vararg = true) (hb : as.isBlank = false) :
    JoinTo W m p e as k := by
  cases as with
  | more g bl as =>
    exact bind_more_var W m p e g bl as k hv hk
      (fun st => scan_pieces W g hw.1 m.isFunc .comma 1 (by simp) st (.comma bl :: as.toks k) rfl (by simp))
      (fun hb => bind_joined W as hw.2.2 m e k hk he hep p hv hb)
  | one g =>
    intro acc st hne
    have hg : g.isNil = false := by cases g <;> simp_all [Args.isBlank, Pieces.isNil]
    have hs := scan_pieces W g hw m.isFunc e 1 (by simp) st k he hep
    obtain ⟨h1, h2⟩ := pieces_notEnd (fn := m.isFunc) g k hg
    have hstep := bind_step W m p [] acc st (g.toks k) h1 (by simp [h2])
    simp only [hv, List.isEmpty_nil, Bool.and_self, if_true] at hstep
    rw [Args.joined] at hne ⊢
    show Conv (fun n => bindParms W n m [p] false 1 acc st (g.toks k)) _
    cases hx : g.text W m.isFunc e st with
    | none => simp [hx, R.bind] at hne
    | err er =>
      simp only [R.bind]
      exact ((hs.1 er hx).bind _ _ (by intro e' he; simpa using he) (by intro h; simp at h) (by intro a h; simp at h)).succ hstep
    | ok y =>
      obtain ⟨st1, x⟩ := y
      obtain ⟨l, hend⟩ := scan_end W hk st1
      have h3 := hs.2 _ _ _ hx hend
      simp only [R.bind, addText, List.append_nil] at h3 ⊢
      refine (h3.bind _ _ (by intro e' he; simp at he) (by intro h; simp at h) ?_).succ hstep
      intro a ha
      simp only [R.ok.injEq] at ha
      subst ha
      simp only [end_notComma hk, Bool.false_eq_true, if_false, Bool.and_false]
      exact ⟨0, fun _ _ => rfl⟩
end

end Verif.Call
