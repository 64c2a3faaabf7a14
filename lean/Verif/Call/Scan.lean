import Verif.Call.Text
/-! # Scanning arguments -/
namespace Verif.Call
open Verif.Loop (Text isSpace nul)

/-- with sufficient fuel the result is `r` -/
def Conv {α : Type} (f : Nat → R α) (r : R α) : Prop := ∃ N, ∀ n, N ≤ n → f n = r

theorem Conv.succ {α : Type} {f g : Nat → R α} {r : R α} (h : Conv g r) (hf : ∀ n, f (n + 1) = g n) : Conv f r := by
  obtain ⟨N, hN⟩ := h
  refine ⟨N + 1, fun n hn => ?_⟩
  obtain ⟨m, rfl⟩ : ∃ m, n = m + 1 := ⟨n - 1, by omega⟩
  rw [hf]; exact hN m (by omega)

theorem Conv.const {α : Type} {f : Nat → R α} {r : R α} (hf : ∀ n, f (n + 1) = r) : Conv f r := by
  refine ⟨1, fun n hn => ?_⟩
  obtain ⟨m, rfl⟩ : ∃ m, n = m + 1 := ⟨n - 1, by omega⟩
  exact hf m

theorem Conv.bind {α β : Type} {f : Nat → R α} {r : R α} (h : Conv f r) (g : Nat → α → R β) (s : R β)
    (he : ∀ e, r = .err e → s = .err e) (hn : r = .none → s = .none)
    (hg : ∀ a, r = .ok a → Conv (fun n => g n a) s) : Conv (fun n => (f n).bind (g n)) s := by
  obtain ⟨N, hN⟩ := h
  cases r with
  | none => exact ⟨N, fun n hm => by simp [hN n hm, R.bind, hn rfl]⟩
  | err e => exact ⟨N, fun n hm => by simp [hN n hm, R.bind, he e rfl]⟩
  | ok a =>
    obtain ⟨N', hN'⟩ := hg a rfl
    exact ⟨max N N', fun n hm => by
      simp only [hN n (by omega), R.bind]; exact hN' n (by omega)⟩

theorem Conv.map {α β : Type} {f : Nat → R α} {r : R α} (h : Conv f r) (g : α → R β) :
    Conv (fun n => (f n).bind g) (r.bind g) := by
  obtain ⟨N, hN⟩ := h
  exact ⟨N, fun n hn => by simp only [hN n hn]⟩

theorem Conv.unique {α : Type} {f : Nat → R α} {r s : R α} (h : Conv f r) (h' : Conv f s) : r = s := by
  obtain ⟨N, hN⟩ := h
  obtain ⟨M, hM⟩ := h'
  rw [← hN (max N M) (by omega), ← hM (max N M) (by omega)]

/-- The scan of `toks` yields `r` in front of the scan of `k`. -/
def ScanTo {σ : Type} (W : World σ) (fn : Bool) (level : Nat) (st : σ) (toks : List Tok) (r : R (σ × Text)) (k : List Tok) :
    Prop :=
  (∀ e, r = .err e → Conv (fun n => scan W n fn level st toks) (.err e)) ∧
  (∀ st' x res, r = .ok (st', x) → Conv (fun n => scan W n fn level st' k) res →
    Conv (fun n => scan W n fn level st toks) (res.bind fun r => .ok (addText x r)))

/-- The parameters `ps` get `r`, and the tokens `rest` are left. -/
def BindTo {σ : Type} (W : World σ) (m : Macro) (ps : List Parm) (acc : Option Text) (st : σ) (toks : List Tok)
    (r : R (σ × List Text)) (rest : List Tok) : Prop :=
  r ≠ .none → Conv (fun n => bindParms W n m ps false 1 acc st toks) (r.bind fun x => .ok (x.1, x.2, rest))

theorem addText_add {σ : Type} (a b : Text) (r : σ × Text × Nat × List Tok) :
    addText a (addText b r) = addText (a ++ b) r := by
  obtain ⟨_, _, _, _⟩ := r; simp [addText]

theorem bind_addText {σ : Type} (a b : Text) (res : R (σ × Text × Nat × List Tok)) :
    (res.bind fun r => R.ok (addText b r)).bind (fun r => .ok (addText a r)) = res.bind fun r => .ok (addText (a ++ b) r) := by
  cases res <;> simp [R.bind, addText_add]

/-- a token that is copied -/
theorem scan_tok {σ : Type} {W : World σ} {fn : Bool} {l l' : Nat} {st : σ} {toks k : List Tok} {x : Text}
    (h : ∀ n, scan W (n + 1) fn l st toks = (scan W n fn l' st k).bind fun r => .ok (addText x r))
    {res : R (σ × Text × Nat × List Tok)} (hr : Conv (fun n => scan W n fn l' st k) res) :
    Conv (fun n => scan W n fn l st toks) (res.bind fun r => .ok (addText x r)) :=
  (hr.map _).succ h

theorem scan_ident {σ : Type} (W : World σ) (n : Nat) (fn : Bool) (l : Nat) (st : σ) (t bl : Text) (k : List Tok)
    (h : (((W.lookup st t).map (·.isFunc)).getD false = true) → ∀ b u, k ≠ .lpar b :: u) :
    scan W (n + 1) fn l st (.ident t bl :: k) = (scan W n fn l st k).bind fun r => .ok (addText (copyItem fn t bl k) r) := by
  by_cases hl : ∃ b u, k = .lpar b :: u
  · obtain ⟨b, u, rfl⟩ := hl
    rw [scan]
    cases hm : W.lookup st t with
    | none => simp
    | some m =>
      have : m.isFunc = false := by
        by_contra hc
        exact h (by simp [hm]; simpa using hc) b u rfl
      simp [this]
  · rw [scan]
    intro b u hk
    exact hl ⟨b, u, hk⟩

mutual
theorem skip_piece (p : Piece) (j : Nat) (b : Text) (k : List Tok) :
    ∃ b', skipParens (j + 1) b (p.toks k) = skipParens (j + 1) b' k := by
  cases p with
  | item t bl => exact ⟨bl, rfl⟩
  | ident t bl => exact ⟨bl, rfl⟩
  | bare t bl => exact ⟨bl, rfl⟩
  | lit t bl => exact ⟨bl, rfl⟩
  | paren bl0 ps bl =>
    obtain ⟨b', h⟩ := skip_pieces ps (j + 1) bl0 (.rpar bl :: k)
    exact ⟨bl, by simp only [Piece.toks, skipParens]; rw [h]; rfl⟩
  | call f bl0 bl1 as bl =>
    obtain ⟨b', h⟩ := skip_args as (j + 1) bl1 (.rpar bl :: k)
    exact ⟨bl, by simp only [Piece.toks, skipParens]; rw [h]; rfl⟩
theorem skip_pieces (ps : Pieces) (j : Nat) (b : Text) (k : List Tok) :
    ∃ b', skipParens (j + 1) b (ps.toks k) = skipParens (j + 1) b' k := by
  cases ps with
  | nil => exact ⟨b, rfl⟩
  | cons p ps =>
    obtain ⟨b', h⟩ := skip_piece p j b (ps.toks k)
    obtain ⟨b'', h'⟩ := skip_pieces ps j b' k
    exact ⟨b'', by simp only [Pieces.toks]; rw [h, h']⟩
theorem skip_args (as : Args) (j : Nat) (b : Text) (k : List Tok) :
    ∃ b', skipParens (j + 1) b (as.toks k) = skipParens (j + 1) b' k := by
  cases as with
  | one ps => exact skip_pieces ps j b k
  | more ps bl as =>
    obtain ⟨b', h⟩ := skip_pieces ps j b (.comma bl :: as.toks k)
    obtain ⟨b'', h'⟩ := skip_args as j bl k
    exact ⟨b'', by simp only [Args.toks]; rw [h, skipParens, h']⟩
end

/-! ## Tokens left -/

/-- The tokens left when the parameters `ps` (not none) have got their arguments. -/
def leftover (m : Macro) : List Parm → Args → List Tok → List Tok
  | _, .one _, k => k
  | [], .more _ bl as, k => .comma bl :: as.toks k
  | [_], .more _ bl as, k => if m.vararg then k else .comma bl :: as.toks k
  | _ :: p :: ps, .more _ _ as, k => leftover m (p :: ps) as k

/-- The end of the arguments. -/
def EndTok (fn : Bool) (k : List Tok) : Prop := if fn then isClose k = true else k = []

theorem end_atEnd {fn : Bool} {k : List Tok} (h : EndTok fn k) : atEnd fn k = true := by
  unfold EndTok at h; cases fn <;> simp_all [atEnd]

theorem end_notComma {fn : Bool} {k : List Tok} (h : EndTok fn k) : isComma k = false := by
  revert h
  cases k with
  | nil => intro _; rfl
  | cons t k => cases fn <;> cases t <;> simp [EndTok, isClose, isComma]

theorem scan_end {σ : Type} (W : World σ) {fn : Bool} {k : List Tok} (h : EndTok fn k) (st : σ) :
    ∃ l, Conv (fun n => scan W n fn 1 st k) (.ok (st, [], l, k)) := by
  revert h
  cases k with
  | nil => intro _; exact ⟨1, Conv.const fun n => by rw [scan]⟩
  | cons t k =>
    cases fn <;> cases t <;> simp [EndTok, isClose]
    exact ⟨0, Conv.const fun n => by rw [scan]; rfl⟩

theorem scan_comma {σ : Type} (W : World σ) (fn : Bool) (l : Nat) (bl : Text) (k : List Tok) (st : σ) :
    Conv (fun n => scan W n fn l st (.comma bl :: k)) (.ok (st, [], l, .comma bl :: k)) :=
  Conv.const fun n => by rw [scan]

theorem pieces_notEnd {fn : Bool} (ps : Pieces) (k : List Tok) (h : ps.isNil = false) :
    atEnd fn (ps.toks k) = false ∧ isComma (ps.toks k) = false := by
  cases ps with
  | nil => simp [Pieces.isNil] at h
  | cons p ps =>
    have := fits_piece p (ps.toks k)
    obtain ⟨h1, h2, h3⟩ := this
    simp only [Pieces.toks]
    refine ⟨?_, h2⟩
    simp [atEnd, h3, h1]

/-- parameters without arguments -/
theorem bind_absent {σ : Type} (W : World σ) (m : Macro) (ps : List Parm) (skip : Bool) (l : Nat) (st : σ) {k : List Tok}
    (hk : EndTok m.isFunc k) :
    Conv (fun n => bindParms W n m ps skip l none st k) ((absent m ps).bind fun r => .ok (st, r, k)) := by
  induction ps generalizing skip with
  | nil => exact Conv.const fun n => by rw [bindParms]; rfl
  | cons p ps ih =>
    have hc := end_notComma hk
    have he := end_atEnd hk
    have hstep : ∀ n, bindParms W (n + 1) m (p :: ps) skip l none st k =
        if p.required then .err (.missingArg m.name)
        else (bindParms W n m ps true l none st k).bind fun r => .ok (consArg (p.deflt.getD []) r) := by
      intro n
      rw [bindParms]
      simp [hc, he, blankValue]
    cases hr : p.required with
    | true => exact Conv.const fun n => by rw [hstep]; simp [hr, absent, R.bind]
    | false =>
      have := (ih true).map (fun r => R.ok (consArg (p.deflt.getD []) r))
      refine (this.succ (f := fun n => bindParms W n m (p :: ps) skip l none st k) (fun n => ?_)).imp fun N h n hn => ?_
      · simp only [hstep, hr]; rfl
      · rw [h n hn]
        cases ha : absent m ps <;> simp [absent, hr, ha, R.bind, consArg]

/-- a comma in front of the arguments is skipped -/
theorem bind_skip {σ : Type} (W : World σ) (m : Macro) (p : Parm) (ps : List Parm) (l : Nat) (st : σ) (bl : Text)
    (k : List Tok) (r : R (σ × List Text × List Tok))
    (h : Conv (fun n => bindParms W n m (p :: ps) false l none st k) r) :
    Conv (fun n => bindParms W n m (p :: ps) true l none st (.comma bl :: k)) r := by
  obtain ⟨N, hN⟩ := h
  refine ⟨N + 1, fun n hn => ?_⟩
  rw [← hN n (by omega)]
  obtain ⟨j, rfl⟩ : ∃ j, n = j + 1 := ⟨n - 1, by omega⟩
  simp only [bindParms]
  simp [isComma]

end Verif.Call
