import Verif.Call.Main
/-!
# C74: a macro call hands each argument to its parameter

`as.toks k` are the tokens of the arguments `as` in front of the tokens `k`; "with sufficient fuel" makes the recursion of the
model total. `callStmt` and `callFunc` (Spec) say what a call means; they are `none` only for the cases listed there.
-/
namespace Verif.Call
open Verif.Loop (Text isSpace nul)

/-- **C74** (macro statements). Every call that is written as a list of arguments runs the macro once, with each parameter bound
to its argument: blanks around it, the `<>` of literals and `!` removed, calls of macro functions in it replaced by their values
(from left to right), the default for a blank argument, all remaining arguments for VARARG; a missing REQ argument is an error,
surplus arguments a warning. Missing: `%`, `{}`, `<>` with `%`, unbalanced parentheses, predefined macro functions. -/
theorem C74_statement_partial {σ : Type} (W : World σ) (m : Macro) (lbl : Text) (as : Args) (st : σ) (hw : as.WF)
    (hf : m.isFunc = false) (hd : callStmt W m lbl as st ≠ .none) :
    ∃ N, ∀ n, N ≤ n → runStmt W n m lbl st (as.toks []) = callStmt W m lbl as st := by
  unfold callStmt at hd ⊢
  by_cases hlev : W.level st = 128
  · exact ⟨0, fun n _ => by simp [runStmt, maxNesting, hlev]⟩
  cases hp : m.purged with
  | true => exact ⟨0, fun n _ => by simp [runStmt, maxNesting, hlev, hp]⟩
  | false =>
    simp only [hlev, hp, Bool.false_eq_true, if_false] at hd ⊢
    have hne : as.values W false .final m m.parms st ≠ .none := by
      intro h; rw [h] at hd; simp [R.bind] at hd
    have hb : Conv (fun n => bindParms W n m m.parms false 1 none st (as.toks []))
        ((as.values W false .final m m.parms st).bind fun x => .ok (x.1, x.2, left m as [])) := by
      unfold left
      cases hps : m.parms with
      | nil =>
        rw [values_nil]
        exact Conv.const fun n => by rw [bindParms]; rfl
      | cons p ps =>
        have := bind_args W as hw m .final [] (by simp [EndTok, hf]) rfl (by simp) p ps st
        rw [hf] at this
        exact this (by rw [← hps]; exact hne)
    obtain ⟨N, hN⟩ := hb
    refine ⟨N, fun n hn => ?_⟩
    simp only [runStmt, maxNesting, hlev, hp, Bool.false_eq_true, if_false, hN n hn]
    cases as.values W false .final m m.parms st with
    | none => rfl
    | err e => rfl
    | ok x =>
      obtain ⟨st1, args⟩ := x
      simp only [R.bind]
      rcases left_cases m as [] with ⟨h1, h2⟩ | ⟨h1, h2, _, _⟩
      · simp [h1, h2]
      · simp [h1, h2]

/-- **C74** (macro functions). The same for calls `f( … )` inside of a line: the call has the value that the macro returns, it
ends with its own `)`, and the rest of the line is left as it is. Missing: as above. -/
theorem C74_function_partial {σ : Type} (W : World σ) (m : Macro) (lbl : Text) (as : Args) (st : σ) (bl1 bl : Text)
    (k : List Tok) (hw : as.WF) (hf : m.isFunc = true) (hd : callFunc W m lbl as st ≠ .none) :
    ∃ N, ∀ n, N ≤ n → run W n m lbl st (.lpar bl1 :: as.toks (.rpar bl :: k)) =
      (callFunc W m lbl as st).bind fun (st', x) => .ok (st', x, bl, k) := by
  unfold callFunc at hd ⊢
  by_cases hlev : W.level st = 128
  · exact Conv.const fun n => by rw [run]; simp [maxNesting, hlev, R.bind]
  simp only [hlev, if_false] at hd ⊢
  cases hp : m.purged with
  | true =>
    refine Conv.const fun n => ?_
    rw [run]
    obtain ⟨b', hb'⟩ := skip_args as 0 [] (.rpar bl :: k)
    simp only [maxNesting, hlev, if_false, hp, if_true, List.tail_cons, R.bind]
    rw [show (1 : Nat) = 0 + 1 from rfl, hb', skipParens, skipParens]
  | false =>
    simp only [hp, Bool.false_eq_true, if_false] at hd ⊢
    cases hs : (surplus m as && !as.noParenFrom m.parms.length) with
    | true => simp [hs] at hd
    | false =>
      simp only [hs, Bool.false_eq_true, if_false] at hd ⊢
      have hne : as.values W true .close m m.parms st ≠ .none := by
        intro h; rw [h] at hd; simp [R.bind] at hd
      have hb : BindTo W m m.parms none st (as.toks (.rpar bl :: k)) (as.values W true .close m m.parms st)
          (left m as (.rpar bl :: k)) := by
        unfold left
        cases hps : m.parms with
        | nil =>
          intro _
          rw [values_nil]
          exact Conv.const fun n => by rw [bindParms]; rfl
        | cons p ps =>
          have := bind_args W as hw m .close (.rpar bl :: k) (by simp [EndTok, hf, isClose]) rfl (by simp) p ps st
          rw [hf] at this
          exact this
      have := run_conv W m lbl as bl1 bl k st _ hlev hp hs hb hne
      refine this.imp fun N h n hn => (h n hn).trans ?_
      cases as.values W true .close m m.parms st <;> rfl

theorem values_simple {σ : Type} (W : World σ) (m : Macro) (st : σ) (hv : m.vararg = false) :
    ∀ (a : Text × Text) (l : List (Text × Text)) (ps : List Parm), (a :: l).length ≤ ps.length →
      (simpleArgs a l).values W false .final m ps st =
        (absent m (ps.drop (a :: l).length)).bind fun r => .ok (st, (a :: l).map Prod.fst ++ r)
  | a, [], p :: ps, _ => by
    simp [simpleArgs, Args.values, Pieces.isNil, Pieces.text, Pieces.startsParen, Piece.text, Pieces.nextOr, blanksAt, R.bind]
  | a, b :: l, p :: ps, h => by
    have ih := values_simple W m st hv b l ps (by simpa using h)
    simp only [simpleArgs, Args.values, hv, Bool.false_and, Bool.false_eq_true, if_false, Pieces.isNil, Pieces.text,
      Pieces.startsParen, Piece.text, Pieces.nextOr, blanksAt, R.bind, ih, List.append_nil]
    simp only [List.length_cons, List.drop_succ_cons, List.map_cons]
    cases absent m (List.drop (l.length + 1) ps) <;> simp [R.bind]
  | _, _, [], h => by simp at h

theorem absent_ok (m : Macro) (ps : List Parm) (h : ∀ p ∈ ps, p.required = false) :
    absent m ps = .ok (ps.map fun p => p.deflt.getD []) := by
  induction ps with
  | nil => rfl
  | cons p ps ih =>
    have h1 := h p (by simp)
    simp [absent, h1, ih (fun q hq => h q (by simp [hq])), R.bind]

/-- **C74** for the simplest calls `m a, b, c`, with no more arguments than parameters: the arguments as they are written, in
this order, and the defaults for the parameters that have none. -/
theorem C74_simple {σ : Type} (W : World σ) (m : Macro) (a : Text × Text) (l : List (Text × Text)) (st : σ)
    (ht : ∀ x ∈ a :: l, Solid x.1 ∧ Blanks x.2) (hf : m.isFunc = false) (hv : m.vararg = false) (hl : m.label = false)
    (hp : m.purged = false) (hn : W.level st ≠ 128) (hc : (a :: l).length ≤ m.parms.length)
    (hr : ∀ p ∈ m.parms.drop (a :: l).length, p.required = false) :
    ∃ N, ∀ n, N ≤ n → runStmt W n m [] st ((simpleArgs a l).toks []) =
      .ok (W.body st m ((a :: l).map Prod.fst ++ (m.parms.drop (a :: l).length).map fun p => p.deflt.getD [])).1 := by
  have hw : (simpleArgs a l).WF := by
    clear hc hr
    induction l generalizing a with
    | nil => exact ⟨ht a (by simp), trivial⟩
    | cons b l ih =>
      exact ⟨⟨ht a (by simp), trivial⟩, by intro c hc; simp at hc; subst hc; decide, ih b (fun x hx => ht x (by simp [hx]))⟩
  have hcount : ∀ (a : Text × Text) l, (simpleArgs a l).count = (a :: l).length := by
    intro a l
    induction l generalizing a with
    | nil => rfl
    | cons b l ih => simp [simpleArgs, Args.count, ih b]
  have hs : surplus m (simpleArgs a l) = false := by
    cases hps : m.parms with
    | nil => rw [hps] at hc; simp at hc
    | cons p ps =>
      rw [surplus_cons hps, hv, hcount]
      simpa using hc
  have hcs : callStmt W m [] (simpleArgs a l) st =
      .ok (W.body st m ((a :: l).map Prod.fst ++ (m.parms.drop (a :: l).length).map fun p => p.deflt.getD [])).1 := by
    unfold callStmt
    rw [values_simple W m st hv a l m.parms hc, absent_ok m _ hr]
    simp [hn, hp, R.bind, hs, hl]
  have := C74_statement_partial W m [] (simpleArgs a l) st hw hf (by rw [hcs]; simp)
  rwa [hcs] at this

/-! ## Where the code does something else -/

/-- A world that records the calls; `g` is a macro function with one parameter that returns `r`, `f` one with two parameters. -/
def W0 : World (List (Text × List Text)) where
  lookup := fun _ t =>
    if t = ['g'] then some { name := ['g'], isFunc := true, parms := [⟨false, none⟩] }
    else if t = ['f'] then some { name := ['f'], isFunc := true, parms := [⟨false, none⟩, ⟨false, none⟩] }
    else none
  body := fun s m a => (s ++ [(m.name, a)], ['r'])
  warn := fun s m => s ++ [('W' :: m.name, [])]
  level := fun _ => 0

def mac (isFunc vararg : Bool) (ps : List Parm) : Macro := { name := ['m'], isFunc := isFunc, vararg := vararg, parms := ps }
def opt : Parm := ⟨false, none⟩

/-- `f((a,),b)`: the blank argument in the inner parentheses ends the call at the first `)`; `,b)` is left in the line. -/
theorem C74_defect_blank_in_parens :
    run W0 20 (mac true false [opt, opt]) [] []
      [.lpar [], .lpar [], .item ['a'] [], .comma [], .rpar [], .comma [], .item ['b'] [], .rpar []] =
    .ok ([(['m'], [['(', 'a'], []])], ['r'], [], [.comma [], .item ['b'] [], .rpar []]) := by decide

/-- `f(a,(b),c)` for one parameter: only a part of the surplus arguments is skipped. -/
theorem C74_defect_surplus_parens :
    run W0 20 (mac true false [opt]) [] []
      [.lpar [], .item ['a'] [], .comma [], .lpar [], .item ['b'] [], .rpar [], .comma [], .item ['c'] [], .rpar []] =
    .ok ([(['W', 'm'], []), (['m'], [['a']])], ['r'], [], [.comma [], .item ['c'] [], .rpar []]) := by decide

/-- `m <a> b`: the blank behind a literal is lost. -/
theorem C74_defect_literal_blank :
    runStmt W0 20 (mac false false [opt]) [] [] [.lit ['a'] [' '], .item ['b'] []] = .ok [(['m'], [['a', 'b']])] := by decide

/-- `f(g(x) )`: the blank behind the inner call becomes a part of the argument, that of `f(x )` does not. -/
theorem C74_defect_call_blank :
    run W0 20 (mac true false [opt]) [] []
      [.lpar [], .ident ['g'] [], .lpar [], .item ['x'] [], .rpar [' '], .rpar []] =
      .ok ([(['g'], [['x']]), (['m'], [['r', ' ']])], ['r'], [], []) ∧
    run W0 20 (mac true false [opt]) [] [] [.lpar [], .item ['x'] [' '], .rpar []] =
      .ok ([(['m'], [['x']])], ['r'], [], []) := ⟨by decide, by decide⟩

/-- `m a,` for a parameter VARARG with REQ: an error although an argument is given. -/
theorem C74_defect_req_vararg :
    runStmt W0 20 { mac false true [⟨true, none⟩] with } [] [] [.item ['a'] [], .comma []] = .err (.missingArg ['m']) := by decide

end Verif.Call
