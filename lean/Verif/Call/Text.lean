import Verif.Call.Spec
import Mathlib.Data.List.Induction
/-! # Copying single tokens -/
namespace Verif.Call
open Verif.Loop (Text isSpace nul trimLen copyStr)

/-- what the tokens `k` begin with -/
def Fits (nx : Next) (k : List Tok) : Prop :=
  match nx with
  | .piece => k ≠ [] ∧ isComma k = false ∧ isClose k = false
  | .comma => isComma k = true
  | .close => isClose k = true
  | .final => k = []

theorem fits_piece (p : Piece) (k : List Tok) : Fits .piece (p.toks k) := by
  cases p <;> simp [Fits, Piece.toks, isComma, isClose]

theorem fits_nextOr {e : Next} {k : List Tok} (h : Fits e k) (ps : Pieces) : Fits (ps.nextOr e) (ps.toks k) := by
  cases ps with
  | nil => exact h
  | cons p ps => exact fits_piece p _

theorem trimsAt_fits {nx : Next} {k : List Tok} (h : Fits nx k) (fn : Bool) :
    trimsAt fn k = match nx with
      | .piece => false
      | .comma => true
      | .close => fn
      | .final => !fn := by
  revert h
  cases k with
  | nil => cases nx <;> cases fn <;> simp [Fits, trimsAt, isComma, isClose]
  | cons t k => cases nx <;> cases fn <;> cases t <;> simp [Fits, trimsAt, isComma, isClose]

theorem trimLen_solid (t bl post : Text) (ht : Solid t) (hb : Blanks bl) :
    trimLen (t ++ bl ++ post) (t.length + bl.length) = t.length := by
  induction bl using List.reverseRecOn generalizing post with
  | nil =>
    obtain ⟨c, hc, hs⟩ := ht
    obtain ⟨u, rfl⟩ : ∃ u, t = u ++ [c] := by
      have := List.getLast?_eq_some_iff.mp hc
      exact this
    simp [trimLen, hs]
  | append_singleton bl c ih =>
    have hc : isSpace c = true := hb c (by simp)
    have hb' : Blanks bl := fun d hd => hb d (by simp [hd])
    have := ih ([c] ++ post) hb'
    simp only [List.append_assoc, List.length_append, List.length_cons, List.length_nil, List.singleton_append] at this ⊢
    rw [show t.length + (bl.length + (0 + 1)) = (t.length + bl.length) + 1 from by omega, trimLen]
    rw [if_pos]
    · exact this
    · rw [List.getD_eq_getElem?_getD, List.getElem?_append_right (by omega), List.getElem?_append_right (by omega)]
      simp [hc]

theorem itemLen_eq {fn : Bool} {t bl : Text} {nx : Next} {k : List Tok} (h : Fits nx k) (ht : Solid t) (hb : Blanks bl) :
    itemLen fn t bl k = t.length + (blanksAt fn bl nx).length := by
  unfold itemLen
  simp only [trimsAt_fits h fn, List.length_append]
  have := trimLen_solid t bl [] ht hb
  simp only [List.append_nil] at this
  cases nx <;> cases fn <;> simp [blanksAt, this]

theorem blanksAt_cases (fn : Bool) (bl : Text) (nx : Next) : blanksAt fn bl nx = bl ∨ blanksAt fn bl nx = [] := by
  cases nx <;> cases fn <;> simp [blanksAt]

theorem copyItem_eq {fn : Bool} {t bl : Text} {nx : Next} {k : List Tok} (h : Fits nx k) (ht : Solid t) (hb : Blanks bl) :
    copyItem fn t bl k = t ++ blanksAt fn bl nx := by
  unfold copyItem
  rw [itemLen_eq h ht hb]
  rcases blanksAt_cases fn bl nx with e | e <;> rw [e]
  · rw [← List.length_append, List.take_length]
  · rw [List.length_nil, Nat.add_zero, List.append_nil, List.take_left]

theorem copyStr_past (buf : Text) (p : Nat) : copyStr buf p p = [] := by
  rw [copyStr]; simp

/-- blanks are copied -/
theorem copyStr_blanks (pre bl post : Text) (hb : Blanks bl) :
    copyStr (pre ++ bl ++ post) pre.length (pre.length + bl.length) = bl := by
  induction bl generalizing pre with
  | nil => simp [copyStr_past]
  | cons c bl ih =>
    have hc : isSpace c = true := hb c (by simp)
    have hne : c ≠ '!' := by rintro rfl; exact absurd hc (by decide)
    have hg : (pre ++ (c :: bl) ++ post).getD pre.length nul = c := by
      simp [List.getD_eq_getElem?_getD]
    rw [copyStr, if_pos (by simp)]
    simp only [hg, hne, if_false]
    have := ih (pre ++ [c]) (fun d hd => hb d (by simp [hd]))
    simp only [List.append_assoc, List.singleton_append, List.length_append, List.length_cons, List.length_nil] at this
    simp only [List.append_assoc, List.cons_append, List.length_cons]
    rw [show pre.length + (bl.length + 1) = pre.length + (0 + 1) + bl.length from by omega]
    simpa using this

theorem copyStr_written (pre : Text) (cs : List (Bool × Char)) (bl post : Text) (hc : ∀ x ∈ cs, x.1 = false → x.2 ≠ '!')
    (hb : Blanks bl) :
    copyStr (pre ++ written cs ++ bl ++ post) pre.length (pre.length + (written cs).length + bl.length)
      = cs.map Prod.snd ++ bl := by
  induction cs generalizing pre with
  | nil => simpa [written] using copyStr_blanks pre bl post hb
  | cons x cs ih =>
    obtain ⟨b, c⟩ := x
    have hc' : ∀ x ∈ cs, x.1 = false → x.2 ≠ '!' := fun x hx => hc x (by simp [hx])
    cases b with
    | false =>
      have hne : c ≠ '!' := hc (false, c) (by simp) rfl
      have hg : (pre ++ written ((false, c) :: cs) ++ bl ++ post).getD pre.length nul = c := by
        simp [written, List.getD_eq_getElem?_getD]
      have hw : written ((false, c) :: cs) = c :: written cs := by simp [written]
      rw [copyStr, if_pos (by rw [hw]; simp; omega)]
      simp only [hg, hne, if_false]
      have := ih (pre ++ [c]) hc'
      rw [hw]
      simp only [List.append_assoc, List.singleton_append, List.length_append, List.length_cons, List.length_nil] at this
      simp only [List.append_assoc, List.cons_append, List.length_cons, List.map_cons]
      rw [show pre.length + ((written cs).length + 1) + bl.length = pre.length + (0 + 1) + (written cs).length + bl.length
        from by omega]
      simpa using this
    | true =>
      have hw : written ((true, c) :: cs) = '!' :: c :: written cs := by simp [written]
      have hg : (pre ++ written ((true, c) :: cs) ++ bl ++ post).getD pre.length nul = '!' := by
        simp [hw, List.getD_eq_getElem?_getD]
      have hg2 : (pre ++ written ((true, c) :: cs) ++ bl ++ post).getD (pre.length + 1) nul = c := by
        simp [hw, List.getD_eq_getElem?_getD]
      rw [copyStr, if_pos (by rw [hw]; simp; omega)]
      simp only [hg, if_true, hg2]
      have := ih (pre ++ ['!', c]) hc'
      rw [hw]
      simp only [List.append_assoc, List.length_append, List.length_cons, List.length_nil] at this
      simp only [List.append_assoc, List.cons_append, List.length_cons, List.map_cons]
      rw [show pre.length + ((written cs).length + 1 + 1) + bl.length
        = pre.length + (0 + 1 + 1) + (written cs).length + bl.length from by omega]
      simpa using this

theorem copyBare_eq {fn : Bool} {cs : List (Bool × Char)} {bl : Text} {nx : Next} {k : List Tok} (h : Fits nx k)
    (ht : Solid (written cs)) (hc : ∀ x ∈ cs, x.1 = false → x.2 ≠ '!') (hb : Blanks bl) :
    copyBare fn (written cs) bl k = cs.map Prod.snd ++ blanksAt fn bl nx := by
  unfold copyBare
  rw [itemLen_eq h ht hb]
  rcases blanksAt_cases fn bl nx with e | e <;> rw [e]
  · have := copyStr_written [] cs bl (firstChar k) hc hb
    simpa using this
  · have := copyStr_written [] cs [] (bl ++ firstChar k) hc (by simp [Blanks])
    simpa using this

theorem callBlanks_eq {nx : Next} {k : List Tok} (h : Fits nx k) (bl : Text) : callBlanks bl k = blanksAtCall bl nx := by
  revert h
  cases k with
  | nil => cases nx <;> simp [Fits, callBlanks, isComma, isClose, blanksAtCall]
  | cons t k => cases nx <;> cases t <;> simp [Fits, callBlanks, isComma, isClose, blanksAtCall]

end Verif.Call
