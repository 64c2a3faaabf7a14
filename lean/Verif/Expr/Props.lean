import Verif.Expr.Parse
import Verif.Expr.Const
/-! # Property theorems: expressions (C13, C14) -/
namespace Verif.Expr
open Ex
variable {V E : Type}

/-- **C13** For every token string, every kind of operands and every meaning of the operators: evaluation ends, and it yields
a value `v` and stops before `rest` exactly if the tokens before `rest` are the text of a tree that the documented precedence
rules assign to them, the tree has value `v`, and `rest` is empty or begins with an unmatched closing bracket. -/
theorem C13_precedence (sem : Sem V E) (ts : List (Tok V)) :
    (∃ r, (evaluate false sem false none ts).run = some r) ∧
    ∀ v rest, (evaluate false sem false none ts).run = some (.ok (some v, rest)) ↔
      ∃ e : Ex V, e.WF ∧ e.eval sem = .ok v ∧ ts = e.toks ++ rest ∧ AtEnd rest := by
  obtain ⟨x, hx, hp⟩ := (sound sem ts.length ts rfl).eval
  refine ⟨⟨x, hx⟩, fun v rest => ⟨fun h => ?_, ?_⟩⟩
  · rw [hx] at h
    cases h
    obtain ⟨v', e, h1, h2, h3, h4, h5⟩ := hp _ rfl
    cases h1
    exact ⟨e, h2, h3, h4, h5⟩
  · rintro ⟨e, h1, h2, rfl, h4⟩
    have hs : Stop e.right rest := by
      cases rest with
      | nil => trivial
      | cons t r => left; cases t <;> simp_all [AtEnd, isClose]
    rw [(complete sem e h1).2 rest hs, h2]
    simp only [liftC, pure_bind]
    rw [loop.eq_def]
    cases rest with
    | nil => rfl
    | cons t r =>
      have : isClose t = true := by cases t <;> simp_all [AtEnd, isClose]
      simp [this]

/-- **C13** (errors) A well-formed text whose evaluation fails is reported with the error of the first failing operation. -/
theorem C13_errors (sem : Sem V E) (e : Ex V) (rest : List (Tok V)) (err : E) (hw : e.WF) (hr : AtEnd rest)
    (he : e.eval sem = .error err) :
    (evaluate false sem false none (e.toks ++ rest)).run = some (.error (.calcErr err)) := by
  have hs : Stop e.right rest := by
    cases rest with
    | nil => trivial
    | cons t r => left; cases t <;> simp_all [AtEnd, isClose]
  rw [(complete sem e hw).2 rest hs, he]
  rfl

/-- **C13** (unambiguous) No text has two readings with different results. -/
theorem C13_unambiguous (sem : Sem V E) (e e' : Ex V) (hw : e.WF) (hw' : e'.WF) (ht : e.toks = e'.toks) :
    e.eval sem = e'.eval sem := by
  have h1 := (complete sem e hw).2 [] trivial
  have h2 := (complete sem e' hw').2 [] trivial
  rw [ht] at h1
  rw [h1] at h2
  have hl : ∀ v, loop false sem false (some v) [] = (pure (some v, []) : M E (Option V × List (Tok V))) := by
    intro v; rw [loop.eq_def]
  simp only [hl] at h2
  cases he : e.eval sem <;> cases he' : e'.eval sem <;> rw [he, he'] at h2 <;> first | (cases h2; done) | (cases h2; rfl)

/-- Number token. -/
def num (n : Nat) : Tok Val := .operand ⟨BitVec.ofNat 64 n, 0#64⟩

def cfg0 : Cfg := ⟨false, true, true⟩

/-- **C13** (finding) With OPTION M510 the rules are violated: `100 / ( 10 ) / 5` is evaluated as `100 / ( ( 10 ) / 5 )` = 50
although `/` is left associative. -/
theorem C13_m510_brackets : (evaluate true (constSem { cfg0 with m510 := true }) false none
    [num 100, .bin .div, .op false, num 10, .cl false, .bin .div, num 5]).run = some (.ok (some ⟨50#64, 0#64⟩, [])) := by
  have e1 : evaluate true (constSem { cfg0 with m510 := true }) true (some ⟨10#64, 0#64⟩) [.bin .div, num 5] = pure (some ⟨2#64, 0#64⟩, []) := by
    rw [evaluate.eq_def]; simp only
    rw [loop.eq_def]; simp [isClose, binaryRole, num]
    rw [readOperand.eq_def]; simp [unaryRole, getOperand]
    rw [climb.eq_def]; simp [calculate, constSem, chk, liftC, binConst, cfg0]; rfl
  have e2 : evaluate true (constSem { cfg0 with m510 := true }) false none [num 10, .cl false, .bin .div, num 5] =
      pure (some ⟨10#64, 0#64⟩, [.cl false, .bin .div, num 5]) := by
    rw [evaluate.eq_def]; simp [unaryRole, getOperand, num]
    rw [loop.eq_def]; simp [isClose]
  have e3 : evaluate true (constSem { cfg0 with m510 := true }) true none [.op false, num 10, .cl false, .bin .div, num 5] =
      pure (some ⟨2#64, 0#64⟩, []) := by
    rw [evaluate.eq_def]; simp only [unaryRole]
    rw [loop.eq_def]; simp [isClose, unaryRole]
    rw [readOperand.eq_def]; simp only [e2]; simp
    rw [climb.eq_def]; simp only [binaryRole, isClose]
    simp [Oper.prec, BinOp.prec, BName.prec, bracketPrec, e1]
    rw [climb.eq_def]; simp [calculate, constSem, chk, liftC, cfg0]; rfl
  rw [evaluate.eq_def]
  simp [unaryRole, getOperand, num]
  rw [loop.eq_def]; simp [isClose, binaryRole]
  rw [readOperand.eq_def]; simp [unaryRole]
  have e3' := e3
  simp only [num] at e3'
  rw [e3']
  have e4 : calculate (constSem { cfg0 with m510 := true }) (.bin (.nm .div)) (some ⟨100#64, 0#64⟩) ⟨2#64, 0#64⟩ = (pure ⟨50#64, 0#64⟩ : M CErr Val) := by
    simp [calculate, constSem, chk, liftC, binConst, cfg0]; rfl
  simp only [pure_bind]
  rw [climb.eq_def]; simp only [pure_bind, e4]
  rw [loop.eq_def]; rfl

end Verif.Expr
