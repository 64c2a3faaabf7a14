import Verif.Hll.Model
/-! The functions of the model with a bound on the depth of the recursion, to compute concrete cases in the kernel. -/
namespace Verif.Hll

mutual
def getSimpleF {α : Type} (n : Nat) (cfg : Cfg) (toks : List (Tok α)) (isTrue : Bool) (st : St α) : Option (R α) :=
  match n with
  | 0 => none
  | n + 1 =>
    match toks with
    | .cop .neg :: t => getSimpleF n cfg t (!isTrue) st
    | .lpar :: t =>
      if isHll 1 t then
        match getExprF n cfg t isTrue st with
        | none => none
        | some (.ok (.rpar :: t', st')) => some (.ok (t', st'))
        | some (.ok _) => some (.error .syntax)
        | some (.error e) => some (.error e)
      else some (simpleCode cfg toks isTrue st)
    | _ => some (simpleCode cfg toks isTrue st)
def andLoopF {α : Type} (n : Nat) (cfg : Cfg) (toks : List (Tok α)) (isTrue : Bool) (buffer truelabel : Nat) (st : St α) :
    Option (R α) :=
  match n with
  | 0 => none
  | n + 1 =>
    match toks with
    | .cop .and :: t =>
      let r := if isTrue then andFix cfg buffer truelabel st else (truelabel, st)
      match getSimpleF n cfg t isTrue { r.2 with lasttrue := 0 } with
      | none => none
      | some (.error e) => some (.error e)
      | some (.ok (t', st')) => andLoopF n cfg t' isTrue buffer r.1 st'
    | _ => some (.ok (toks, andEnd truelabel st))
def getAndF {α : Type} (n : Nat) (cfg : Cfg) (toks : List (Tok α)) (isTrue : Bool) (st : St α) : Option (R α) :=
  match n with
  | 0 => none
  | n + 1 =>
    match getSimpleF n cfg toks isTrue st with
    | none => none
    | some (.error e) => some (.error e)
    | some (.ok (t', st')) => andLoopF n cfg t' isTrue st.buf.length 0 st'
def orLoopF {α : Type} (n : Nat) (cfg : Cfg) (toks : List (Tok α)) (isTrue : Bool) (buffer ptr truelabel : Nat) (st : St α) :
    Option (R α) :=
  match n with
  | 0 => none
  | n + 1 =>
    match toks with
    | .cop .or :: t =>
      let r := if isTrue then (truelabel, st) else orFix cfg buffer ptr truelabel st
      match getAndF n cfg t isTrue { r.2 with lasttrue := 0 } with
      | none => none
      | some (.error e) => some (.error e)
      | some (.ok (t', st')) => orLoopF n cfg t' isTrue buffer r.2.buf.length r.1 st'
    | _ =>
      match orEnd ptr truelabel st with
      | .error e => some (.error e)
      | .ok st' => some (.ok (toks, st'))
def getExprF {α : Type} (n : Nat) (cfg : Cfg) (toks : List (Tok α)) (isTrue : Bool) (st : St α) : Option (R α) :=
  match n with
  | 0 => none
  | n + 1 =>
    match getAndF n cfg toks isTrue st with
    | none => none
    | some (.error e) => some (.error e)
    | some (.ok (t', st')) => orLoopF n cfg t' isTrue st.buf.length st.buf.length 0 st'
end

def evaluateHllF {α : Type} (n : Nat) (cfg : Cfg) (toks : List (Tok α)) (isTrue : Bool) (cnt : Nat) :
    Option (Except Err (List (Line α) × Nat)) :=
  match getExprF n cfg toks isTrue { buf := [], cnt := cnt, lastjmp := none, lasttrue := 0 } with
  | none => none
  | some (.ok ([], st)) => some (.ok (st.buf, st.cnt))
  | some (.ok _) => some (.error .syntax)
  | some (.error e) => some (.error e)

theorem fuel_ok {α : Type} (cfg : Cfg) (n : Nat) :
    (∀ (toks : List (Tok α)) m st r, getSimpleF n cfg toks m st = some r → getSimple cfg toks m st = some r) ∧
    (∀ (toks : List (Tok α)) m b tl st r, andLoopF n cfg toks m b tl st = some r → andLoop cfg toks m b tl st = some r) ∧
    (∀ (toks : List (Tok α)) m st r, getAndF n cfg toks m st = some r → getAnd cfg toks m st = some r) ∧
    (∀ (toks : List (Tok α)) m b p tl st r, orLoopF n cfg toks m b p tl st = some r → orLoop cfg toks m b p tl st = some r) ∧
    (∀ (toks : List (Tok α)) m st r, getExprF n cfg toks m st = some r → getExpr cfg toks m st = some r) := by
  induction n with
  | zero => simp [getSimpleF, andLoopF, getAndF, orLoopF, getExprF]
  | succ n ih =>
    obtain ⟨i1, i2, i3, i4, i5⟩ := ih
    refine ⟨?_, ?_, ?_, ?_, ?_⟩
    · intro toks m st r h
      rw [getSimpleF.eq_def] at h
      rw [getSimple.eq_def]
      simp only [] at h
      split at h
      · simp only [i1 _ _ _ _ h, bind, Option.bind]
      · simp only []
        split at h
        · next hh =>
          rw [if_pos hh]
          split at h
          · cases h
          all_goals (next hh => simp only [i5 _ _ _ _ hh, bind, Option.bind]; simpa using h)
        · next hh => rw [if_neg hh]; exact h
      · next h1 h2 => split <;> first | (exact (h1 _ rfl).elim) | (exact (h2 _ rfl).elim) | exact h
    · intro toks m b tl st r h
      rw [andLoopF.eq_def] at h
      rw [andLoop.eq_def]
      simp only [] at h
      split at h
      · split at h
        · cases h
        all_goals (next hh => have := i1 _ _ _ _ hh; simp only [this, bind, Option.bind]; first | exact h | exact i2 _ _ _ _ _ _ h)
      · next h1 => split <;> first | (exact (h1 _ rfl).elim) | exact h
    · intro toks m st r h
      rw [getAndF.eq_def] at h
      rw [getAnd.eq_def]
      simp only [] at h
      split at h
      · cases h
      all_goals (next hh => simp only [i1 _ _ _ _ hh, bind, Option.bind]; first | exact h | exact i2 _ _ _ _ _ _ h)
    · intro toks m b p tl st r h
      rw [orLoopF.eq_def] at h
      rw [orLoop.eq_def]
      simp only [] at h
      split at h
      · split at h
        · cases h
        all_goals (next hh => have := i3 _ _ _ _ hh; simp only [this, bind, Option.bind]; first | exact h | exact i4 _ _ _ _ _ _ _ h)
      · next h1 =>
        split
        · exact (h1 _ rfl).elim
        · split at h
          · next hh => simp only [hh]; exact h
          · next hh => simp only [hh]; exact h
    · intro toks m st r h
      rw [getExprF.eq_def] at h
      rw [getExpr.eq_def]
      simp only [] at h
      split at h
      · cases h
      all_goals (next hh => simp only [i3 _ _ _ _ hh, bind, Option.bind]; first | exact h | exact i4 _ _ _ _ _ _ _ h)

theorem evaluateHll_of_fuel {α : Type} (n : Nat) {cfg : Cfg} {toks : List (Tok α)} {m : Bool} {cnt : Nat}
    {r : Except Err (List (Line α) × Nat)} (h : evaluateHllF n cfg toks m cnt = some r) : evaluateHll cfg toks m cnt = some r := by
  unfold evaluateHllF at h
  unfold evaluateHll
  split at h
  · cases h
  · next hh => simp only [(fuel_ok cfg n).2.2.2.2 _ _ _ _ hh, bind, Option.bind]; exact h
  · next h1 hh =>
    simp only [(fuel_ok cfg n).2.2.2.2 _ _ _ _ hh, bind, Option.bind]
    exact h
  · next hh => simp only [(fuel_ok cfg n).2.2.2.2 _ _ _ _ hh, bind, Option.bind]; exact h

end Verif.Hll
