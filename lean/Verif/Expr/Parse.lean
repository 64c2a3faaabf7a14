import Verif.Expr.Spec
namespace Verif.Expr
open Ex
variable {V E : Type}

theorem unLevel_eq (u : UnOp) : u.prec = unLevel u := by
  cases u with
  | nm n => cases n <;> rfl
  | _ => rfl
theorem binLevel_eq (b : BinOp) : b.prec = binLevel b := by
  cases b with
  | nm n => cases n <;> rfl
  | _ => rfl
theorem binLevel_pos (b : BinOp) : 1 < binLevel b := by
  cases b with
  | nm n => cases n <;> simp [binLevel]
  | _ => simp [binLevel]
theorem unLevel_pos (u : UnOp) : 1 < unLevel u := by
  cases u with
  | nm n => cases n <;> simp [unLevel]
  | _ => simp [unLevel]
theorem prec_pos (o : Oper) : 1 ≤ o.prec false := by
  cases o with
  | un u => simp only [Oper.prec, unLevel_eq]; have := unLevel_pos u; omega
  | bin b => simp only [Oper.prec, binLevel_eq]; have := binLevel_pos b; omega
  | br s => simp [Oper.prec, bracketPrec]

theorem unRole (u : UnOp) : unaryRole (unTok u : Tok V) = some (.un u) := by cases u <;> rfl
theorem binRole (b : BinOp) : binaryRole (binTok b : Tok V) = some (.bin b) := by cases b <;> rfl
theorem unClose (u : UnOp) : isClose (unTok u : Tok V) = false := by cases u <;> rfl
theorem binClose (b : BinOp) : isClose (binTok b : Tok V) = false := by cases b <;> rfl

/-- The next token does not take the operand away from an operator of level `q`: it ends the expression, or is an infix
operator that does not bind tighter than level `q`. -/
def Stop (q : Nat) : List (Tok V) → Prop
  | [] => True
  | t :: _ => isClose t = true ∨ ∃ o, isClose t = false ∧ binaryRole t = some o ∧ q ≤ o.prec false

theorem climb_stop (sem : Sem V E) (p : Nat) (v : V) (ts : List (Tok V)) (h : Stop p ts) :
    climb false sem p v ts = pure (v, ts) := by
  rw [climb.eq_def]
  cases ts with
  | nil => rfl
  | cons t ts =>
    rcases h with h | ⟨o, h0, h1, h2⟩
    · simp [h]
    · simp only [h0, h1]
      simp
      intro h3; omega

theorem stop_mono {p q : Nat} {ts : List (Tok V)} (h : Stop p ts) (hq : q ≤ p) : Stop q ts := by
  cases ts with
  | nil => trivial
  | cons t ts =>
    rcases h with h | ⟨o, h0, h1, h2⟩
    · exact .inl h
    · exact .inr ⟨o, h0, h1, by omega⟩

theorem stop_one {ts : List (Tok V)} {q : Nat} (h : Stop q ts) : Stop 1 ts := by
  cases ts with
  | nil => trivial
  | cons t ts =>
    rcases h with h | ⟨o, h0, h1, h2⟩
    · exact .inl h
    · exact .inr ⟨o, h0, h1, prec_pos o⟩

theorem root_le_right (e : Ex V) : e.root ≤ e.right := by
  cases e <;> simp [root, right]; omega

/-- First token of a tree: an operand or something with a unary role. -/
def FirstOk (t : Tok V) : Prop := (∃ v, t = .operand v) ∨ (isClose t = false ∧ ∃ o, unaryRole t = some o)

theorem liftC_bind {α β : Type} (x : Except E α) (f : α → Except E β) : (liftC (x >>= f) : M E β) = liftC x >>= fun a => liftC (f a) := by
  cases x <;> rfl

theorem toks_ne (e : Ex V) : e.toks ≠ [] := by
  cases e <;> simp [toks]

theorem loop_step (sem : Sem V E) (one : Bool) (opnd1 : Option V) (t : Tok V) (ts : List (Tok V)) (o : Oper)
    (hc : isClose t = false) (hr : (if opnd1.isSome then binaryRole t else unaryRole t) = some o) :
    loop false sem one opnd1 (t :: ts) =
      ((readOperand false sem o ts >>= fun x => climb false sem (o.prec false) x.1 x.2) >>= fun x =>
        calculate sem o opnd1 x.1 >>= fun v => if one then pure (some v, x.2) else loop false sem one (some v) x.2) := by
  rw [loop.eq_def]
  simp only [hc, hr]
  simp

theorem inner (sem : Sem V E) (sq : Bool) (e : Ex V) (rest : List (Tok V))
    (ih2 : ∀ rest, Stop e.right rest → evaluate false sem false none (e.toks ++ rest) =
        liftC (e.eval sem) >>= fun v => loop false sem false (some v) rest) :
    readOperand false sem (.br sq) (e.toks ++ ([Tok.cl sq] ++ rest)) =
        liftC (e.eval sem) >>= fun v => (pure (v, rest) : M E (V × List (Tok V))) := by
  rw [readOperand.eq_def]
  simp only
  rw [ih2 ([Tok.cl sq] ++ rest) (by simp [Stop, isClose])]
  simp only [bind_assoc]
  congr 1; funext v
  rw [loop.eq_def]
  simp [isClose]

/-- Trees that begin with a prefix operator or a bracket, and are closed: what the step on the first token does. -/
theorem prefix_both (sem : Sem V E) (t : Tok V) (body rest : List (Tok V)) (o0 : Oper) (val : Except E V)
    (hr : unaryRole t = some o0)
    (hs : ∀ one, loop false sem one none (t :: (body ++ rest)) =
      liftC val >>= fun v => if one then pure (some v, rest) else loop false sem one (some v) rest) :
    (∀ (o : Oper) (_ : ∀ s, o ≠ .br s),
      (readOperand false sem o (t :: (body ++ rest)) >>= fun x => climb false sem (o.prec false) x.1 x.2) =
        liftC val >>= fun v => climb false sem (o.prec false) v rest) ∧
    (evaluate false sem false none (t :: (body ++ rest)) = liftC val >>= fun v => loop false sem false (some v) rest) := by
  constructor
  · intro o ho
    rw [readOperand.eq_def]
    have e1 : evaluate false sem true none (t :: (body ++ rest)) = liftC val >>= fun v => pure (some v, rest) := by
      rw [evaluate.eq_def]; simp only [hr]; rw [hs true]; simp
    cases o with
    | br s => exact absurd rfl (ho s)
    | un u => simp only [hr]; rw [e1]; simp
    | bin b => simp only [hr]; rw [e1]; simp
  · rw [evaluate.eq_def]; simp only [hr]; rw [hs false]; simp

theorem complete (sem : Sem V E) (e : Ex V) (hw : e.WF) :
    (∀ (o : Oper) (ho : ∀ s, o ≠ .br s) (rest : List (Tok V)), e.root < o.prec false → Stop e.right rest →
      (readOperand false sem o (e.toks ++ rest) >>= fun x => climb false sem (o.prec false) x.1 x.2) =
        liftC (e.eval sem) >>= fun v => climb false sem (o.prec false) v rest) ∧
    (∀ rest, Stop e.right rest → evaluate false sem false none (e.toks ++ rest) =
        liftC (e.eval sem) >>= fun v => loop false sem false (some v) rest) := by
  induction e with
  | opnd v =>
    constructor
    · intro o ho rest _ _
      rw [readOperand.eq_def]
      cases o with
      | br s => exact absurd rfl (ho s)
      | un u => simp [toks, unaryRole, getOperand, eval, liftC]
      | bin b => simp [toks, unaryRole, getOperand, eval, liftC]
    · intro rest _
      rw [evaluate.eq_def]
      simp [toks, unaryRole, getOperand, eval, liftC]
  | brk sq e ih =>
    obtain ⟨_, ih2⟩ := ih hw
    have key : ∀ rest, Stop 0 rest → ∀ one, loop false sem one none (Tok.op sq :: ((e.toks ++ [.cl sq]) ++ rest)) =
        liftC ((brk sq e).eval sem) >>= fun v => if one then pure (some v, rest) else loop false sem one (some v) rest := by
      intro rest hs one
      rw [loop_step sem one none (.op sq) _ (.br sq) rfl rfl, List.append_assoc, inner sem sq e rest ih2]
      simp only [bind_assoc, pure_bind]
      rw [eval, liftC_bind]
      simp only [bind_assoc]
      congr 1; funext v
      have : climb false sem (Oper.prec false (.br sq)) v rest = pure (v, rest) := climb_stop _ _ _ _ (stop_one hs)
      rw [this]
      simp [calculate]
    refine ⟨fun o ho rest _ hs => ?_, fun rest hs => ?_⟩
    · exact (prefix_both sem (.op sq) (e.toks ++ [.cl sq]) rest (.br sq) _ rfl (key rest hs)).1 o ho
    · exact (prefix_both sem (.op sq) (e.toks ++ [.cl sq]) rest (.br sq) _ rfl (key rest hs)).2
  | un u e ih =>
    obtain ⟨ih1, _⟩ := ih hw.1
    have key : ∀ rest, Stop (un u e).right rest → ∀ one, loop false sem one none (unTok u :: (e.toks ++ rest)) =
        liftC ((un u e).eval sem) >>= fun v => if one then pure (some v, rest) else loop false sem one (some v) rest := by
      intro rest hs one
      simp only [right] at hs
      rw [loop_step sem one none (unTok u) _ (.un u) (unClose u) (by simp [unRole u])]
      rw [ih1 (.un u) (by simp) rest (by simp only [Oper.prec, unLevel_eq]; exact hw.2) (stop_mono hs (by omega))]
      rw [eval, liftC_bind]
      simp only [bind_assoc]
      congr 1; funext v
      rw [climb_stop _ _ _ _ (stop_mono hs (by simp only [Oper.prec, unLevel_eq]; omega))]
      simp [calculate]
    refine ⟨fun o ho rest _ hs => ?_, fun rest hs => ?_⟩
    · exact (prefix_both sem (unTok u) e.toks rest (.un u) _ (unRole u) (key rest hs)).1 o ho
    · exact (prefix_both sem (unTok u) e.toks rest (.un u) _ (unRole u) (key rest hs)).2
  | bin b l r ihl ihr =>
    obtain ⟨w1, w2, w3, w4⟩ := hw
    obtain ⟨l1, l2⟩ := ihl w1
    obtain ⟨r1, _⟩ := ihr w2
    have step : ∀ rest, Stop (bin b l r).right rest → ∀ one vl, loop false sem one (some vl) (binTok b :: (r.toks ++ rest)) =
        liftC (r.eval sem) >>= fun vr => liftC (sem.bin b vl vr) >>= fun v => if one then pure (some v, rest) else loop false sem one (some v) rest := by
      intro rest hs one vl
      simp only [right] at hs
      rw [loop_step sem one (some vl) (binTok b) _ (.bin b) (binClose b) (by simp [binRole b])]
      rw [r1 (.bin b) (by simp) rest (by simp only [Oper.prec, binLevel_eq]; exact w4) (stop_mono hs (by omega))]
      simp only [bind_assoc]
      congr 1; funext v
      rw [climb_stop _ _ _ _ (stop_mono hs (by simp only [Oper.prec, binLevel_eq]; omega))]
      simp [calculate]
    have hstop : ∀ rest : List (Tok V), Stop l.right (binTok b :: rest) := fun rest =>
      .inr ⟨.bin b, binClose b, binRole b, by simp only [Oper.prec, binLevel_eq]; exact w3⟩
    refine ⟨fun o ho rest hp hs => ?_, fun rest hs => ?_⟩
    · simp only [root] at hp
      have hl := root_le_right l
      simp only [toks, List.append_assoc, List.cons_append]
      rw [l1 o ho _ (by omega) (hstop _), eval, liftC_bind]
      simp only [bind_assoc]
      congr 1; funext vl
      rw [climb.eq_def]
      simp only [binClose, binRole]
      have hb : Oper.prec false (.bin b) = binLevel b := by simp only [Oper.prec, binLevel_eq]
      rw [if_neg (by simp), if_neg (by rw [hb]; omega), evaluate.eq_def]
      simp only
      rw [step rest hs true vl]
      simp only [liftC_bind, bind_assoc]
      simp
    · simp only [toks, List.append_assoc, List.cons_append]
      rw [l2 _ (hstop _), eval, liftC_bind]
      simp only [bind_assoc]
      congr 1; funext vl
      rw [step rest hs false vl]
      simp only [liftC_bind, bind_assoc]
      simp
  | juxt sq l e ihl ihe =>
    obtain ⟨w1, w2, w3⟩ := hw
    obtain ⟨l1, l2⟩ := ihl w1
    obtain ⟨_, e2⟩ := ihe w2
    have step : ∀ rest, Stop (juxt sq l e).right rest → ∀ one vl, loop false sem one (some vl) (.op sq :: (e.toks ++ ([.cl sq] ++ rest))) =
        liftC (e.eval sem) >>= fun vr => liftC (sem.juxt sq vl vr) >>= fun v => if one then pure (some v, rest) else loop false sem one (some v) rest := by
      intro rest hs one vl
      rw [loop_step sem one (some vl) (.op sq) _ (.br sq) rfl rfl, inner sem sq e rest e2]
      simp only [bind_assoc, pure_bind]
      congr 1; funext v
      have : climb false sem (Oper.prec false (.br sq)) v rest = pure (v, rest) := climb_stop _ _ _ _ (stop_one hs)
      rw [this]
      simp [calculate]
    have hstop : ∀ rest : List (Tok V), Stop l.right (.op sq :: rest) := fun rest =>
      .inr ⟨.br sq, rfl, rfl, by simpa [Oper.prec, bracketPrec] using w3⟩
    refine ⟨fun o ho rest hp hs => ?_, fun rest hs => ?_⟩
    · simp only [root] at hp
      have hl := root_le_right l
      simp only [toks, List.append_assoc, List.cons_append]
      rw [l1 o ho _ (by omega) (hstop _), eval, liftC_bind]
      simp only [bind_assoc]
      congr 1; funext vl
      rw [climb.eq_def]
      simp only [isClose, binaryRole]
      rw [if_neg (by simp), if_neg (by rw [show Oper.prec false (.br sq) = 1 from rfl]; omega), evaluate.eq_def]
      simp only [List.nil_append]
      have := step rest hs true vl
      simp only [List.cons_append, List.nil_append] at this
      rw [this]
      simp only [liftC_bind, bind_assoc]
      simp
    · simp only [toks, List.append_assoc, List.cons_append]
      rw [l2 _ (hstop _), eval, liftC_bind]
      simp only [bind_assoc]
      congr 1; funext vl
      have := step rest hs false vl
      simp only [List.cons_append, List.nil_append] at this ⊢
      rw [this]
      simp only [liftC_bind, bind_assoc]
      simp


/-- The computation ends, and if it ends without error the result satisfies `P`. -/
def Ends {α : Type} (m : M E α) (P : α → Prop) : Prop := ∃ x, m.run = some x ∧ ∀ a, x = .ok a → P a

theorem Ends.bind {α β : Type} {m : M E α} {f : α → M E β} {P : α → Prop} {Q : β → Prop} (h : Ends m P)
    (hf : ∀ a, P a → Ends (f a) Q) : Ends (m >>= f) Q := by
  obtain ⟨x, hx, hp⟩ := h
  cases x with
  | error e =>
    refine ⟨.error e, ?_, by simp⟩
    show (ExceptT.run (m >>= f)) = _
    rw [ExceptT.run_bind, hx]; rfl
  | ok a =>
    obtain ⟨y, hy, hq⟩ := hf a (hp a rfl)
    refine ⟨y, ?_, hq⟩
    rw [ExceptT.run_bind, hx]; simpa using hy

theorem Ends.pure {α : Type} {a : α} {P : α → Prop} (h : P a) : Ends (pure a : M E α) P :=
  ⟨.ok a, rfl, by rintro b ⟨⟩; exact h⟩

theorem Ends.err {α : Type} {e : PErr} {P : α → Prop} : Ends (perr e : M E α) P :=
  ⟨.error _, rfl, by simp⟩

theorem Ends.lift {α : Type} {x : Except E α} {P : α → Prop} (h : ∀ a, x = .ok a → P a) : Ends (liftC x) P := by
  cases x with
  | error e => exact ⟨.error (.calcErr e), rfl, by simp⟩
  | ok a => exact ⟨.ok a, rfl, by rintro b ⟨⟩; exact h a rfl⟩

theorem Ends.mono {α : Type} {m : M E α} {P Q : α → Prop} (h : Ends m P) (hpq : ∀ a, P a → Q a) : Ends m Q := by
  obtain ⟨x, hx, hp⟩ := h
  exact ⟨x, hx, fun a ha => hpq a (hp a ha)⟩

/-- What reading an operand in front of `rest` leaves: nothing behind it can bind tighter than what is exposed in it. -/
def Ready (e : Ex V) (rest : List (Tok V)) : Prop := e.right = 0 ∨ Stop e.right rest

theorem Ready.le {e : Ex V} {t : Tok V} {ts : List (Tok V)} {o : Oper} (h : Ready e (t :: ts)) (hc : isClose t = false)
    (ho : binaryRole t = some o) : e.right ≤ o.prec false := by
  rcases h with h | h | ⟨o', _, h1, h2⟩
  · omega
  · rw [hc] at h; cases h
  · rw [ho] at h1; cases h1; exact h2

structure Bundle (sem : Sem V E) (ts : List (Tok V)) : Prop where
  opnd : ∀ o : Oper, (∀ s, o ≠ .br s) → Ends (readOperand false sem o ts) fun x =>
    ∃ e : Ex V, e.WF ∧ e.root = 0 ∧ e.eval sem = .ok x.1 ∧ ts = e.toks ++ x.2 ∧ Ready e x.2
  climb : ∀ (p : Nat) (e0 : Ex V) (v : V), e0.WF → e0.eval sem = .ok v → e0.root < p → Ready e0 ts →
    Ends (climb false sem p v ts) fun x =>
      ∃ e : Ex V, e.WF ∧ e.root < p ∧ e.eval sem = .ok x.1 ∧ e0.toks ++ ts = e.toks ++ x.2 ∧ Stop p x.2 ∧ Stop e.right x.2 ∧ x.2.length ≤ ts.length
  eval : Ends (evaluate false sem false none ts) fun x =>
    ∃ (v : V) (e : Ex V), x.1 = some v ∧ e.WF ∧ e.eval sem = .ok v ∧ ts = e.toks ++ x.2 ∧ AtEnd x.2
  loop : ∀ (e0 : Ex V) (v : V), e0.WF → e0.eval sem = .ok v → Ready e0 ts →
    Ends (loop false sem false (some v) ts) fun x =>
      ∃ (v : V) (e : Ex V), x.1 = some v ∧ e.WF ∧ e.eval sem = .ok v ∧ e0.toks ++ ts = e.toks ++ x.2 ∧ AtEnd x.2

theorem atEnd_close {t : Tok V} {ts : List (Tok V)} (h : isClose t = true) : AtEnd (t :: ts) := by
  cases t <;> simp_all [isClose, AtEnd]

theorem unaryRole_inv {t : Tok V} {o : Oper} (h : unaryRole t = some o) :
    (∃ u, o = .un u ∧ t = unTok u) ∨ (∃ sq, o = .br sq ∧ t = .op sq) := by
  cases t with
  | plus => left; exact ⟨.pos, by simpa [unaryRole] using h.symm, rfl⟩
  | minus => left; exact ⟨.neg, by simpa [unaryRole] using h.symm, rfl⟩
  | un u => left; exact ⟨.nm u, by simpa [unaryRole] using h.symm, rfl⟩
  | op sq => right; exact ⟨sq, by simpa [unaryRole] using h.symm, rfl⟩
  | _ => simp [unaryRole] at h

theorem binaryRole_inv {t : Tok V} {o : Oper} (h : binaryRole t = some o) :
    (∃ b, o = .bin b ∧ t = binTok b) ∨ (∃ sq, o = .br sq ∧ t = .op sq) := by
  cases t with
  | plus => left; exact ⟨.add, by simpa [binaryRole] using h.symm, rfl⟩
  | minus => left; exact ⟨.sub, by simpa [binaryRole] using h.symm, rfl⟩
  | bin u => left; exact ⟨.nm u, by simpa [binaryRole] using h.symm, rfl⟩
  | op sq => right; exact ⟨sq, by simpa [binaryRole] using h.symm, rfl⟩
  | _ => simp [binaryRole] at h

theorem unaryRole_close {t : Tok V} {o : Oper} (h : unaryRole t = some o) : isClose t = false := by
  cases t <;> simp_all [unaryRole, isClose]

theorem stop_max {p q : Nat} {ts : List (Tok V)} (h1 : Stop p ts) (h2 : Stop q ts) : Stop (max p q) ts := by
  rcases Nat.le_total p q with h | h
  · rwa [Nat.max_eq_right h]
  · rwa [Nat.max_eq_left h]

theorem toks_pos (e : Ex V) : 0 < e.toks.length := List.length_pos_iff.mpr (toks_ne e)

/-- Reading the right operand of an operator that is no bracket. -/
theorem read_climb (sem : Sem V E) (ts : List (Tok V)) (ih : ∀ ts' : List (Tok V), ts'.length ≤ ts.length → Bundle sem ts') (o : Oper)
    (ho : ∀ s, o ≠ .br s) :
    Ends (readOperand false sem o ts >>= fun x => climb false sem (o.prec false) x.1 x.2) fun x =>
      ∃ e : Ex V, e.WF ∧ e.root < o.prec false ∧ e.eval sem = .ok x.1 ∧ ts = e.toks ++ x.2 ∧ Stop (o.prec false) x.2 ∧ Stop e.right x.2 := by
  refine ((ih ts (by omega)).opnd o ho).bind ?_
  rintro ⟨v, rest⟩ ⟨e, h1, h2, h3, h4, h5⟩
  simp only at h3 h4 h5 ⊢
  have hl : rest.length ≤ ts.length := by rw [h4]; simp
  have := prec_pos o
  refine ((ih rest hl).climb (o.prec false) e v h1 h3 (by omega) h5).mono ?_
  rintro ⟨v', r'⟩ ⟨e', g1, g2, g3, g4, g5, g6, _⟩
  exact ⟨e', g1, g2, g3, by rw [h4, g4], g5, g6⟩

/-- Reading the contents of brackets. -/
theorem read_bracket (sem : Sem V E) (ts : List (Tok V)) (ih : ∀ ts' : List (Tok V), ts'.length ≤ ts.length → Bundle sem ts') (sq : Bool) :
    Ends (readOperand false sem (.br sq) ts >>= fun x => climb false sem (Oper.prec false (.br sq)) x.1 x.2) fun x =>
      ∃ e : Ex V, e.WF ∧ e.eval sem = .ok x.1 ∧ ts = e.toks ++ (.cl sq :: x.2) ∧ Stop 1 x.2 := by
  have h1 : Ends (readOperand false sem (.br sq) ts) fun x =>
      ∃ e : Ex V, e.WF ∧ e.eval sem = .ok x.1 ∧ ts = e.toks ++ (.cl sq :: x.2) := by
    rw [readOperand.eq_def]
    refine ((ih ts (by omega)).eval).bind ?_
    rintro ⟨v, rest⟩ ⟨v', e, h1, h2, h3, h4, h5⟩
    simp only at h1 h4 h5 ⊢
    subst h1
    split
    · rename_i x y sq' r' hx
      cases hx
      split
      · rename_i hs; subst hs
        exact .pure ⟨e, h2, h3, h4⟩
      · exact .err
    · exact .err
  refine h1.bind ?_
  rintro ⟨v, rest⟩ ⟨e, h2, h3, h4⟩
  simp only
  rw [climb.eq_def]
  cases rest with
  | nil => exact .pure ⟨e, h2, h3, h4, trivial⟩
  | cons t r =>
    simp only
    split
    · rename_i hc
      exact .pure ⟨e, h2, h3, h4, .inl hc⟩
    · rename_i hc
      split
      · exact .err
      · rename_i o ho
        have := prec_pos o
        rw [if_pos (by simpa [Oper.prec, bracketPrec] using this)]
        exact .pure ⟨e, h2, h3, h4, .inr ⟨o, by simpa using hc, ho, this⟩⟩

/-- One step of the loop with a left operand. -/
theorem step_left (sem : Sem V E) (one : Bool) (t : Tok V) (ts : List (Tok V)) (ih : ∀ ts' : List (Tok V), ts'.length ≤ ts.length → Bundle sem ts')
    (e0 : Ex V) (v : V) (o : Oper) (h0 : e0.WF) (hv : e0.eval sem = .ok v) (hr : Ready e0 (t :: ts)) (hc : isClose t = false)
    (ho : binaryRole t = some o) (Q : Option V × List (Tok V) → Prop)
    (k : ∀ v' rest (e : Ex V), e.WF → e.eval sem = .ok v' → e.root ≤ o.prec false → e0.toks ++ (t :: ts) = e.toks ++ rest → Stop e.right rest →
      rest.length ≤ ts.length →
      Ends (if one then pure (some v', rest) else loop false sem one (some v') rest : M E (Option V × List (Tok V))) Q) :
    Ends (loop false sem one (some v) (t :: ts)) Q := by
  rw [loop_step sem one (some v) t ts o hc (by simpa using ho)]
  have hle := hr.le hc ho
  rcases binaryRole_inv ho with ⟨b, rfl, rfl⟩ | ⟨sq, rfl, rfl⟩
  · refine (read_climb sem ts ih (.bin b) (by simp)).bind ?_
    rintro ⟨vr, rest⟩ ⟨e, g1, g2, g3, g4, g5, g6⟩
    simp only at g3 g4 g5 g6 ⊢
    simp only [calculate]
    have hb : Oper.prec false (.bin b) = binLevel b := by simp only [Oper.prec, binLevel_eq]
    refine Ends.bind (Ends.lift (P := fun v' => sem.bin b v vr = .ok v') (fun _ h => h)) ?_
    intro v' hv'
    refine k v' rest (bin b e0 e) ⟨h0, g1, by omega, by omega⟩ ?_ (by simp [root]; omega) ?_ ?_ ?_
    · simp only [Ex.eval, hv, g3]; exact hv'
    · simp only [toks, g4]; simp
    · simp only [right]; rw [hb] at g5; exact stop_max g5 g6
    · rw [g4]; simp
  · refine (read_bracket sem ts ih sq).bind ?_
    rintro ⟨vr, rest⟩ ⟨e, g1, g2, g3, g4⟩
    simp only at g2 g3 g4 ⊢
    simp only [calculate]
    have hb : Oper.prec false (.br sq) = 1 := rfl
    refine Ends.bind (Ends.lift (P := fun v' => sem.juxt sq v vr = .ok v') (fun _ h => h)) ?_
    intro v' hv'
    refine k v' rest (juxt sq e0 e) ⟨h0, g1, by omega⟩ ?_ (by simp [root]; omega) ?_ ?_ ?_
    · simp only [Ex.eval, hv, g2]; exact hv'
    · simp only [toks, g3]; simp
    · exact g4
    · rw [g3]; simp; omega

/-- One step of the loop without a left operand. -/
theorem step_none (sem : Sem V E) (one : Bool) (t : Tok V) (ts : List (Tok V)) (ih : ∀ ts' : List (Tok V), ts'.length ≤ ts.length → Bundle sem ts')
    (o : Oper) (ho : unaryRole t = some o) (Q : Option V × List (Tok V) → Prop)
    (k : ∀ v' rest (e : Ex V), e.WF → e.eval sem = .ok v' → e.root = 0 → t :: ts = e.toks ++ rest → Stop e.right rest →
      rest.length ≤ ts.length →
      Ends (if one then pure (some v', rest) else loop false sem one (some v') rest : M E (Option V × List (Tok V))) Q) :
    Ends (loop false sem one none (t :: ts)) Q := by
  rw [loop_step sem one none t ts o (unaryRole_close ho) (by simpa using ho)]
  rcases unaryRole_inv ho with ⟨u, rfl, rfl⟩ | ⟨sq, rfl, rfl⟩
  · refine (read_climb sem ts ih (.un u) (by simp)).bind ?_
    rintro ⟨vr, rest⟩ ⟨e, g1, g2, g3, g4, g5, g6⟩
    simp only at g3 g4 g5 g6 ⊢
    simp only [calculate]
    have hb : Oper.prec false (.un u) = unLevel u := by simp only [Oper.prec, unLevel_eq]
    refine Ends.bind (Ends.lift (P := fun v' => sem.un u vr = .ok v') (fun _ h => h)) ?_
    intro v' hv'
    refine k v' rest (un u e) ⟨g1, by omega⟩ ?_ rfl ?_ ?_ ?_
    · simp only [Ex.eval, g3]; exact hv'
    · simp only [toks, g4]; simp
    · simp only [right]; rw [hb] at g5; exact stop_max g5 g6
    · rw [g4]; simp
  · refine (read_bracket sem ts ih sq).bind ?_
    rintro ⟨vr, rest⟩ ⟨e, g1, g2, g3, g4⟩
    simp only at g2 g3 g4 ⊢
    simp only [calculate]
    refine Ends.bind (Ends.lift (P := fun v' => sem.bracket sq vr = .ok v') (fun _ h => h)) ?_
    intro v' hv'
    refine k v' rest (brk sq e) g1 ?_ rfl ?_ ?_ ?_
    · simp only [Ex.eval, g2]; exact hv'
    · simp only [toks, g3]; simp
    · exact stop_mono g4 (by simp [right])
    · rw [g3]; simp; omega

theorem getOperand_ends (t : Tok V) (ts : List (Tok V)) : Ends (getOperand (t :: ts) : M E (V × List (Tok V)))
    fun x => t = .operand x.1 ∧ x.2 = ts := by
  cases t <;> first | exact .err | exact .pure ⟨rfl, rfl⟩

theorem sound (sem : Sem V E) (n : Nat) : ∀ ts : List (Tok V), ts.length = n → Bundle sem ts := by
  induction n using Nat.strongRecOn with
  | ind n IH =>
    intro ts hn
    have ih : ∀ t ts0, ts = t :: ts0 → ∀ ts' : List (Tok V), ts'.length ≤ ts0.length → Bundle sem ts' := by
      intro t ts0 e ts' hl
      refine IH ts'.length ?_ ts' rfl
      rw [← hn, e]; simp; omega
    refine ⟨?_, ?_, ?_, ?_⟩
    · -- opnd
      intro o ho
      rw [readOperand.eq_def]
      cases ts with
      | nil =>
        cases o with
        | br s => exact absurd rfl (ho s)
        | _ => exact .err
      | cons t ts' =>
        have e1 : ∀ o', unaryRole t = some o' → Ends (evaluate false sem true none (t :: ts')) fun x => ∃ (v : V) (e : Ex V), x.1 = some v ∧ e.WF ∧ e.eval sem = .ok v ∧ e.root = 0 ∧ t :: ts' = e.toks ++ x.2 ∧ Stop e.right x.2 := by
          intro o' hu
          rw [evaluate.eq_def]
          simp only [hu]
          refine step_none sem true t ts' (ih t ts' rfl) o' hu _ ?_
          intro v' rest e g1 g2 g3 g4 g5 _
          exact .pure ⟨v', e, rfl, g1, g2, g3, g4, g5⟩
        cases o with
        | br s => exact absurd rfl (ho s)
        | _ =>
          simp only
          cases hu : unaryRole t with
          | none =>
            simp only
            refine (getOperand_ends t ts').mono ?_
            rintro ⟨v, r⟩ ⟨h1, h2⟩
            simp only at h1 h2; subst h1; subst h2
            exact ⟨.opnd v, trivial, rfl, rfl, rfl, .inl rfl⟩
          | some o' =>
            simp only
            refine (e1 o' hu).bind ?_
            rintro ⟨v, r⟩ ⟨v', e, rfl, g1, g2, g3, g4, g5⟩
            exact .pure ⟨e, g1, g3, g2, g4, .inr g5⟩
    · -- climb
      intro p e0 v h0 hv hp hr
      rw [climb.eq_def]
      cases ts with
      | nil => exact .pure ⟨e0, h0, hp, hv, rfl, trivial, trivial, by simp⟩
      | cons t ts' =>
        simp only
        split
        · rename_i hc
          exact .pure ⟨e0, h0, hp, hv, rfl, .inl hc, .inl hc, by simp⟩
        · rename_i hc
          have hc : isClose t = false := by simpa using hc
          split
          · exact .err
          · rename_i o ho
            split
            · rename_i hge
              exact .pure ⟨e0, h0, hp, hv, rfl, .inr ⟨o, hc, ho, hge⟩, .inr ⟨o, hc, ho, hr.le hc ho⟩, by simp⟩
            · rename_i hlt
              rw [evaluate.eq_def]
              simp only
              refine Ends.bind (P := fun x => ∃ (v : V) (e : Ex V), x.1 = some v ∧ e.WF ∧ e.eval sem = .ok v ∧ e.root < p ∧
                  e0.toks ++ (t :: ts') = e.toks ++ x.2 ∧ Stop e.right x.2 ∧ x.2.length ≤ ts'.length)
                (step_left sem true t ts' (ih t ts' rfl) e0 v o h0 hv hr hc ho _ ?_) ?_
              · intro v' rest e g1 g2 g3 g4 g5 g6
                exact .pure ⟨v', e, rfl, g1, g2, by omega, g4, g5, g6⟩
              · rintro ⟨v1, r⟩ ⟨v', e, rfl, g1, g2, g3, g4, g5, g6⟩
                simp only at g4 g5 g6 ⊢
                refine ((ih t ts' rfl r g6).climb p e v' g1 g2 g3 (.inr g5)).mono ?_
                rintro ⟨v2, r2⟩ ⟨e2, k1, k2, k3, k4, k5, k6, k7⟩
                exact ⟨e2, k1, k2, k3, by rw [g4, k4], k5, k6, by simp at k7 ⊢; omega⟩
    · -- eval
      rw [evaluate.eq_def]
      cases ts with
      | nil => exact .err
      | cons t ts' =>
        simp only
        cases hu : unaryRole t with
        | none =>
          simp only
          refine (getOperand_ends t ts').bind ?_
          rintro ⟨v, r⟩ ⟨h1, h2⟩
          simp only at h1 h2; subst h1; subst h2
          exact (ih _ r rfl r (by omega)).loop (.opnd v) v trivial rfl (.inl rfl)
        | some o =>
          simp only
          refine step_none sem false t ts' (ih t ts' rfl) o hu _ ?_
          intro v' rest e g1 g2 g3 g4 g5 g6
          simp only [Bool.false_eq_true, if_false]
          rw [g4]
          exact (ih t ts' rfl rest g6).loop e v' g1 g2 (.inr g5)
    · -- loop
      intro e0 v h0 hv hr
      cases ts with
      | nil =>
        rw [loop.eq_def]
        exact .pure ⟨v, e0, rfl, h0, hv, rfl, trivial⟩
      | cons t ts' =>
        cases hc : isClose t with
        | true =>
          rw [loop.eq_def]
          simp only [hc, if_true]
          exact .pure ⟨v, e0, rfl, h0, hv, rfl, atEnd_close hc⟩
        | false =>
          cases ho : binaryRole t with
          | none =>
            rw [loop.eq_def]
            simp only [hc, ho]
            exact .err
          | some o =>
            refine step_left sem false t ts' (ih t ts' rfl) e0 v o h0 hv hr hc ho _ ?_
            intro v' rest e g1 g2 g3 g4 g5 g6
            simp only [Bool.false_eq_true, if_false]
            rw [g4]
            exact (ih t ts' rfl rest g6).loop e v' g1 g2 (.inr g5)

end Verif.Expr
