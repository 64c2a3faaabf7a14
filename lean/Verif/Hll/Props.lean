import Verif.Hll.Cond
import Verif.Hll.Fuel
/-!
# C28: conditions of .IF, .ELSEIF, .WHILE, .REPEAT ... are compiled to code with their meaning

`evaluateHll cfg c.print m cnt` is the code for the source text of the condition `c`; `m` is `is_true` (FALSE for .IF,
.ELSEIF and .UNTIL; TRUE for .WHILE and .BREAK/.CONTINUE .IF). The code has to jump to the label `cfg.lbl` if the value of
the condition is `m`, and to run to its end otherwise, with short-circuit evaluation from left to right.
-/
namespace Verif.Hll

section
variable {α : Type}

/-- The code does what the condition means, from every state of the flags. -/
def Correct (env : Env α) (cfg : Cfg) (c : OrE α) (m : Bool) (code : List (Line α)) : Prop :=
  ∀ σ, Run env code 0 σ (if (c.eval env σ).1 = m then .to cfg.lbl else .fall) (c.eval env σ).2

/-- The general theorem: all conditions for which the in-place edits find a jump to edit (`OrE.good`, defined on the syntax). -/
theorem hll_condition_partial (env : Env α) (cfg : Cfg) (c : OrE α) (m : Bool) (cnt : Nat) (hok : c.ok env) (hg : c.good m)
    (hL0 : 0 < cfg.lbl) (hL : cfg.lbl ≤ cnt) :
    ∃ code cnt', evaluateHll cfg c.print m cnt = some (.ok (code, cnt')) ∧ Correct env cfg c m code ∧
      cnt ≤ cnt' ∧ (∀ l k, defOf l code = some k → cnt < l ∧ l ≤ cnt') := by
  obtain ⟨st', D, h1, h2⟩ := or_gen env cfg hL0 c m ⟨[], cnt, none, 0⟩ [] hok hg rfl hL rfl
  rw [List.append_nil] at h1
  have hb : st'.buf = D := by rw [h2.buf]; rfl
  refine ⟨D, st'.cnt, ?_, ?_, h2.cnt, ?_⟩
  · unfold evaluateHll
    simp only [h1, bind, Option.bind, hb]
    rfl
  · intro σ
    obtain ⟨r, hr, h3⟩ := h2.inv σ
    have := run_of_ex env D h2.seg.clean h2.seg.fwd [] D rfl σ _ r hr
    by_cases hm : (c.eval env σ).1 = m
    · rw [if_pos hm] at h3 ⊢
      subst h3
      exact this
    · rw [if_neg hm] at h3 ⊢
      obtain rfl : r = none := h3.resolve_right (by simp)
      exact this
  · intro l k hk
    obtain ⟨x, hx, hd⟩ : ∃ x ∈ D, dfn x = some l := by
      apply Classical.byContradiction
      intro hn
      have : defOf l D = none := defOf_none.2 (fun x hx hd => hn ⟨x, hx, hd⟩)
      rw [this] at hk; cases hk
    exact h2.seg.dfn x hx l hd

/-- The machine is deterministic: `Correct` fixes everything the code can do. -/
theorem run_deterministic {env : Env α} {code : List (Line α)} {pc : Nat} {σ f1 f2 : Flags} {x y : Exit}
    (h1 : Run env code pc σ x f1) (h2 : Run env code pc σ y f2) : x = y ∧ f1 = f2 :=
  Run.det env h1 h2

/-! ## Which conditions are covered -/

mutual
/-- No parentheses around conditions with operators. -/
def Simple.flat : Simple α → Bool
  | .atom _ => true
  | .not s => s.flat
  | .paren _ => false
def AndE.flat : AndE α → Bool
  | .one s => s.flat
  | .cons s r => s.flat && r.flat
def OrE.flat : OrE α → Bool
  | .one s => s.flat
  | .cons s r => s.flat && r.flat
end

theorem Atom.tail_live (a : Atom α) (m : Bool) : (a.tail m).live = true := by
  unfold Atom.tail
  split
  · split
    · split <;> rfl
    · rfl
  · rfl

theorem Simple.flat_ok : (s : Simple α) → (h : s.flat = true) → (m : Bool) → (s.tail m).live = true ∧ s.good m
  | .atom a, _, m => ⟨a.tail_live m, trivial⟩
  | .not s, h, m => by
    simp only [Simple.tail, Simple.good]
    exact Simple.flat_ok s (by simpa [Simple.flat] using h) (!m)
  | .paren e, h, _ => by simp [Simple.flat] at h

theorem AndE.flat_ok : (s : AndE α) → (h : s.flat = true) → (m : Bool) →
    s.good m ∧ (m = false → (s.tail m).live = true)
  | .one s, h, m => by
    have := Simple.flat_ok s (by simpa [AndE.flat] using h) m
    simp only [AndE.tail, AndE.good]
    exact ⟨this.2, fun _ => this.1⟩
  | .cons s r, h, m => by
    simp only [AndE.flat, Bool.and_eq_true] at h
    have h1 := Simple.flat_ok s h.1 m
    have h2 := AndE.flat_ok r h.2 m
    simp only [AndE.tail, AndE.good]
    refine ⟨⟨h1.2, h2.1, fun _ => h1.1⟩, ?_⟩
    rintro rfl
    simpa using h2.2 rfl

theorem OrE.flat_ok : (s : OrE α) → (h : s.flat = true) → (m : Bool) →
    s.good m ∧ (m = false → (s.lastTail m).live = true)
  | .one s, h, m => by
    have := AndE.flat_ok s (by simpa [OrE.flat] using h) m
    simp only [OrE.lastTail, OrE.good]
    exact this
  | .cons s r, h, m => by
    simp only [OrE.flat, Bool.and_eq_true] at h
    have h1 := AndE.flat_ok s h.1 m
    have h2 := OrE.flat_ok r h.2 m
    simp only [OrE.lastTail, OrE.good]
    refine ⟨⟨h1.1, h2.1, ?_⟩, h2.2⟩
    rintro rfl
    refine ⟨h1.2 rfl, fun e => ?_⟩
    have := h2.2 rfl
    rw [e] at this; cases this

mutual
/-- `!` only in front of comparisons, no constants as operands of && and ||. -/
def Simple.plain : Simple α → Bool
  | .atom (.val a) => !a.o.kind.isConst
  | .atom _ => true
  | .not s => s.flat && s.plain
  | .paren e => e.plain
def AndE.plain : AndE α → Bool
  | .one s => s.plain
  | .cons s r => s.plain && r.plain
def OrE.plain : OrE α → Bool
  | .one s => s.plain
  | .cons s r => s.plain && r.plain
end

theorem Simple.flat_jump : (s : Simple α) → s.flat = true → s.plain = true → ∀ m, s.tail m = .jump
  | .atom (.val a), _, h, m => by
    simp only [Simple.plain] at h
    simp only [Simple.tail, Atom.tail]
    cases hk : a.o.kind <;> simp [hk, Kind.isConst] at h ⊢
  | .atom (.cmp ..), _, _, _ => rfl
  | .atom (.band ..), _, _, _ => rfl
  | .atom (.flag ..), _, _, _ => rfl
  | .not s, h1, h2, m => by
    simp only [Simple.flat] at h1
    simp only [Simple.plain, Bool.and_eq_true] at h2
    simp only [Simple.tail]
    exact Simple.flat_jump s h1 h2.2 (!m)
  | .paren e, h, _, _ => by simp [Simple.flat] at h

mutual
theorem Simple.plain_ok (s : Simple α) (h : s.plain = true) : s.tail false = .jump ∧ s.good false := by
  match s with
  | .atom a => exact ⟨Simple.flat_jump (.atom a) rfl h _, trivial⟩
  | .not s =>
    simp only [Simple.plain, Bool.and_eq_true] at h
    refine ⟨Simple.flat_jump (.not s) h.1 (by simp [Simple.plain, h.1, h.2]) _, ?_⟩
    simp only [Simple.good]
    exact (Simple.flat_ok s h.1 _).2
  | .paren e =>
    have := OrE.plain_ok e h
    simp only [Simple.tail, Simple.good]
    exact ⟨this.2.1, this.2.2⟩
theorem AndE.plain_ok (s : AndE α) (h : s.plain = true) : s.tail false = .jump ∧ s.good false := by
  match s with
  | .one s =>
    simp only [AndE.tail, AndE.good]
    exact Simple.plain_ok s h
  | .cons s r =>
    simp only [AndE.plain, Bool.and_eq_true] at h
    have h1 := Simple.plain_ok s h.1
    have h2 := AndE.plain_ok r h.2
    simp only [AndE.tail, AndE.good]
    exact ⟨by simpa using h2.1, h1.2, h2.2, by simp⟩
theorem OrE.plain_ok (s : OrE α) (h : s.plain = true) : s.lastTail false = .jump ∧ s.tail false = .jump ∧ s.good false := by
  match s with
  | .one s =>
    simp only [OrE.tail, OrE.lastTail, OrE.good]
    have := AndE.plain_ok s h
    exact ⟨this.1, this⟩
  | .cons s r =>
    simp only [OrE.plain, Bool.and_eq_true] at h
    have h1 := AndE.plain_ok s h.1
    have h2 := OrE.plain_ok r h.2
    simp only [OrE.tail, OrE.lastTail, OrE.good]
    refine ⟨h2.1, by simp [h2.1, Tail.orEnd], h1.2, h2.2.2, fun _ => ⟨by rw [h1.1]; rfl, by rw [h2.1]; simp⟩⟩
end

/-- Conditions without parentheses (except around plain operands), in all directives: `||` of `&&` of possibly negated
comparisons, bit tests, operands, flags and constants. -/
theorem hll_condition_flat (env : Env α) (cfg : Cfg) (c : OrE α) (m : Bool) (cnt : Nat) (hok : c.ok env) (hf : c.flat = true)
    (hL0 : 0 < cfg.lbl) (hL : cfg.lbl ≤ cnt) :
    ∃ code cnt', evaluateHll cfg c.print m cnt = some (.ok (code, cnt')) ∧ Correct env cfg c m code :=
  let ⟨code, cnt', h1, h2, _⟩ := hll_condition_partial env cfg c m cnt hok (OrE.flat_ok c hf m).1 hL0 hL
  ⟨code, cnt', h1, h2⟩

/-- Conditions with any nesting of parentheses, &&, || and negated comparisons, in .IF, .ELSEIF and .UNTIL. -/
theorem hll_condition_if (env : Env α) (cfg : Cfg) (c : OrE α) (cnt : Nat) (hok : c.ok env) (hf : c.plain = true)
    (hL0 : 0 < cfg.lbl) (hL : cfg.lbl ≤ cnt) :
    ∃ code cnt', evaluateHll cfg c.print false cnt = some (.ok (code, cnt')) ∧ Correct env cfg c false code :=
  let ⟨code, cnt', h1, h2, _⟩ := hll_condition_partial env cfg c false cnt hok (OrE.plain_ok c hf).2.2 hL0 hL
  ⟨code, cnt', h1, h2⟩

end

/-! ## Cases that meet the hypotheses -/

section Examples

def reg (n : Nat) (s : Bool := false) : OpE Nat := { o := { kind := .reg, signed := s, ref := n } }
def num (v : Nat) : OpE Nat := { o := { kind := .const (BitVec.ofNat 64 v), ref := 100 + v } }
/-- Operands below 100 are registers with the value `r`, the others constants. -/
def env0 (r : Nat → Nat) : Env Nat where
  wid := fun _ => 32
  val := fun a w => if a < 100 then BitVec.ofNat w (r a) else BitVec.ofNat w (a - 100)
  fcmp := fun _ _ _ => .lt

/-- `(eax < ebx || !ecx == 5) && (edx & 1 || CARRY? || (eax && ebx))` -/
def cond1 : OrE Nat :=
  .one (.cons (.paren (.cons (.one (.atom (.cmp .lt (reg 0) (reg 1 true)))) (.one (.one (.not (.atom (.cmp .eq (reg 2) (num 5))))))))
    (.one (.paren (.cons (.one (.atom (.band (reg 3) (num 1)))) (.cons (.one (.atom (.flag .carry)))
      (.one (.one (.paren (.one (.cons (.atom (.val (reg 0))) (.one (.atom (.val (reg 1)))))))))))))) 

example (r : Nat → Nat) : cond1.ok (env0 r) ∧ cond1.plain = true := by
  refine ⟨?_, by decide +kernel⟩
  simp [cond1, OrE.ok, AndE.ok, Simple.ok, Atom.ok, OrE.hasOp, AndE.hasOp, Simple.hasOp, reg, num, isFloat, env0, Kind.isConst]
  intro w
  apply BitVec.eq_of_toNat_eq
  simp

/-- `!eax > 3 || ebx && 0 || SIGN?` is covered in both modes. -/
def cond2 : OrE Nat :=
  .cons (.one (.not (.atom (.cmp .gt (reg 0) (num 3))))) (.cons (.cons (.atom (.val (reg 1))) (.one (.atom (.val (num 0)))))
    (.one (.one (.atom (.flag .sign)))))

example (r : Nat → Nat) : cond2.ok (env0 r) ∧ cond2.flat = true := by
  refine ⟨?_, by decide +kernel⟩
  simp [cond2, OrE.ok, AndE.ok, Simple.ok, Atom.ok, reg, num, isFloat, env0, Kind.isConst]
  intro w
  apply BitVec.eq_of_toNat_eq
  simp

/-! ## Conditions that are not compiled correctly

All operands are registers; `a`, `b`, `c` are the registers 0, 1, 2. -/

def rv (n : Nat) : Simple Nat := .atom (.val (reg n))
def cfg0 : Cfg := { lbl := 1, isRepeat := false, masm := false }

/-- `.while (a && b) && c` -/
def condW : OrE Nat := .one (.cons (.paren (.one (.cons (rv 0) (.one (rv 1))))) (.one (rv 2)))


deriving instance DecidableEq for Ins
deriving instance DecidableEq for Line

instance : DecidableEq (Option (Except Err (List (Line Nat) × Nat)))
  | none, none => isTrue rfl
  | some (.ok a), some (.ok b) => if h : a = b then isTrue (by rw [h]) else isFalse (fun e => h (by cases e; rfl))
  | some (.error a), some (.error b) => if h : a = b then isTrue (by rw [h]) else isFalse (fun e => h (by cases e; rfl))
  | some (.ok _), some (.error _) => isFalse (fun e => by cases e)
  | some (.error _), some (.ok _) => isFalse (fun e => by cases e)
  | none, some _ => isFalse (fun e => by cases e)
  | some _, none => isFalse (fun e => by cases e)

def f0 : Flags := ⟨false, false, false, false, false⟩

def codeW : List (Line Nat) :=
  [.ins (.test 0 0), .jump (jcc 'z' false) 2, .label 3, .ins (.test 1 1), .jump (jcc 'z' true) 1, .label 2,
    .ins (.test 2 2), .jump (jcc 'z' true) 1]

/-- The body is entered although the condition is false (a and b are 0, c is not): this is the code of `(a && b) || c`. -/
theorem while_and_and_wrong : evaluateHll cfg0 condW.print true 1 = some (.ok (codeW, 3)) ∧
    ∃ env σ', (condW.eval env f0).1 = false ∧ Run env codeW 0 f0 (.to 1) σ' := by
  refine ⟨evaluateHll_of_fuel 30 (by decide +kernel), env0 (fun n => if n = 2 then 1 else 0),
    (ex (env0 (fun n => if n = 2 then 1 else 0)) codeW (none, f0)).2, by decide +kernel, ?_⟩
  refine run_of_ex _ codeW ?_ ?_ [] codeW rfl _ _ (some 1) ?_
  · simp [codeW, clean, jcc, Mnem.chars, jumpCond]
  · simp [Fwd, codeW, dfn, ment]
  · decide +kernel

/-- `.if !(a && b) || c` -/
def condI : OrE Nat := .cons (.one (.not (.paren (.one (.cons (rv 0) (.one (rv 1))))))) (.one (.one (rv 2)))

def codeI : List (Line Nat) :=
  [.ins (.test 0 0), .jump (jcc 'z' false) 2, .label 3, .ins (.test 1 1), .jump (jcc 'z' true) 1, .label 2,
    .ins (.test 2 2), .jump (jcc 'z' false) 1]

/-- The body is skipped although the condition is true (a, b and c are 0): this is the code of `!(a && b) && c`. -/
theorem if_not_and_wrong : evaluateHll cfg0 condI.print false 1 = some (.ok (codeI, 3)) ∧
    ∃ env σ', (condI.eval env f0).1 = true ∧ Run env codeI 0 f0 (.to 1) σ' := by
  refine ⟨evaluateHll_of_fuel 30 (by decide +kernel), env0 (fun _ => 0),
    (ex (env0 (fun _ => 0)) codeI (none, f0)).2, by decide +kernel, ?_⟩
  refine run_of_ex _ codeI ?_ ?_ [] codeI rfl _ _ (some 1) ?_
  · simp [codeI, clean, jcc, Mnem.chars, jumpCond]
  · simp [Fwd, codeI, dfn, ment]
  · decide +kernel

/-- `.if a || (b || 1)` -/
def condD : OrE Nat := .cons (.one (rv 0)) (.one (.one (.paren (.cons (.one (rv 1)) (.one (.one (.atom (.val (num 1)))))))))

/-- The generated text defines the label 2 twice, which is an error in the next step. -/
theorem if_or_const_duplicate : ∃ code, evaluateHll cfg0 condD.print false 1 = some (.ok (code ++ [.label 2, .label 2], 5)) :=
  ⟨[.ins (.test 0 0), .jump (jcc 'z' true) 2, .label 3, .ins (.test 1 1), .jump (jcc 'z' true) 2, .label 5],
    evaluateHll_of_fuel 30 (by decide +kernel)⟩

/-- `.if (a || 1) || c` -/
def condG : OrE Nat := .cons (.one (.paren (.cons (.one (rv 0)) (.one (.one (.atom (.val (num 1)))))))) (.one (.one (rv 2)))

/-- The generated text contains a line that is no instruction: the label at `lastjmp` is edited as if it were a jump. -/
theorem if_const_or_garbage : evaluateHll cfg0 condG.print false 1 = some (.ok (
    [.ins (.test 0 0), .jump (jcc 'z' true) 4, .label 3, .garbage, .label 5, .ins (.test 2 2), .jump (jcc 'z' false) 1,
      .label 4], 5)) :=
  evaluateHll_of_fuel 30 (by decide +kernel)

/-- The constant -2^32 is taken as false, because only the low half is tested. -/
theorem const_wrong : constOk 0xFFFFFFFF00000000#64 = true ∧ constTrue 0xFFFFFFFF00000000#64 = false := by decide +kernel

/-- Floating point: `<`, `<=` and `==` are true if an operand is a NaN. -/
theorem nan_wrong (c : Cmp) (hc : c = .lt ∨ c = .le ∨ c = .eq) (cfg : Cfg) (a b : OpE Nat)
    (ha : a.o.kind = .reg ∧ a.o.xmm = true ∧ a.o.signed = false) (hb : b.o.kind = .reg ∧ b.o.xmm = true ∧ b.o.signed = false)
    (env : Env Nat) (hN : env.fcmp (a.o.real8 || b.o.real8) a.o.ref b.o.ref = .unordered) (cnt : Nat) :
    (∀ σ, ((Atom.cmp c a b).eval env σ).1 = false) ∧
    ∃ code cnt', evaluateHll cfg (OrE.one (.one (.atom (.cmp c a b)))).print false cnt = some (.ok (code, cnt')) ∧
      ∀ σ, Run env code 0 σ .fall (ucomiFlags .unordered) := by
  have hf : isFloat a.o b.o := ⟨ha.1, .inl ⟨ha.2.1, hb.1, hb.2.1⟩⟩
  refine ⟨fun σ => ?_, ?_⟩
  · simp only [Atom.eval, if_pos hf, hN]
    rcases hc with rfl | rfl | rfl <;> rfl
  · have hp : (OrE.one (.one (.atom (.cmp c a b)))).print = (a.print ++ ([.cop (.cmp c)] ++ (b.print ++ []))) := by
      simp [OrE.print, AndE.print, Simple.print, Atom.print]
    have hi : cmpIns cfg c a.o b.o = some (.ucomi (a.o.real8 || b.o.real8) a.o.ref b.o.ref) := by
      unfold cmpIns
      rw [if_neg, if_neg, if_pos ⟨ha.1, ha.2.1, hb.1, hb.2.1⟩]
      · rintro ⟨_, _, h⟩; rw [hb.1] at h; cases h
      · rintro ⟨_, _, _, h⟩; rw [hb.1] at h; cases h
    have hs : ∀ st : St Nat, getSimple cfg (OrE.one (.one (.atom (.cmp c a b)))).print false st = some (.ok ([],
        st.emit [.ins (.ucomi (a.o.real8 || b.o.real8) a.o.ref b.o.ref),
          .jump (jcc (unsigned_cjmptype c) (if neg_cjmptype c then false else true)) cfg.lbl] 1)) := by
      intro st
      rw [hp, getSimple_op]
      simp only [simpleCode, getToken_print, List.cons_append, List.nil_append, getOp, genBinary]
      rw [if_neg (by rw [ha.1]; simp)]
      simp only [hi, ha.2.2, hb.2.2]
      rfl
    refine ⟨[.ins (.ucomi (a.o.real8 || b.o.real8) a.o.ref b.o.ref),
          .jump (jcc (unsigned_cjmptype c) (if neg_cjmptype c then false else true)) cfg.lbl], cnt, ?_, ?_⟩
    · unfold evaluateHll
      rw [getExpr.eq_def, getAnd.eq_def]
      simp only [hs, bind, Option.bind, andLoop_stop cfg [] rfl, orLoop_stop cfg [] rfl _ _ _ _ _ _ (orEnd_zero _ _), andEnd_zero]
      rfl
    · intro σ
      refine .ins rfl ?_
      simp only [Ins.exec, hN]
      rcases hc with rfl | rfl | rfl
      · exact .skip (c := fun f => !f.c) rfl (by simp [jcc, unsigned_cjmptype, neg_cjmptype, Mnem.chars, jumpCond]) rfl (.done rfl)
      · exact .skip (c := fun f => !f.c && !f.z) rfl (by simp [jcc, unsigned_cjmptype, neg_cjmptype, Mnem.chars, jumpCond]) rfl (.done rfl)
      · exact .skip (c := fun f => !f.z) rfl (by simp [jcc, unsigned_cjmptype, neg_cjmptype, Mnem.chars, jumpCond]) rfl (.done rfl)
end Examples

end Verif.Hll
