import Verif.Hll.Atoms
/-! The recursive functions of the generator on the printed form of a condition. -/
namespace Verif.Hll

/-- What is known about `lastjmp` behind a piece of code. -/
inductive Tail
  /-- `lastjmp == NULL` -/
  | none
  /-- `lastjmp` points to a jump -/
  | jump
  /-- `lastjmp` points to the end of the text -/
  | empty
  /-- `lastjmp` points to the label behind an `||` list that ends with a constant -/
  | dead
  deriving DecidableEq, Repr

def Tail.live : Tail → Bool
  | .jump | .empty => true
  | _ => false

def Tail.orEnd : Tail → Tail
  | .empty => .dead
  | t => t

def Atom.tail {α : Type} (m : Bool) : Atom α → Tail
  | .val a =>
    match a.o.kind with
    | .const v => if m = (v != 0) then .jump else .empty
    | _ => .jump
  | _ => .jump

mutual
def Simple.tail {α : Type} (m : Bool) : Simple α → Tail
  | .atom a => a.tail m
  | .not s => s.tail (!m)
  | .paren e => e.tail m
def AndE.tail {α : Type} (m : Bool) : AndE α → Tail
  | .one s => s.tail m
  | .cons _ rest => if m then .none else rest.tail m
/-- of the last `&&` group -/
def OrE.lastTail {α : Type} (m : Bool) : OrE α → Tail
  | .one a => a.tail m
  | .cons _ rest => rest.lastTail m
def OrE.tail {α : Type} (m : Bool) : OrE α → Tail
  | .one a => a.tail m
  | .cons _ rest => if m then rest.lastTail m else (rest.lastTail m).orEnd
end

mutual
/-- The conditions for which the edits do what they should: when `&&` is handled in a context that jumps if true, or `||` in
one that jumps if false, there must be a last jump to invert. -/
def Simple.good {α : Type} (m : Bool) : Simple α → Prop
  | .atom _ => True
  | .not s => s.good (!m)
  | .paren e => e.good m
def AndE.good {α : Type} (m : Bool) : AndE α → Prop
  | .one s => s.good m
  | .cons s rest => s.good m ∧ rest.good m ∧ (m = true → (s.tail m).live = true)
def OrE.good {α : Type} (m : Bool) : OrE α → Prop
  | .one a => a.good m
  | .cons a rest => a.good m ∧ rest.good m ∧
      (m = false → (a.tail m).live = true ∧ rest.lastTail m ≠ .dead)
end

/-! ### Tokens -/

def stop {α : Type} (n : Nat) : List (Tok α) → Bool
  | [] => true
  | .rpar :: _ => true
  | .cop .and :: _ => n == 0
  | .cop .or :: _ => n ≤ 1
  | _ => false

theorem OpE.print_succ {α : Type} (o : Opnd α) (n : Nat) (t : List (Tok α)) :
    (OpE.mk o (n + 1)).print ++ t = .lpar :: ((OpE.mk o n).print ++ .rpar :: t) := by
  simp only [OpE.print]
  rw [List.replicate_succ, List.replicate_succ' (a := Tok.rpar)]
  simp

theorem evalOperand_print {α : Type} (a : OpE α) (t : List (Tok α)) : evalOperand (a.print ++ t) = some (a.o, t) := by
  obtain ⟨o, n⟩ := a
  induction n generalizing t with
  | zero => simp [OpE.print, evalOperand]
  | succ n ih => rw [OpE.print_succ, evalOperand, ih]

theorem getToken_print {α : Type} (a : OpE α) (t : List (Tok α)) : getToken (a.print ++ t) = some (some a.o, t) := by
  have h := evalOperand_print a t
  obtain ⟨o, n⟩ := a
  cases n with
  | zero =>
    simp only [OpE.print, List.replicate_zero, List.nil_append, List.append_nil, List.cons_append] at h ⊢
    simp only [getToken, h]
  | succ n =>
    rw [OpE.print_succ] at h ⊢
    simp only [getToken, h]

theorem isHll_op {α : Type} (a : OpE α) (k : Nat) (hk : 1 ≤ k) (t : List (Tok α)) :
    isHll k (a.print ++ t) = isHll k t := by
  obtain ⟨o, n⟩ := a
  induction n generalizing k t with
  | zero => simp [OpE.print, isHll]
  | succ n ih =>
    rw [OpE.print_succ, isHll, ih (k + 1) (by omega), isHll, if_neg (by omega)]
    simp

theorem isHll_atom {α : Type} (a : Atom α) (k : Nat) (hk : 1 ≤ k) (t : List (Tok α)) :
    isHll k (a.print ++ t) = if (Simple.atom a).hasOp then true else isHll k t := by
  cases a with
  | val a => simp [Atom.print, Simple.hasOp, isHll_op a k hk]
  | cmp c a b =>
    simp only [Atom.print, Simple.hasOp, if_true, List.append_assoc]
    rw [isHll_op a k hk]; simp [isHll]; omega
  | band a b =>
    simp only [Atom.print, Simple.hasOp, if_true, List.append_assoc]
    rw [isHll_op a k hk]; simp [isHll]; omega
  | flag f => simp [Atom.print, Simple.hasOp, isHll]; omega

mutual
theorem isHll_simple {α : Type} (s : Simple α) (k : Nat) (hk : 1 ≤ k) (t : List (Tok α)) :
    isHll k (s.print ++ t) = if s.hasOp then true else isHll k t := by
  cases s with
  | atom a => simpa [Simple.print] using isHll_atom a k hk t
  | not s => simp [Simple.print, Simple.hasOp, isHll]; omega
  | paren e =>
    simp only [Simple.print, List.cons_append, isHll, List.append_assoc, List.nil_append, Simple.hasOp]
    rw [isHll_or e (k + 1) (by omega)]
    have : isHll (k + 1) (.rpar :: t) = isHll k t := by rw [isHll, if_neg (by omega)]; simp
    rw [this]
    congr
theorem isHll_and {α : Type} (s : AndE α) (k : Nat) (hk : 1 ≤ k) (t : List (Tok α)) :
    isHll k (s.print ++ t) = if s.hasOp then true else isHll k t := by
  cases s with
  | one s => simp only [AndE.print, AndE.hasOp]; exact isHll_simple s k hk t
  | cons s r =>
    simp only [AndE.print, AndE.hasOp, if_true, List.append_assoc, List.cons_append]
    rw [isHll_simple s k hk]
    split
    · rfl
    · simp [isHll]; omega
theorem isHll_or {α : Type} (s : OrE α) (k : Nat) (hk : 1 ≤ k) (t : List (Tok α)) :
    isHll k (s.print ++ t) = if s.hasOp then true else isHll k t := by
  cases s with
  | one s => simp only [OrE.print, OrE.hasOp]; exact isHll_and s k hk t
  | cons s r =>
    simp only [OrE.print, OrE.hasOp, if_true, List.append_assoc, List.cons_append]
    rw [isHll_and s k hk]
    split
    · rfl
    · simp [isHll]; omega
end

/-- An operand at the beginning is not taken for a parenthesised condition. -/
theorem getSimple_op {α : Type} (cfg : Cfg) (a : OpE α) (t : List (Tok α)) (m : Bool) (st : St α) :
    getSimple cfg (a.print ++ t) m st = some (simpleCode cfg (a.print ++ t) m st) := by
  obtain ⟨o, n⟩ := a
  cases n with
  | zero => simp only [OpE.print, List.replicate_zero, List.nil_append, List.append_nil, List.cons_append]; rw [getSimple.eq_def]; rfl
  | succ n =>
    rw [OpE.print_succ, getSimple.eq_def]
    have : isHll 1 ((OpE.mk o n).print ++ .rpar :: t) = false := by
      rw [isHll_op _ 1 (by omega)]; simp [isHll]
    simp only [this]
    rfl

/-! ### Generated code -/

section
variable {α : Type} (env : Env α)

/-- The code `code`, which begins at line `base`, ends with a last jump (or a place where one could be). -/
def Live (L : Nat) (m : Bool) (X : List Nat) (f : Sem) (code : List (Line α)) (base : Nat) (lj : Option Nat) (T : Nat)
    (e : Bool) : Prop :=
  ∃ pre J c, code = pre ++ J ++ postOf T ∧ lj = some (base + pre.length) ∧ LJ env pre J c L m X f T ∧
    (e = true → J = [] ∧ T = 0) ∧ (e = false → J ≠ [])

def TailOk (L : Nat) (m : Bool) (X : List Nat) (f : Sem) (code : List (Line α)) (base : Nat) (lj : Option Nat) (T : Nat) :
    Tail → Prop
  | .none => lj = none
  | .jump => Live env L m X f code base lj T false
  | .empty => Live env L m X f code base lj T true
  | .dead => True

theorem TailOk.live {L : Nat} {m : Bool} {X : List Nat} {f : Sem} {code : List (Line α)} {base : Nat} {lj : Option Nat}
    {T : Nat} {t : Tail} (h : TailOk env L m X f code base lj T t) (ht : t.live = true) :
    ∃ e, Live env L m X f code base lj T e := by
  cases t <;> simp [Tail.live] at ht
  · exact ⟨_, h⟩
  · exact ⟨_, h⟩

/-- The state `st'` is reached from `st` by appending code for `f`. -/
structure Gen (L : Nat) (m : Bool) (f : Sem) (t : Tail) (B : List (Line α)) (lo : Nat) (st' : St α)
    (D : List (Line α)) : Prop where
  buf : st'.buf = B ++ D
  cnt : lo ≤ st'.cnt
  seg : Seg D lo st'.cnt L
  inv : Inv env D L m [] f
  tail : TailOk env L m [] f D B.length st'.lastjmp st'.lasttrue t

theorem gen_atom {L : Nat} {m : Bool} {f : Sem} {st st' : St α} {pre J : List (Line α)} {c : Flags → Bool} {t : Tail}
    (hst : st.lasttrue = 0) (hlj : LJ env pre J c L m [] f 0) (hp : ∀ x ∈ pre, clean x ∧ ment x = none)
    (he : st' = st.emit (pre ++ J) pre.length) (hL : L ≤ st.cnt) (hL0 : 0 < L)
    (ht : t = .jump ∧ J ≠ [] ∨ t = .empty ∧ J = []) :
    Gen env L m f t st.buf st.cnt st' (pre ++ J) := by
  subst he
  have hJ : ∀ x ∈ J, clean x ∧ dfn x = none ∧ (ment x = some L) := by
    cases hlj.last with
    | jump h _ => simp [clean, h, dfn, ment]
    | empty => simp
  have hall : ∀ x ∈ pre ++ J, clean x ∧ dfn x = none ∧ (∀ l, ment x = some l → l = L) := by
    intro x hx
    rcases List.mem_append.1 hx with hx | hx
    · have := hp x hx
      refine ⟨this.1, ?_, by simp [this.2]⟩
      cases hd : dfn x with
      | none => rfl
      | some l => have h2 := dfn_ment hd; rw [this.2] at h2; cases h2
    · have := hJ x hx
      refine ⟨this.1, this.2.1, ?_⟩
      intro l hl; rw [this.2.2] at hl; simpa using hl.symm
  have hinv := hlj.inv env (by omega)
  have hpost : (postOf 0 : List (Line α)) = [] := rfl
  rw [hpost, List.append_nil] at hinv
  refine ⟨rfl, Nat.le_refl _, ⟨fun x hx => (hall x hx).1, fun x hx l hl => .inl ((hall x hx).2.2 l hl), ?_, ?_⟩, hinv, ?_⟩
  · intro x hx l hl; rw [(hall x hx).2.1] at hl; cases hl
  · unfold Fwd
    rw [List.pairwise_iff_forall_sublist]
    intro x y hxy l hd
    rw [(hall x (hxy.subset (by simp))).2.1] at hd; cases hd
  · have key : ∀ e : Bool, (e = true → J = []) → (e = false → J ≠ []) →
        Live env L m [] f (pre ++ J) st.buf.length (some (st.buf.length + pre.length)) 0 e :=
      fun e h1 h2 => ⟨pre, J, c, by simp [postOf], rfl, hlj, fun h => ⟨h1 h, rfl⟩, h2⟩
    have hlt : (st.emit (pre ++ J) pre.length).lasttrue = 0 := hst
    rcases ht with ⟨rfl, h⟩ | ⟨rfl, h⟩
    · show Live env _ _ _ _ _ _ _ _ _
      rw [hlt]; exact key false (by simp) (fun _ => h)
    · show Live env _ _ _ _ _ _ _ _ _
      rw [hlt]; exact key true (fun _ => h) (by simp)

/-- Atoms. -/
theorem atom_gen (cfg : Cfg) (a : Atom α) (m : Bool) (st : St α) (t : List (Tok α)) (hok : a.ok env)
    (hst : st.lasttrue = 0) (hL : cfg.lbl ≤ st.cnt) (hL0 : 0 < cfg.lbl) (ht : stop 0 t = true) :
    ∃ st' D, getSimple cfg (a.print ++ t) m st = some (.ok (t, st')) ∧
      Gen env cfg.lbl m (a.eval env) (a.tail m) st.buf st.cnt st' D := by
  have hgo : getOp t = (none, t) := by
    match t, ht with
    | [], _ => rfl
    | .rpar :: _, _ => rfl
    | .cop .and :: _, _ => rfl
    | .cop .or :: _, _ => rfl
    | .cop (.cmp _) :: _, ht => simp [stop] at ht
    | .cop .andb :: _, ht => simp [stop] at ht
    | .cop .neg :: _, ht => simp [stop] at ht
    | .cop (.flag _) :: _, ht => simp [stop] at ht
    | .lpar :: _, ht => simp [stop] at ht
    | .opnd _ :: _, ht => simp [stop] at ht
  cases a with
  | val a =>
    simp only [Atom.print]
    rw [getSimple_op]
    simp only [simpleCode, getToken_print, hgo, genValue]
    simp only [Atom.ok] at hok
    cases hk : a.o.kind with
    | reg =>
      simp only []
      refine ⟨_, _, rfl, gen_atom env hst (lj_one env (.test a.o.ref a.o.ref) (last_jcc cfg.lbl (cc := 'z') (by decide) m) ?_)
        (by simp [clean, ment]) rfl hL hL0 (.inl ⟨by simp [Atom.tail, hk], by simp⟩)⟩
      intro σ
      simp only [Atom.eval, hk, Ins.exec]
      rw [← cmp_zero_flags]
      exact ⟨by trivial, val_cc _ _⟩
    | regInd =>
      simp only []
      refine ⟨_, _, rfl, gen_atom env hst (lj_one env (.cmp0 a.o.ref) (last_jcc cfg.lbl (cc := 'z') (by decide) m) ?_)
        (by simp [clean, ment]) rfl hL hL0 (.inl ⟨by simp [Atom.tail, hk], by simp⟩)⟩
      intro σ
      simp only [Atom.eval, hk, Ins.exec]
      exact ⟨by trivial, val_cc _ _⟩
    | addr =>
      simp only []
      refine ⟨_, _, rfl, gen_atom env hst (lj_one env (.cmp0 a.o.ref) (last_jcc cfg.lbl (cc := 'z') (by decide) m) ?_)
        (by simp [clean, ment]) rfl hL hL0 (.inl ⟨by simp [Atom.tail, hk], by simp⟩)⟩
      intro σ
      simp only [Atom.eval, hk, Ins.exec]
      exact ⟨by trivial, val_cc _ _⟩
    | const v =>
      have hc := hok.2 v hk
      obtain ⟨h1, h2⟩ := const_ok v hc.1 hc.2.1 hc.2.2
      simp only [h1, h2, if_true]
      by_cases hm : m = (v != 0)
      · rw [if_pos hm]
        refine ⟨_, _, rfl, gen_atom env hst (pre := []) (lj_zero env (last_jmp cfg.lbl) ?_)
          (by simp) rfl hL hL0 (.inl ⟨by simp only [Atom.tail, hk]; rw [if_pos hm], by simp⟩)⟩
        intro σ
        simp only [Atom.eval, hk, hm]
        exact ⟨trivial, by simp⟩
      · rw [if_neg hm]
        refine ⟨_, _, rfl, gen_atom env hst (pre := []) (J := []) (lj_zero env Last.empty ?_)
          (by simp) rfl hL hL0 (.inr ⟨by simp only [Atom.tail, hk]; rw [if_neg hm], rfl⟩)⟩
        intro σ
        simp only [Atom.eval, hk]
        refine ⟨trivial, ?_⟩
        symm
        simpa using fun h => hm h.symm
    | float => exact (hok.1 hk).elim
  | band a b =>
    simp only [Atom.print, List.append_assoc]
    rw [getSimple_op]
    simp only [Atom.ok] at hok
    simp only [simpleCode, getToken_print, List.cons_append, List.nil_append, getOp, genBinary]
    rw [if_neg hok]
    refine ⟨_, _, rfl, gen_atom env hst (lj_one env (.test a.o.ref b.o.ref) (last_jcc cfg.lbl (cc := 'e') (by decide) m) ?_)
        (by simp [clean, ment]) rfl hL hL0 (.inl ⟨rfl, by simp⟩)⟩
    intro σ
    simp only [Atom.eval, Ins.exec]
    exact ⟨by trivial, test_cc _ _ _⟩
  | cmp c a b =>
    simp only [Atom.print, List.append_assoc]
    rw [getSimple_op]
    simp only [Atom.ok] at hok
    obtain ⟨hfl, h16, hF, hcv, hw⟩ := hok
    simp only [simpleCode, getToken_print, List.cons_append, List.nil_append, getOp, genBinary]
    rw [if_neg hfl]
    -- the instruction
    have key : ∃ i, cmpIns cfg c a.o b.o = some i ∧ ∀ σ, ((Atom.cmp c a b).eval env σ).2 = i.exec env := by
      have hz : b.o.kind = .const 0#64 → a.o.kind = .reg → ¬ isFloat a.o b.o ∧
          env.val b.o.ref (env.wid a.o.ref) = 0#(env.wid a.o.ref) := by
        intro hb ha
        refine ⟨?_, ?_⟩
        · rintro ⟨-, h | h⟩
          · rw [hb] at h; exact absurd h.2.1 (by simp)
          · rw [hb] at h; exact absurd h.2 (by simp)
        · rw [hcv _ hb]; simp
      simp only [cmpIns, Atom.eval]
      by_cases h1 : cfg.masm = true ∧ (c = .eq ∨ c = .ne) ∧ a.o.kind = .reg ∧ b.o.kind = .const 0#64
      · rw [if_pos h1]
        obtain ⟨hnf, hv⟩ := hz h1.2.2.2 h1.2.2.1
        refine ⟨_, rfl, fun σ => ?_⟩
        rw [if_neg hnf]
        simp only [Ins.exec, hv]
        rw [or_flags, cmp_zero_flags]
      · rw [if_neg h1]
        by_cases h2 : (c = .eq ∨ c = .ne) ∧ a.o.kind = .reg ∧ b.o.kind = .const 0#64
        · rw [if_pos h2]
          obtain ⟨hnf, hv⟩ := hz h2.2.2 h2.2.1
          refine ⟨_, rfl, fun σ => ?_⟩
          rw [if_neg hnf]
          simp only [Ins.exec, hv]
          rw [cmp_zero_flags]
        · rw [if_neg h2]
          by_cases hf : isFloat a.o b.o
          · have hf' := hf
            obtain ⟨hr, hor⟩ := hf
            refine ⟨.ucomi (a.o.real8 || b.o.real8) a.o.ref b.o.ref, ?_, fun σ => by rw [if_pos hf']; rfl⟩
            by_cases h3 : a.o.kind = .reg ∧ a.o.xmm = true ∧ b.o.kind = .reg ∧ b.o.xmm = true
            · rw [if_pos h3]
            · rw [if_neg h3, if_pos ⟨hr, hor.resolve_left (fun h => h3 ⟨hr, h⟩)⟩]
          · refine ⟨.cmp a.o.ref b.o.ref, ?_, fun σ => by rw [if_neg hf]; rfl⟩
            rw [if_neg (fun h => hf ⟨h.1, .inl h.2⟩), if_neg (fun h => hf ⟨h.1, .inr h.2⟩), if_neg]
            rintro ⟨h3, h4, h5⟩
            have := h16 h3 h4
            rcases h5 with h5 | h5
            · rw [this.1] at h5; cases h5
            · exact this.2 h5
    obtain ⟨i, hi, hex⟩ := key
    simp only [hi]
    refine ⟨_, _, rfl, gen_atom env hst (lj_one env i (last_jcc cfg.lbl (cc_mem c (a.o.signed || b.o.signed)) _) ?_)
        ?_ rfl hL hL0 (.inl ⟨rfl, by simp⟩)⟩
    · intro σ
      refine ⟨hex σ, ?_⟩
      rw [← hex σ]
      simp only [Atom.eval]
      by_cases hf : isFloat a.o b.o
      · simp only [if_pos hf]
        have := hF hf
        rw [this.1]
        exact float_cc c m _ this.2
      · simp only [if_neg hf]
        exact int_cc c _ m _ _ hw
    · simp [clean, ment]
  | flag f =>
    simp only [Atom.print, List.cons_append, List.nil_append]
    rw [getSimple.eq_def]
    simp only [simpleCode, getToken, getOp]
    refine ⟨_, _, rfl, gen_atom env hst (pre := []) (lj_zero env (last_jcc cfg.lbl (flag_mem f) (!m)) ?_)
        (by simp) rfl hL hL0 (.inl ⟨rfl, by simp⟩)⟩
    intro σ
    simp only [Atom.eval]
    exact ⟨trivial, flag_cc f σ m⟩

end
end Verif.Hll
