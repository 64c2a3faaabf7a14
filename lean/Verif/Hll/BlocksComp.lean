import Verif.Hll.BlocksHead
import Verif.Hll.BlocksExec
import Verif.Hll.Props
/-! The directives of a program produce code of the form `Shape`. -/
namespace Verif.Hll
section
variable {α β S : Type}

/-! ### Labels that are defined in a piece of code -/

def Defs (code : List (BLine α β)) (A : Nat → Prop) : Prop := (labelsOf code).Nodup ∧ ∀ l ∈ labelsOf code, A l

theorem labelsOf_append (a b : List (BLine α β)) : labelsOf (a ++ b) = labelsOf a ++ labelsOf b := by
  simp [labelsOf]

theorem Defs.append {a b : List (BLine α β)} {A B D : Nat → Prop} (ha : Defs a A) (hb : Defs b B) (hd : ∀ l, A l → B l → False)
    (h1 : ∀ l, A l → D l) (h2 : ∀ l, B l → D l) : Defs (a ++ b) D := by
  unfold Defs
  rw [labelsOf_append]
  refine ⟨List.nodup_append.2 ⟨ha.1, hb.1, ?_⟩, ?_⟩
  · rintro x hx y hy rfl
    exact hd x (ha.2 x hx) (hb.2 x hy)
  · intro l hl
    rcases List.mem_append.1 hl with h | h
    · exact h1 l (ha.2 l h)
    · exact h2 l (hb.2 l h)

theorem Defs.mono {a : List (BLine α β)} {A B : Nat → Prop} (ha : Defs a A) (h : ∀ l, A l → B l) : Defs a B :=
  ⟨ha.1, fun l hl => h l (ha.2 l hl)⟩

theorem Defs.nil {A : Nat → Prop} : Defs ([] : List (BLine α β)) A := ⟨by simp [labelsOf], by simp [labelsOf]⟩

theorem Defs.lab (l : Nat) : Defs (lab l : List (BLine α β)) (fun x => x = l ∧ l ≠ 0) := by
  unfold Hll.lab
  split
  · exact Defs.nil
  · rename_i h; exact ⟨by simp [labelsOf], by simp [labelsOf, h]⟩

theorem Defs.jmp (l : Nat) : Defs ([jmpTo l] : List (BLine α β)) (fun _ => False) := ⟨by simp [labelsOf, jmpTo], by simp [labelsOf, jmpTo]⟩
theorem Defs.users (us : List β) : Defs (us.map .user : List (BLine α β)) (fun _ => False) := by
  induction us with
  | nil => exact Defs.nil
  | cons u us ih => exact ih

/-! ### Conditions -/

variable (M : Mach α β S)

/-- The conditions covered by C28. -/
def condGood (c : OrE α) (m : Bool) : Prop := (∀ s, c.ok (M.env s)) ∧ c.good m

theorem labelsOf_gens (code : List (Line α)) : labelsOf (gens code : List (BLine α β)) = code.filterMap dfn := by
  simp only [labelsOf, gens, List.filterMap_map]
  congr 1
  funext x
  cases x <;> rfl

theorem fwd_nodup {code : List (Line α)} (h : Fwd code) : (code.filterMap dfn).Nodup := by
  unfold Fwd at h
  refine List.Pairwise.filterMap dfn ?_ h
  intro a a' hr b hb b' hb' e
  subst e
  exact hr b hb (dfn_ment hb')

theorem cond_comp [Nonempty S] (c : OrE α) (m rep masm : Bool) (l cnt : Nat) (hg : condGood M c m) (hl0 : 0 < l) (hl : l ≤ cnt) :
    ∃ code cnt', evalCond l rep masm c.print m cnt = some (code, cnt') ∧ CondCode M c m l code ∧ cnt ≤ cnt' ∧
      Defs (gens code : List (BLine α β)) (fun x => cnt < x ∧ x ≤ cnt') ∧ (c.fst.isConst = false → HB code) := by
  obtain ⟨s0⟩ := ‹Nonempty S›
  obtain ⟨st', D, h1, h2⟩ := or_gen (M.env s0) ⟨l, rep, masm⟩ hl0 c m ⟨[], cnt, none, 0⟩ [] (hg.1 s0) hg.2 rfl hl rfl
  rw [List.append_nil] at h1
  have hb : st'.buf = D := by rw [h2.buf]; rfl
  have he : evaluateHll ⟨l, rep, masm⟩ c.print m cnt = some (.ok (D, st'.cnt)) := by
    unfold evaluateHll
    simp only [h1, bind, Option.bind, hb]
    rfl
  refine ⟨D, st'.cnt, by simp only [evalCond, he], ?_, h2.cnt, ?_, ?_⟩
  · intro s f
    obtain ⟨code, cnt', h3, h4, _⟩ := hll_condition_partial (M.env s) ⟨l, rep, masm⟩ c m cnt (hg.1 s) hg.2 hl0 hl
    rw [he] at h3
    cases h3
    exact h4 f
  · refine ⟨by rw [labelsOf_gens]; exact fwd_nodup h2.seg.fwd, ?_⟩
    intro x hx
    rw [labelsOf_gens, List.mem_filterMap] at hx
    obtain ⟨y, hy, hd⟩ := hx
    exact h2.seg.dfn y hy x hd
  · intro hf
    rw [← hb]
    exact OrE.head (M.env s0) c (hg.1 s0) hf rfl rfl (t := []) (by rw [List.append_nil]; exact h1)

theorem opE_print_ne (a : OpE α) : a.print ≠ [] := by simp [OpE.print]
theorem Atom.print_ne (a : Atom α) : a.print ≠ [] := by
  cases a <;> simp [Atom.print, opE_print_ne]
theorem Simple.print_ne (s : Simple α) : s.print ≠ [] := by
  cases s <;> simp [Simple.print, Atom.print_ne]
theorem AndE.print_ne (s : AndE α) : s.print ≠ [] := by
  cases s <;> simp [AndE.print, Simple.print_ne]
theorem OrE.print_ne (s : OrE α) : s.print ≠ [] := by
  cases s <;> simp [OrE.print, AndE.print_ne]

theorem lone_comp {c : OrE α} {b : Bool} (h : c.lone = some b) {env : Env α} (hok : c.ok env) :
    c.fst.isConst = true ∧ (∀ env f, c.eval env f = (b, f)) ∧ ∀ l rep masm cnt, evalCond l rep masm c.print true cnt =
      some (if b then [.jump jmpMnem l] else [], cnt) := by
  unfold OrE.lone at h
  split at h
  · rename_i a
    cases hk : a.o.kind with
    | const v =>
      rw [hk] at h
      obtain rfl : (v != 0) = b := by simpa using h
      refine ⟨by simp [OrE.fst, AndE.fst, Simple.fst, Atom.isConst, hk, Kind.isConst],
        fun env f => by simp [OrE.eval, AndE.eval, Simple.eval, Atom.eval, hk], fun l rep masm cnt => ?_⟩
      simp only [OrE.ok, AndE.ok, Simple.ok, Atom.ok] at hok
      have hc := hok.2 v hk
      obtain ⟨h1, h2⟩ := const_ok v hc.1 hc.2.1 hc.2.2
      have hs : ∀ st : St α, getSimple ⟨l, rep, masm⟩ (OrE.one (.one (.atom (.val a)))).print true st = some (.ok ([],
          st.emit (if v != 0 then [.jump jmpMnem l] else []) 0)) := by
        intro st
        have hp : (OrE.one (.one (.atom (.val a)))).print = a.print ++ [] := by simp [OrE.print, AndE.print, Simple.print, Atom.print]
        rw [hp, getSimple_op]
        simp only [simpleCode, getToken_print, getOp, genValue, hk, h1, if_true, h2]
        cases hv : (v != 0) <;> simp
      unfold evalCond evaluateHll
      rw [getExpr.eq_def, getAnd.eq_def]
      simp only [hs, bind, Option.bind, andLoop_stop _ [] rfl, orLoop_stop _ [] rfl _ _ _ _ _ _ (orEnd_zero _ _), andEnd_zero]
      simp [St.emit]
    | _ => rw [hk] at h; cases h
  · cases h

theorem hb_starts {code : List (Line α)} (h : HB code) : startsJmp code = false ∧ code ≠ [] := by
  obtain ⟨x, r, rfl, hx⟩ := h
  refine ⟨?_, by simp⟩
  cases x with
  | jump m l =>
    simp only [headOk] at hx
    simp [startsJmp, hx.1]
  | _ => rfl

/-- .WHILE and .FOR: what the first line of the code says. -/
theorem loopOk_comp [Nonempty S] {c : OrE α} (hg : condGood M c true) (hl : c.loopOk) {l cnt cnt' : Nat} {rep masm : Bool} {code : List (Line α)}
    (hc : evalCond l rep masm c.print true cnt = some (code, cnt')) (hh : c.fst.isConst = false → HB code) :
    (startsJmp code = true → ∀ st, condEv M c st = (true, st)) ∧ (c.lone ≠ some false → code ≠ []) := by
  obtain ⟨s0⟩ := ‹Nonempty S›
  cases hf : c.fst.isConst with
  | false =>
    have := hb_starts (hh hf)
    exact ⟨fun h => by (rw [this.1] at h; cases h), fun _ => this.2⟩
  | true =>
    have := hl hf
    obtain ⟨b, hb⟩ := Option.isSome_iff_exists.1 this
    obtain ⟨_, h2, h3⟩ := lone_comp hb (hg.1 s0)
    rw [h3] at hc
    cases hc
    cases b with
    | true => exact ⟨fun _ st => by simp [condEv, h2], fun _ => by simp⟩
    | false => exact ⟨fun h => by simp [startsJmp] at h, fun h => absurd hb h⟩

/-! ### .UNTILCXZ -/

theorem cxz_simple (cfg : Cfg) (env : Env α) : (s : Simple α) → s.cxzOk → s.ok env → ∀ (m : Bool) (st : St α),
    ∃ i neg, getSimple cfg s.print m st = some (.ok ([], st.emit [.ins i, .jump (jcc 'z' neg) cfg.lbl] 1))
  | .atom (.cmp c a b), h, hok, m, st => by
    have hp : (Simple.atom (.cmp c a b)).print = (a.print ++ ([.cop (.cmp c)] ++ (b.print ++ []))) := by
      simp [Simple.print, Atom.print]
    rw [hp, getSimple_op]
    simp only [Simple.ok, Atom.ok] at hok
    simp only [simpleCode, getToken_print, List.cons_append, List.nil_append, getOp, genBinary]
    rw [if_neg hok.1]
    have hi : ∃ i, cmpIns cfg c a.o b.o = some i := by
      unfold cmpIns
      repeat' split
      all_goals first | exact ⟨_, rfl⟩ | skip
      rename_i h'
      have := hok.2.1 h'.1 h'.2.1
      rcases h'.2.2 with h5 | h5
      · rw [this.1] at h5; cases h5
      · exact absurd h5 this.2
    obtain ⟨i, hi⟩ := hi
    rw [hi]
    refine ⟨i, if neg_cjmptype c then m else !m, ?_⟩
    have e1 : (if a.o.signed || b.o.signed then signed_cjmptype c else unsigned_cjmptype c) = 'z' := by
      rcases h with rfl | rfl <;> cases (a.o.signed || b.o.signed) <;> rfl
    simp only [e1]
  | .atom (.val a), h, hok, m, st => by
    have hp : (Simple.atom (.val a)).print = a.print ++ [] := by simp [Simple.print, Atom.print]
    rw [hp, getSimple_op]
    simp only [simpleCode, getToken_print, getOp, genValue]
    simp only [Simple.cxzOk] at h
    simp only [Simple.ok, Atom.ok] at hok
    cases hk : a.o.kind with
    | const v => rw [hk] at h; cases h
    | float => exact absurd hk hok.1
    | reg => exact ⟨_, _, rfl⟩
    | regInd => exact ⟨_, _, rfl⟩
    | addr => exact ⟨_, _, rfl⟩
  | .not s, h, hok, m, st => by
    obtain ⟨i, neg, h1⟩ := cxz_simple cfg env s h hok (!m) st
    refine ⟨i, neg, ?_⟩
    simp only [Simple.print]
    rw [getSimple.eq_def]
    exact h1

theorem cxz_comp [Nonempty S] {c : OrE α} (hg : condGood M c false) {s : Simple α} (hs : c = .one (.one s)) (hx : s.cxzOk) {l cnt : Nat}
    (masm : Bool) (hl0 : 0 < l) (hl : l ≤ cnt) :
    ∃ code cc, evalCond l true masm c.print false cnt = some (code, cnt) ∧ cxzLines 0 code = some cc ∧
      (Until.cxzCond c).Shape M l cc ∧ Defs cc (fun _ => False) := by
  obtain ⟨s0⟩ := ‹Nonempty S›
  subst hs
  have hok := fun s => hg.1 s
  simp only [OrE.ok, AndE.ok] at hok
  obtain ⟨i, neg, h1⟩ := cxz_simple ⟨l, true, masm⟩ (M.env s0) s hx (hok s0) false ⟨[], cnt, none, 0⟩
  have he : evaluateHll ⟨l, true, masm⟩ (OrE.one (.one s)).print false cnt = some (.ok ([.ins i, .jump (jcc 'z' neg) l], cnt)) := by
    unfold evaluateHll
    rw [getExpr.eq_def, getAnd.eq_def]
    simp only [OrE.print, AndE.print]
    simp only [h1, bind, Option.bind, andLoop_stop _ [] rfl, orLoop_stop _ [] rfl _ _ _ _ _ _ (orEnd_zero _ _), andEnd_zero]
    simp [St.emit]
  refine ⟨[.ins i, .jump (jcc 'z' neg) l], [.gen (.ins i), .loop (if neg then .loopnz else .loopz) l], by simp only [evalCond, he], ?_, ?_, ?_⟩
  · cases neg <;> simp [cxzLines, cxzLine, jcc]
  · refine ⟨i, _, rfl, ?_⟩
    intro s f
    obtain ⟨code, cnt', h3, h4, _⟩ := hll_condition_partial (M.env s) ⟨l, true, masm⟩ _ false cnt (hg.1 s) hg.2 hl0 hl
    rw [he] at h3
    cases h3
    have h4 := h4 f
    have run : Run (M.env s) [.ins i, .jump (jcc 'z' neg) l] 0 f
        (if loopFlag (if neg then .loopnz else .loopz) (i.exec (M.env s)) then .to l else .fall) (i.exec (M.env s)) := by
      refine .ins rfl ?_
      have hc : jumpCond (jcc 'z' neg).chars = some (loopFlag (if neg then .loopnz else .loopz)) := by
        cases neg <;> simp [jcc, Mnem.chars, jumpCond] <;> rfl
      by_cases hv : loopFlag (if neg then .loopnz else .loopz) (i.exec (M.env s)) = true
      · rw [if_pos hv]
        exact .leave rfl hc hv rfl
      · rw [if_neg hv]
        exact .skip rfl hc (by simpa using hv) (.done rfl)
    obtain ⟨h5, h6⟩ := Run.det _ run h4
    refine ⟨h6.symm, ?_⟩
    revert h5
    generalize loopFlag (if neg = true then LoopK.loopnz else LoopK.loopz) (i.exec (M.env s)) = x
    cases x <;> cases (OrE.eval (M.env s) (OrE.one (AndE.one _)) f).1 <;> simp
  · cases neg <;> exact ⟨by simp [labelsOf], by simp [labelsOf]⟩

end
end Verif.Hll
