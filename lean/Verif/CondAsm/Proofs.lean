import Verif.CondAsm.Spec
namespace Verif.CondAsm

theorem checkBlank_eq (a : List UInt8) : checkBlank a = a.all isSpace := by
  induction a with
  | nil => rfl
  | cons c cs ih => simp only [checkBlank, List.all_cons, ih]; cases isSpace c <;> simp

theorem strDiff_eq (f : UInt8 → UInt8) (a b : List UInt8) : strDiff f a b = decide (a.map f ≠ b.map f) := by
  induction a generalizing b with
  | nil => cases b <;> simp [strDiff]
  | cons x xs ih =>
    cases b with
    | nil => simp [strDiff]
    | cons y ys =>
      simp only [strDiff, ih, List.map_cons]
      by_cases h : f x = f y <;> simp [h]

theorem numTrue_eq (v : BitVec 64) : numTrue v = decide (v.toNat % 2 ^ 32 ≠ 0) := by
  unfold numTrue
  rw [Bool.eq_iff_iff]
  simp only [bne_iff_ne, ne_eq, decide_eq_true_eq]
  rw [← BitVec.toNat_inj]
  simp

/-- A condition that the specification accepts is evaluated to its documented truth value, silently. -/
theorem evalCond_truth {σ} (W : World σ) (w : σ) (c : Cond) (b : Bool) (h : truth W w c = some b) :
    evalCond W w c = (some (boolState b), []) := by
  obtain ⟨k, o, t⟩ := c
  unfold truth at h
  cases t
  case true => simp at h
  case false =>
    simp only [Bool.false_eq_true, if_false] at h
    have hx : ∀ x y : Bool, (x != y) = (x ^^ y) := by decide
    cases k <;> cases o <;> simp_all [evalCond, finish]
    case num.expr neg e =>
      cases hE : W.evalNum w e <;> simp_all [numTrue_eq]
    case blk.text => rw [← h, checkBlank_eq]
    case lit.texts neg ci a b' =>
      rw [← h]
      unfold checkDif
      cases ci <;> simp [strDiff_eq]
    all_goals rfl

/-- Bit test of the C expression `e & (1 << k)`. -/
theorem bit_test (e : BitVec 32) (k : Nat) (hk : k < 32) :
    (e &&& (1#32 <<< k) ≠ 0#32) ↔ e.getLsbD k = true := by
  constructor
  · intro h
    rcases hb : e.getLsbD k with _ | _
    · exfalso; apply h
      apply BitVec.eq_of_getLsbD_eq
      intro i hi
      simp only [BitVec.getLsbD_and, BitVec.getLsbD_shiftLeft, BitVec.getLsbD_zero, BitVec.getLsbD_one]
      by_cases hik : i = k
      · subst hik; simp [hb]
      · have : ¬(i - k = 0 ∧ ¬ i < k) := by omega
        by_cases hlt : i < k
        · simp [hlt]
        · have : i - k ≠ 0 := by omega
          simp [this]
    · rfl
  · intro h h0
    have := congrArg (fun b => BitVec.getLsbD b k) h0
    simp only [BitVec.getLsbD_and, BitVec.getLsbD_shiftLeft, BitVec.getLsbD_one, h] at this
    simp [hk] at this

theorem clear_bit (e : BitVec 32) (k i : Nat) :
    (e &&& ~~~(1#32 <<< k)).getLsbD i = (e.getLsbD i && !decide (i = k)) := by
  by_cases hi : i < 32
  · simp only [BitVec.getLsbD_and, BitVec.getLsbD_not, BitVec.getLsbD_shiftLeft, BitVec.getLsbD_one, hi]
    by_cases hik : i = k
    · subst hik; simp
    · by_cases hlt : i < k
      · simp [hlt, hik]
      · have : i - k ≠ 0 := by omega
        simp [this, hik]
  · have h1 : 32 ≤ i := by omega
    simp [BitVec.getLsbD_of_ge _ _ h1]

theorem set_bit (e : BitVec 32) (k i : Nat) (hk : k < 32) :
    (e ||| (1#32 <<< k)).getLsbD i = (e.getLsbD i || decide (i = k)) := by
  by_cases hi : i < 32
  · simp only [BitVec.getLsbD_or, BitVec.getLsbD_shiftLeft, BitVec.getLsbD_one, hi]
    by_cases hik : i = k
    · subst hik; simp
    · by_cases hlt : i < k
      · simp [hlt, hik]
      · have : i - k ≠ 0 := by omega
        simp [this, hik]
  · have h1 : 32 ≤ i := by omega
    have : i ≠ k := by omega
    simp [BitVec.getLsbD_of_ge _ _ h1, this]

theorem run_append {σ} (W : World σ) (sw : State × σ) (a b : List Line) :
    run W sw (a ++ b) = ((run W (run W sw a).1 b).1, (run W sw a).2 ++ (run W (run W sw a).1 b).2) := by
  induction a generalizing sw with
  | nil => simp [run]
  | cons l ls ih => simp [run, ih, List.append_assoc]

mutual
/-- Text inside a skipped branch changes nothing and produces nothing. -/
theorem skip_src {σ} (W : World σ) : ∀ (src : Src) (s : State) (w : σ), s.curr ≠ .active → s.lvl ≠ 0 →
      run W (s, w) src.flat = ((s, w), [])
  | .nil, s, w, _, _ => by simp [Src.flat, run]
  | .line n r, s, w, h, h0 => by simp [Src.flat, run, step, h, skip_src W r s w h h0]
  | .block c b a r, s, w, h, h0 => by
    have h1 : step W (s, w) (.dir (.ifx c)) = (({ s with falseLvl := s.falseLvl + 1 }, w), []) := by
      simp [step, prepare, condAsmDirective, h]
    simp only [Src.flat, run, h1, run_append]
    rw [skip_src W b { s with falseLvl := s.falseLvl + 1 } w h h0]
    rw [skip_alts W a { s with falseLvl := s.falseLvl + 1 } w h h0 (by simp)]
    simp only [Nat.add_sub_cancel]
    rw [skip_src W r s w h h0]; simp
theorem skip_alts {σ} (W : World σ) : ∀ (alts : Alts) (s : State) (w : σ), s.curr ≠ .active → s.lvl ≠ 0 →
      s.falseLvl > 0 → run W (s, w) alts.flat = (({ s with falseLvl := s.falseLvl - 1 }, w), [])
  | .endif, s, w, h, h0, hf => by
    simp [Alts.flat, run, step, prepare, condAsmDirective, h, h0, hf]
  | .els b, s, w, h, h0, hf => by
    have h1 : step W (s, w) (.dir (.els false)) = ((s, w), []) := by
      simp [step, prepare, condAsmDirective, h, h0, hf]
    have h2 : step W (s, w) (.dir (.endif false)) = (({ s with falseLvl := s.falseLvl - 1 }, w), []) := by
      simp [step, prepare, condAsmDirective, h, h0, hf]
    simp [Alts.flat, run, h1, run_append, skip_src W b s w h h0, h2]
  | .elseif c b a, s, w, h, h0, hf => by
    have h1 : step W (s, w) (.dir (.elseifx c)) = ((s, w), []) := by
      simp [step, prepare, condAsmDirective, h, h0, hf]
    simp [Alts.flat, run, h1, run_append, skip_src W b s w h h0, skip_alts W a s w h h0 hf]
end

/-- Frame condition: same position in the block structure, ELSE marks of the enclosing blocks unchanged. -/
def Same (n : Nat) (s s' : State) : Prop :=
  s'.curr = .active ∧ s'.lvl = n ∧ s'.falseLvl = 0 ∧ ∀ i < n, s'.elseBits.getLsbD i = s.elseBits.getLsbD i

/-- After the taken branch, the remaining branches of the block are skipped. -/
theorem done_alts {σ} (W : World σ) : ∀ (alts : Alts) (s : State) (w : σ) (n : Nat),
    s.curr ≠ .inactive → s.lvl = n + 1 → n < 32 → s.falseLvl = 0 → s.elseBits.getLsbD n = false →
    ∃ s', run W (s, w) alts.flat = ((s', w), []) ∧ Same n s s'
  | .endif, s, w, n, h, hl, hn, hf, hb => by
    refine ⟨{ s with lvl := n, curr := .active }, ?_, rfl, rfl, hf, fun _ _ => rfl⟩
    simp [Alts.flat, run, step, prepare, condAsmDirective, hl, hf, finish]
  | .els b, s, w, n, h, hl, hn, hf, hb => by
    have hbt : ¬ (s.elseBits &&& (1#32 <<< n) ≠ 0#32) := by rw [bit_test _ _ hn]; simp [hb]
    simp only [ne_eq, Decidable.not_not] at hbt
    have h1 : step W (s, w) (.dir (.els false)) =
        (({ s with curr := .done, elseBits := s.elseBits ||| (1#32 <<< n) }, w), []) := by
      simp [step, prepare, condAsmDirective, h, hl, hf, hbt]
    refine ⟨{ s with curr := .active, lvl := n, elseBits := s.elseBits ||| (1#32 <<< n) }, ?_, rfl, rfl, hf, ?_⟩
    · simp only [Alts.flat, run, h1, run_append]
      rw [skip_src W b _ w (by simp) (by simp [hl])]
      simp [step, prepare, condAsmDirective, hl, hf, finish]
    · intro i hi
      simp only [set_bit _ _ _ hn]
      have : i ≠ n := by omega
      simp [this]
  | .elseif c b a, s, w, n, h, hl, hn, hf, hb => by
    have hbt : ¬ (s.elseBits &&& (1#32 <<< n) ≠ 0#32) := by rw [bit_test _ _ hn]; simp [hb]
    simp only [ne_eq, Decidable.not_not] at hbt
    have h1 : step W (s, w) (.dir (.elseifx c)) = (({ s with curr := .done }, w), []) := by
      simp [step, prepare, condAsmDirective, h, hl, hf, hbt]
    obtain ⟨s', hr, hs⟩ := done_alts W a { s with curr := .done } w n (by simp) hl hn hf hb
    refine ⟨s', ?_, hs⟩
    simp only [Alts.flat, run, h1, run_append]
    rw [skip_src W b _ w (by simp) (by simp [hl])]
    simp [hr]

mutual
theorem exec_src {σ} (W : World σ) : ∀ (src : Src) (s : State) (w w' : σ) (ev : List Event),
    s.curr = .active → s.falseLvl = 0 → s.lvl + src.depth ≤ maxIfNesting →
    src.exec W w = some (w', ev) →
    ∃ s', run W (s, w) src.flat = ((s', w'), ev) ∧ Same s.lvl s s'
  | .nil, s, w, w', ev, ha, hf, hd, he => by
    simp only [Src.exec, Option.some.injEq, Prod.mk.injEq] at he
    obtain ⟨rfl, rfl⟩ := he
    exact ⟨s, rfl, ha, rfl, hf, fun _ _ => rfl⟩
  | .line n r, s, w, w', ev, ha, hf, hd, he => by
    simp only [Src.exec, Option.bind_eq_some_iff, Option.some.injEq] at he
    obtain ⟨⟨w1, ev1⟩, he1, he2⟩ := he
    simp only [Prod.mk.injEq] at he2
    obtain ⟨rfl, rfl⟩ := he2
    obtain ⟨s', hr, hs⟩ := exec_src W r s (W.assemble w n) w1 ev1 ha hf (by simpa [Src.depth] using hd) he1
    refine ⟨s', ?_, hs⟩
    simp [Src.flat, run, step, ha, hr]
  | .block c b a r, s, w, w', ev, ha, hf, hd, he => by
    simp only [Src.exec, Option.bind_eq_some_iff, Option.some.injEq] at he
    obtain ⟨t, ht, ⟨w1, ev1⟩, he1, ⟨w2, ev2⟩, he2, he3⟩ := he
    simp only [Prod.mk.injEq] at he3
    obtain ⟨rfl, rfl⟩ := he3
    simp only [Src.depth, maxIfNesting] at hd
    have hlv : s.lvl < 20 := by omega
    have hev := evalCond_truth W w c t ht
    let s1 : State := { s with lvl := s.lvl + 1, elseBits := s.elseBits &&& ~~~(1#32 <<< s.lvl), curr := boolState t }
    have h1 : step W (s, w) (.dir (.ifx c)) = ((s1, w), [.eval c]) := by
      have : s.lvl ≠ maxIfNesting := by simp [maxIfNesting]; omega
      simp [step, prepare, condAsmDirective, ha, this, hev, s1]
    -- the block as a whole
    have key : ∃ s2, run W (s1, w) (b.flat ++ a.flat) = ((s2, w1), ev1) ∧ Same s.lvl s1 s2 := by
      cases t with
      | true =>
        simp only [if_true] at he1
        obtain ⟨s2, hr2, hs2⟩ := exec_src W b s1 w w1 ev1 rfl hf (by simp [s1, maxIfNesting]; omega) he1
        have hb2 : s2.elseBits.getLsbD s.lvl = false := by
          rw [hs2.2.2.2 s.lvl (by simp [s1])]; simp [s1, clear_bit]
        obtain ⟨s3, hr3, hs3⟩ := done_alts W a s2 w1 s.lvl (by rw [hs2.1]; simp) (by rw [hs2.2.1])
          (by omega) hs2.2.2.1 hb2
        refine ⟨s3, ?_, hs3.1, hs3.2.1, hs3.2.2.1, ?_⟩
        · simp [run_append, hr2, hr3]
        · intro i hi
          rw [hs3.2.2.2 i hi, hs2.2.2.2 i (by simp [s1]; omega)]
      | false =>
        simp only [Bool.false_eq_true, if_false] at he1
        have hsk := skip_src W b s1 w (by simp [s1, boolState]) (by simp [s1])
        obtain ⟨s3, hr3, hs3⟩ := exec_alts W a s1 w w1 ev1 s.lvl rfl rfl (by simp [maxIfNesting]; omega) hf
          (by simp [s1, clear_bit]) he1
        exact ⟨s3, by simp [run_append, hsk, hr3], hs3⟩
    obtain ⟨s2, hr2, hs2⟩ := key
    obtain ⟨s3, hr3, hs3⟩ := exec_src W r s2 w1 w2 ev2 hs2.1 hs2.2.2.1
      (by rw [hs2.2.1]; simp [maxIfNesting]; omega) he2
    refine ⟨s3, ?_, hs3.1, by rw [hs3.2.1, hs2.2.1], hs3.2.2.1, ?_⟩
    · simp only [Src.flat, run, h1]
      rw [← List.append_assoc, run_append, hr2, hr3]
      simp
    · intro i hi
      rw [hs3.2.2.2 i (by rw [hs2.2.1]; exact hi), hs2.2.2.2 i hi]
      have : i ≠ s.lvl := by omega
      show (s.elseBits &&& ~~~(1#32 <<< s.lvl)).getLsbD i = _
      rw [clear_bit]; simp [this]
theorem exec_alts {σ} (W : World σ) : ∀ (alts : Alts) (s : State) (w w' : σ) (ev : List Event) (n : Nat),
    s.curr = .inactive → s.lvl = n + 1 → n + 1 + alts.depth ≤ maxIfNesting → s.falseLvl = 0 →
    s.elseBits.getLsbD n = false →
    alts.exec W w = some (w', ev) →
    ∃ s', run W (s, w) alts.flat = ((s', w'), ev) ∧ Same n s s'
  | .endif, s, w, w', ev, n, ha, hl, hd, hf, hb, he => by
    simp only [Alts.exec, Option.some.injEq, Prod.mk.injEq] at he
    obtain ⟨rfl, rfl⟩ := he
    refine ⟨{ s with lvl := n, curr := .active }, ?_, rfl, rfl, hf, fun _ _ => rfl⟩
    simp [Alts.flat, run, step, prepare, condAsmDirective, hl, hf, finish]
  | .els b, s, w, w', ev, n, ha, hl, hd, hf, hb, he => by
    simp only [Alts.exec] at he
    simp only [Alts.depth, maxIfNesting] at hd
    have hbt : ¬ (s.elseBits &&& (1#32 <<< n) ≠ 0#32) := by rw [bit_test _ _ (by omega)]; simp [hb]
    simp only [ne_eq, Decidable.not_not] at hbt
    let s1 : State := { s with curr := .active, elseBits := s.elseBits ||| (1#32 <<< n) }
    have h1 : step W (s, w) (.dir (.els false)) = ((s1, w), []) := by
      simp [step, prepare, condAsmDirective, ha, hl, hf, hbt, finish, s1]
    obtain ⟨s2, hr2, hs2⟩ := exec_src W b s1 w w' ev rfl hf (by simp [s1, hl, maxIfNesting]; omega) he
    refine ⟨{ s2 with lvl := n, curr := .active }, ?_, rfl, rfl, hs2.2.2.1, ?_⟩
    · simp only [Alts.flat, run, h1, run_append, hr2]
      simp [step, prepare, condAsmDirective, hs2.2.1, hs2.2.2.1, hl, finish, s1]
    · intro i hi
      simp only
      rw [hs2.2.2.2 i (by simp [s1, hl]; omega)]
      have : i ≠ n := by omega
      simp [s1, set_bit _ _ _ (show n < 32 by omega), this]
  | .elseif c b a, s, w, w', ev, n, ha, hl, hd, hf, hb, he => by
    simp only [Alts.exec, Option.bind_eq_some_iff, Option.some.injEq] at he
    obtain ⟨t, ht, ⟨w1, ev1⟩, he1, he3⟩ := he
    simp only [Prod.mk.injEq] at he3
    obtain ⟨rfl, rfl⟩ := he3
    simp only [Alts.depth, maxIfNesting] at hd
    have hbt : ¬ (s.elseBits &&& (1#32 <<< n) ≠ 0#32) := by rw [bit_test _ _ (by omega)]; simp [hb]
    simp only [ne_eq, Decidable.not_not] at hbt
    have hev := evalCond_truth W w c t ht
    let s1 : State := { s with curr := boolState t }
    have h1 : step W (s, w) (.dir (.elseifx c)) = ((s1, w), [.eval c]) := by
      simp [step, prepare, condAsmDirective, ha, hl, hf, hbt, hev, s1]
    cases t with
    | true =>
      simp only [if_true] at he1
      obtain ⟨s2, hr2, hs2⟩ := exec_src W b s1 w w1 ev1 rfl hf (by simp [s1, hl, maxIfNesting]; omega) he1
      have hl1 : s1.lvl = n + 1 := hl
      have hb2 : s2.elseBits.getLsbD n = false := by
        rw [hs2.2.2.2 n (by omega)]; exact hb
      obtain ⟨s3, hr3, hs3⟩ := done_alts W a s2 w1 n (by rw [hs2.1]; simp) (by rw [hs2.2.1, hl1])
        (by omega) hs2.2.2.1 hb2
      refine ⟨s3, ?_, hs3.1, hs3.2.1, hs3.2.2.1, ?_⟩
      · simp [Alts.flat, run, h1, run_append, hr2, hr3]
      · intro i hi
        rw [hs3.2.2.2 i hi, hs2.2.2.2 i (by omega)]
    | false =>
      simp only [Bool.false_eq_true, if_false] at he1
      have hsk := skip_src W b s1 w (by simp [s1, boolState]) (by simp [s1, hl])
      obtain ⟨s3, hr3, hs3⟩ := exec_alts W a s1 w w1 ev1 n rfl hl (by simp [maxIfNesting]; omega) hf hb he1
      exact ⟨s3, by simp [Alts.flat, run, h1, run_append, hsk, hr3], hs3⟩
end

/-! ## Block-structure diagnostics: simulation of the textbook stack -/

def phaseState : Phase → IfState
  | .seeking => .inactive | .taken => .active | .past => .done

/-- Simulation relation between the C state and the stack of open blocks. -/
structure Sim (s : State) (k : Stack) : Prop where
  lvl : s.lvl = k.frames.length
  le : k.frames.length ≤ 20
  curr : s.curr = match k.frames with | [] => .active | f :: _ => phaseState f.phase
  skip : s.falseLvl = k.skipped
  skip_live : k.skipped > 0 → k.live = false
  below : ∀ f ∈ k.frames.tail, f.phase = .taken
  bits : ∀ i (h : i < k.frames.length), s.elseBits.getLsbD (k.frames.length - 1 - i) = (k.frames[i]).elseSeen

theorem Sim.live_iff {s k} (h : Sim s k) : k.live = true ↔ s.curr = .active := by
  rw [h.curr]; unfold Stack.live
  cases hf : k.frames with
  | nil => simp
  | cons f fs => cases hp : f.phase <;> simp [phaseState, hp]

/-- A line whose conditions are acceptable. -/
def Line.ok {σ} (W : World σ) (w : σ) (t : Cond → Bool) : Line → Prop
  | .plain _ => True
  | .dir (.ifx c) => evalCond W w c = (some (boolState (t c)), [])
  | .dir (.elseifx c) => evalCond W w c = (some (boolState (t c)), [])
  | .dir (.els tr) => tr = false
  | .dir (.endif tr) => tr = false

def isErr : Event → Option Err
  | .err e => some e
  | _ => none

theorem sim_step {σ} (W : World σ) (w : σ) (t : Cond → Bool) (s : State) (k : Stack) (l : Line)
    (hs : Sim s k) (hl : l.ok W w t) :
    match k.check t l with
    | .ok k' => Sim (step W (s, w) l).1.1 k' ∧ (step W (s, w) l).2.filterMap isErr = []
    | .error e => ((step W (s, w) l).2.filterMap isErr).head? = some e := by
  cases l with
  | plain n =>
    simp only [Stack.check, step]
    split <;> exact ⟨hs, by simp [isErr]⟩
  | dir d =>
    cases d with
    | ifx c =>
      simp only [Line.ok] at hl
      simp only [Stack.check]
      by_cases hlv : k.live = true
      · have hact := hs.live_iff.mp hlv
        simp only [hlv, if_true]
        by_cases hge : k.frames.length ≥ 20
        · have : s.lvl = maxIfNesting := by have := hs.le; have := hs.lvl; simp [maxIfNesting]; omega
          simp [hge, step, prepare, hact, this, isErr]
        · simp only [hge, if_false]
          have hne : s.lvl ≠ maxIfNesting := by have := hs.lvl; simp [maxIfNesting]; omega
          have hst : step W (s, w) (.dir (.ifx c)) =
              (({ s with lvl := s.lvl + 1, elseBits := s.elseBits &&& ~~~(1#32 <<< s.lvl), curr := boolState (t c) }, w),
                [.eval c]) := by
            simp [step, prepare, condAsmDirective, hact, hne, hl]
          rw [hst]
          refine ⟨?_, by simp [isErr]⟩
          constructor
          · simp [hs.lvl]
          · simp; omega
          · simp only; cases t c <;> simp [boolState, phaseState]
          · exact hs.skip
          · intro h; have := hs.skip_live h; simp [hlv] at this
          · intro f hf
            simp only [List.tail_cons] at hf
            cases hfr : k.frames with
            | nil => simp [hfr] at hf
            | cons g gs =>
              rw [hfr] at hf
              rcases List.mem_cons.mp hf with rfl | h
              · simpa [Stack.live, hfr] using hlv
              · exact hs.below f (by simp [hfr, h])
          · intro i hi
            simp only [List.length_cons] at hi ⊢
            cases i with
            | zero => simp [clear_bit, hs.lvl]
            | succ j =>
              have hj : j < k.frames.length := by omega
              have := hs.bits j hj
              simp only [clear_bit, List.getElem_cons_succ]
              have e1 : k.frames.length + 1 - 1 - (j + 1) = k.frames.length - 1 - j := by omega
              have e2 : k.frames.length - 1 - j ≠ s.lvl := by rw [hs.lvl]; omega
              rw [e1, this]; simp [e2]
      · have hact : s.curr ≠ .active := fun h => hlv (hs.live_iff.mpr h)
        simp only [hlv, Bool.false_eq_true, if_false]
        have hst : step W (s, w) (.dir (.ifx c)) = (({ s with falseLvl := s.falseLvl + 1 }, w), []) := by
          simp [step, prepare, condAsmDirective, hact]
        rw [hst]
        refine ⟨⟨hs.lvl, hs.le, hs.curr, by simp [hs.skip], fun _ => by simpa [Stack.live] using hlv, hs.below, hs.bits⟩, by simp⟩
    | elseifx c =>
      simp only [Line.ok] at hl
      simp only [Stack.check]
      cases hfr : k.frames with
      | nil =>
        have : s.lvl = 0 := by rw [hs.lvl, hfr]; rfl
        simp [step, prepare, this, isErr]
      | cons f fs =>
        have hlv : s.lvl = fs.length + 1 := by rw [hs.lvl, hfr]; rfl
        have hle := hs.le; rw [hfr] at hle; simp only [List.length_cons] at hle
        simp only
        by_cases hsk : k.skipped > 0
        · have hnl := hs.skip_live hsk
          have hact : s.curr ≠ .active := fun h => by rw [hs.live_iff.mpr h] at hnl; cases hnl
          have hf : s.falseLvl > 0 := by rw [hs.skip]; exact hsk
          simp only [hsk, if_true]
          have hst : step W (s, w) (.dir (.elseifx c)) = ((s, w), []) := by
            simp [step, prepare, condAsmDirective, hact, hlv, hf]
          rw [hst]; exact ⟨hs, by simp⟩
        · have hf : s.falseLvl = 0 := by rw [hs.skip]; omega
          have hbit : s.elseBits.getLsbD fs.length = f.elseSeen := by
            have := hs.bits 0 (by simp [hfr]); simpa [hfr] using this
          simp only [hsk, if_false]
          by_cases he : f.elseSeen = true
          · have hb : s.elseBits &&& (1#32 <<< fs.length) ≠ 0#32 := (bit_test _ _ (by omega)).mpr (by rw [hbit, he])
            simp [he, step, prepare, hlv, hf, hb, isErr]
          · have hb : s.elseBits &&& (1#32 <<< fs.length) = 0#32 := by
              rcases Decidable.em (s.elseBits &&& (1#32 <<< fs.length) = 0#32) with h | h
              · exact h
              · exact absurd ((bit_test _ _ (by omega)).mp h) (by rw [hbit]; exact he)
            simp only [he, Bool.false_eq_true, if_false]
            have hcur : s.curr = phaseState f.phase := by rw [hs.curr, hfr]
            have hst : step W (s, w) (.dir (.elseifx c)) =
              (({ s with curr := if f.phase = .seeking then boolState (t c) else .done }, w),
                if f.phase = .seeking then [.eval c] else []) := by
              cases hp : f.phase <;> simp [hp, phaseState] at hcur <;>
                simp [step, prepare, condAsmDirective, hcur, hlv, hf, hb, hl, hp]
            rw [hst]
            refine ⟨?_, by split <;> simp [isErr]⟩
            constructor
            · simp [hlv]
            · simp; omega
            · simp only; cases hp : f.phase <;> cases ht : t c <;> simp [boolState, phaseState]
            · exact hs.skip
            · intro h; exact absurd h hsk
            · intro g hg; exact hs.below g (by simpa [hfr] using hg)
            · intro i hi
              have := hs.bits i (by simpa [hfr] using hi)
              simp only [hfr, List.length_cons] at this ⊢
              cases i with
              | zero => simpa [he] using this
              | succ j => simpa using this
    | els tr =>
      simp only [Line.ok] at hl; subst hl
      simp only [Stack.check]
      cases hfr : k.frames with
      | nil =>
        have : s.lvl = 0 := by rw [hs.lvl, hfr]; rfl
        simp [step, prepare, this, isErr]
      | cons f fs =>
        have hlv : s.lvl = fs.length + 1 := by rw [hs.lvl, hfr]; rfl
        have hle := hs.le; rw [hfr] at hle; simp only [List.length_cons] at hle
        simp only
        by_cases hsk : k.skipped > 0
        · have hnl := hs.skip_live hsk
          have hact : s.curr ≠ .active := fun h => by rw [hs.live_iff.mpr h] at hnl; cases hnl
          have hf : s.falseLvl > 0 := by rw [hs.skip]; exact hsk
          simp only [hsk, if_true]
          have hst : step W (s, w) (.dir (.els false)) = ((s, w), []) := by
            simp [step, prepare, condAsmDirective, hact, hlv, hf]
          rw [hst]; exact ⟨hs, by simp⟩
        · have hf : s.falseLvl = 0 := by rw [hs.skip]; omega
          have hbit : s.elseBits.getLsbD fs.length = f.elseSeen := by
            have := hs.bits 0 (by simp [hfr]); simpa [hfr] using this
          simp only [hsk, if_false]
          by_cases he : f.elseSeen = true
          · have hb : s.elseBits &&& (1#32 <<< fs.length) ≠ 0#32 := (bit_test _ _ (by omega)).mpr (by rw [hbit, he])
            simp [he, step, prepare, hlv, hf, hb, isErr]
          · have hb : s.elseBits &&& (1#32 <<< fs.length) = 0#32 := by
              rcases Decidable.em (s.elseBits &&& (1#32 <<< fs.length) = 0#32) with h | h
              · exact h
              · exact absurd ((bit_test _ _ (by omega)).mp h) (by rw [hbit]; exact he)
            simp only [he, Bool.false_eq_true, if_false]
            have hcur : s.curr = phaseState f.phase := by rw [hs.curr, hfr]
            have hst : step W (s, w) (.dir (.els false)) =
              (({ s with curr := if f.phase = .seeking then .active else .done,
                         elseBits := s.elseBits ||| (1#32 <<< fs.length) }, w), []) := by
              cases hp : f.phase <;> simp [hp, phaseState] at hcur <;>
                simp [step, prepare, condAsmDirective, hcur, hlv, hf, hb, finish]
            rw [hst]
            refine ⟨?_, by simp⟩
            constructor
            · simp [hlv]
            · simp; omega
            · simp only; cases hp : f.phase <;> simp [phaseState]
            · exact hs.skip
            · intro h; exact absurd h hsk
            · intro g hg; exact hs.below g (by simpa [hfr] using hg)
            · intro i hi
              have := hs.bits i (by simpa [hfr] using hi)
              simp only [hfr, List.length_cons] at this hi ⊢
              rw [set_bit _ _ _ (by omega)]
              cases i with
              | zero => simp
              | succ j =>
                have : fs.length + 1 - 1 - (j + 1) ≠ fs.length := by omega
                simp_all
    | endif tr =>
      simp only [Line.ok] at hl; subst hl
      simp only [Stack.check]
      cases hfr : k.frames with
      | nil =>
        have : s.lvl = 0 := by rw [hs.lvl, hfr]; rfl
        simp [step, prepare, this, isErr]
      | cons f fs =>
        have hlv : s.lvl = fs.length + 1 := by rw [hs.lvl, hfr]; rfl
        simp only
        by_cases hsk : k.skipped > 0
        · have hnl := hs.skip_live hsk
          have hact : s.curr ≠ .active := fun h => by rw [hs.live_iff.mpr h] at hnl; cases hnl
          have hf : s.falseLvl > 0 := by rw [hs.skip]; exact hsk
          simp only [hsk, if_true]
          have hst : step W (s, w) (.dir (.endif false)) = (({ s with falseLvl := s.falseLvl - 1 }, w), []) := by
            simp [step, prepare, condAsmDirective, hact, hlv, hf]
          rw [hst]
          exact ⟨⟨by simp [hs.lvl, hfr], by have := hs.le; simpa [hfr] using this, by simpa [hfr] using hs.curr,
            by simp [hs.skip], fun _ => by simpa [Stack.live, hfr] using hnl, by simpa [hfr] using hs.below,
            by simpa [hfr] using hs.bits⟩, by simp⟩
        · have hf : s.falseLvl = 0 := by rw [hs.skip]; omega
          simp only [hsk, if_false]
          have hst : step W (s, w) (.dir (.endif false)) = (({ s with lvl := fs.length, curr := .active }, w), []) := by
            simp [step, prepare, condAsmDirective, hlv, hf, finish]
          rw [hst]
          refine ⟨?_, by simp⟩
          constructor
          · rfl
          · have := hs.le; simp [hfr] at this; simp; omega
          · simp only
            cases hfs : fs with
            | nil => rfl
            | cons g gs =>
              have := hs.below g (by simp [hfr, hfs])
              simp [this, phaseState]
          · exact hs.skip
          · intro h; exact absurd h hsk
          · intro g hg
            exact hs.below g (by simp [hfr]; exact List.mem_of_mem_tail hg)
          · intro i hi
            simp only at hi
            have := hs.bits (i + 1) (by simp [hfr]; omega)
            simp only [hfr, List.length_cons, List.getElem_cons_succ] at this
            have e : fs.length + 1 - 1 - (i + 1) = fs.length - 1 - i := by omega
            rw [e] at this; exact this

end Verif.CondAsm
