import Verif.MacroRun.Spec
import Verif.CondAsm.Proofs
/-! # Lines of structured macros -/
namespace Verif.MacroRun
open Verif.CondAsm (State Dir Cond World IfState Err prepare step condAsmDirective finish boolState maxIfNesting truth Same
  bit_test clear_bit set_bit evalCond_truth)

theorem bit_free {e : BitVec 32} {n : Nat} (hn : n < 32) (h : e.getLsbD n = false) : e &&& (1#32 <<< n) = 0#32 := by
  have hbt : ¬ (e &&& (1#32 <<< n) ≠ 0#32) := by rw [bit_test _ _ hn]; simp [h]
  simpa using hbt

/-- events in front -/
def pre {σ : Type} (ev : List Event) (q : (State × σ) × List Event × Ctl × List Line) : (State × σ) × List Event × Ctl × List Line :=
  (q.1, ev ++ q.2.1, q.2.2)

theorem pre_nil {σ : Type} (q : (State × σ) × List Event × Ctl × List Line) : pre [] q = q := rfl
theorem pre_pre {σ : Type} (a b : List Event) (q : (State × σ) × List Event × Ctl × List Line) : pre a (pre b q) = pre (a ++ b) q := by
  simp [pre]

theorem lines_cond {σ : Type} (W : World σ) (sw : State × σ) (l : CondAsm.Line) (t : List Line) :
    lines W sw (.cond l :: t) = pre ((step W sw l).2.map .cond) (lines W (step W sw l).1 t) := rfl

theorem skip_dir (s : State) (d : Dir) (t : List Line) (h : (prepare s d).2 = []) :
    skipMacro s (.cond (.dir d) :: t) = skipMacro (prepare s d).1 t := by
  simp [skipMacro, h]

/-! ## Text that is not assembled -/

mutual
theorem off_code {σ : Type} (W : World σ) (c : Code) (s : State) (w : σ) (h : s.curr ≠ .active) (h0 : s.lvl ≠ 0)
    (rest : List Line) : lines W (s, w) (c.flat ++ rest) = lines W (s, w) rest := by
  cases c with
  | nil => rfl
  | line n r =>
    have h1 : step W (s, w) (.plain n) = ((s, w), []) := by simp [step, h]
    rw [Code.flat, List.cons_append, lines_cond, h1, List.map_nil, pre_nil]
    exact off_code W r s w h h0 rest
  | exitm r => simp only [Code.flat, List.cons_append, lines, h, if_false]; exact off_code W r s w h h0 rest
  | goto l r => simp only [Code.flat, List.cons_append, lines, h, if_false]; exact off_code W r s w h h0 rest
  | label b n m r => simp only [Code.flat, List.cons_append, lines]; exact off_code W r s w h h0 rest
  | block c b a r =>
    have h1 : step W (s, w) (.dir (.ifx c)) = (({ s with falseLvl := s.falseLvl + 1 }, w), []) := by
      simp [step, prepare, condAsmDirective, h]
    rw [Code.flat, List.cons_append, lines_cond, h1, List.map_nil, pre_nil]
    simp only [List.append_assoc]
    rw [off_code W b { s with falseLvl := s.falseLvl + 1 } w h h0, off_alts W a { s with falseLvl := s.falseLvl + 1 } w h h0 (by simp)]
    simp only [Nat.add_sub_cancel]
    exact off_code W r s w h h0 rest
theorem off_alts {σ : Type} (W : World σ) (a : Alts) (s : State) (w : σ) (h : s.curr ≠ .active) (h0 : s.lvl ≠ 0)
    (hf : s.falseLvl > 0) (rest : List Line) :
    lines W (s, w) (a.flat ++ rest) = lines W ({ s with falseLvl := s.falseLvl - 1 }, w) rest := by
  have hend : step W (s, w) (.dir (.endif false)) = (({ s with falseLvl := s.falseLvl - 1 }, w), []) := by
    simp [step, prepare, condAsmDirective, h, h0, hf]
  cases a with
  | endif => rw [Alts.flat, List.singleton_append, lines_cond, hend, List.map_nil, pre_nil]
  | els b =>
    have h1 : step W (s, w) (.dir (.els false)) = ((s, w), []) := by
      simp [step, prepare, condAsmDirective, h, h0, hf]
    rw [Alts.flat, List.cons_append, lines_cond, h1, List.map_nil, pre_nil, List.append_assoc, off_code W b s w h h0,
      List.singleton_append, lines_cond, hend, List.map_nil, pre_nil]
  | elseif c b a =>
    have h1 : step W (s, w) (.dir (.elseifx c)) = ((s, w), []) := by
      simp [step, prepare, condAsmDirective, h, h0, hf]
    rw [Alts.flat, List.cons_append, lines_cond, h1, List.map_nil, pre_nil, List.append_assoc, off_code W b s w h h0]
    exact off_alts W a s w h h0 hf rest
end

mutual
theorem offS_code (c : Code) (s : State) (h : s.curr ≠ .active) (h0 : s.lvl ≠ 0) (rest : List Line) :
    skipMacro s (c.flat ++ rest) = skipMacro s rest := by
  cases c with
  | nil => rfl
  | line n r => simp only [Code.flat, List.cons_append, skipMacro]; exact offS_code r s h h0 rest
  | exitm r => simp only [Code.flat, List.cons_append, skipMacro]; exact offS_code r s h h0 rest
  | goto l r => simp only [Code.flat, List.cons_append, skipMacro]; exact offS_code r s h h0 rest
  | label b n m r => simp only [Code.flat, List.cons_append, skipMacro]; exact offS_code r s h h0 rest
  | block c b a r =>
    have h1 : prepare s (.ifx c) = ({ s with falseLvl := s.falseLvl + 1 }, []) := by simp [prepare, h]
    rw [Code.flat, List.cons_append, skip_dir _ _ _ (by rw [h1]), h1]
    simp only [List.append_assoc]
    rw [offS_code b { s with falseLvl := s.falseLvl + 1 } h h0, offS_alts a { s with falseLvl := s.falseLvl + 1 } h h0 (by simp)]
    simp only [Nat.add_sub_cancel]
    exact offS_code r s h h0 rest
theorem offS_alts (a : Alts) (s : State) (h : s.curr ≠ .active) (h0 : s.lvl ≠ 0)
    (hf : s.falseLvl > 0) (rest : List Line) :
    skipMacro s (a.flat ++ rest) = skipMacro { s with falseLvl := s.falseLvl - 1 } rest := by
  have hend : prepare s (.endif false) = ({ s with falseLvl := s.falseLvl - 1 }, []) := by simp [prepare, h0, hf]
  cases a with
  | endif => rw [Alts.flat, List.singleton_append, skip_dir _ _ _ (by rw [hend]), hend]
  | els b =>
    have h1 : prepare s (.els false) = (s, []) := by simp [prepare, h0, hf]
    rw [Alts.flat, List.cons_append, skip_dir _ _ _ (by rw [h1]), h1, List.append_assoc, offS_code b s h h0,
      List.singleton_append, skip_dir _ _ _ (by rw [hend]), hend]
  | elseif c b a =>
    have h1 : prepare s (.elseifx c) = (s, []) := by simp [prepare, h0, hf]
    rw [Alts.flat, List.cons_append, skip_dir _ _ _ (by rw [h1]), h1, List.append_assoc, offS_code b s h h0]
    exact offS_alts a s h h0 hf rest
end

/-! ## The branches behind the one taken -/

theorem past_alts {σ : Type} (W : World σ) (a : Alts) : ∀ (s : State) (n : Nat), s.curr ≠ .inactive → s.lvl = n + 1 → n < 32 →
    s.falseLvl = 0 → s.elseBits.getLsbD n = false →
    ∃ s', Same n s s' ∧ (∀ w rest, lines W (s, w) (a.flat ++ rest) = lines W (s', w) rest) ∧
      ∀ rest, skipMacro s (a.flat ++ rest) = skipMacro s' rest := by
  induction a using Alts.rec (motive_1 := fun _ => True) with
  | endif =>
    intro s n h hl hn hf hb
    refine ⟨{ s with lvl := n, curr := .active }, ⟨rfl, rfl, hf, fun _ _ => rfl⟩, fun w rest => ?_, fun rest => ?_⟩
    · have h1 : step W (s, w) (.dir (.endif false)) = (({ s with lvl := n, curr := .active }, w), []) := by
        simp [step, prepare, condAsmDirective, hl, hf, finish]
      rw [Alts.flat, List.singleton_append, lines_cond, h1, List.map_nil, pre_nil]
    · have h1 : prepare s (.endif false) = ({ s with lvl := n, curr := .active }, []) := by simp [prepare, hl, hf]
      rw [Alts.flat, List.singleton_append, skip_dir _ _ _ (by rw [h1]), h1]
  | els b _ =>
    intro s n h hl hn hf hb
    have hbt := bit_free hn hb
    let s1 : State := { s with curr := .done, elseBits := s.elseBits ||| (1#32 <<< n) }
    refine ⟨{ s1 with curr := .active, lvl := n }, ⟨rfl, rfl, hf, ?_⟩, fun w rest => ?_, fun rest => ?_⟩
    · intro i hi
      simp only [s1, set_bit _ _ _ hn]
      have : i ≠ n := by omega
      simp [this]
    · have h1 : step W (s, w) (.dir (.els false)) = ((s1, w), []) := by
        simp [step, prepare, condAsmDirective, h, hl, hf, hbt, s1]
      have h2 : step W (s1, w) (.dir (.endif false)) = (({ s1 with lvl := n, curr := .active }, w), []) := by
        simp [step, prepare, condAsmDirective, hl, hf, finish, s1]
      rw [Alts.flat, List.cons_append, lines_cond, h1, List.map_nil, pre_nil, List.append_assoc,
        off_code W b s1 w (by simp [s1]) (by simp [s1, hl]), List.singleton_append, lines_cond, h2, List.map_nil, pre_nil]
    · have h1 : prepare s (.els false) = (s1, []) := by simp [prepare, h, hl, hf, hbt, s1]
      have h2 : prepare s1 (.endif false) = ({ s1 with lvl := n, curr := .active }, []) := by simp [prepare, hl, hf, s1]
      rw [Alts.flat, List.cons_append, skip_dir _ _ _ (by rw [h1]), h1, List.append_assoc,
        offS_code b s1 (by simp [s1]) (by simp [s1, hl]), List.singleton_append, skip_dir _ _ _ (by rw [h2]), h2]
  | elseif c b a _ ih =>
    intro s n h hl hn hf hb
    have hbt := bit_free hn hb
    let s1 : State := { s with curr := .done }
    obtain ⟨s', hs, hr, hk⟩ := ih s1 n (by simp [s1]) hl hn hf hb
    refine ⟨s', hs, fun w rest => ?_, fun rest => ?_⟩
    · have h1 : step W (s, w) (.dir (.elseifx c)) = ((s1, w), []) := by
        simp [step, prepare, condAsmDirective, h, hl, hf, hbt, s1]
      rw [Alts.flat, List.cons_append, lines_cond, h1, List.map_nil, pre_nil, List.append_assoc,
        off_code W b s1 w (by simp [s1]) (by simp [s1, hl]), hr]
    · have h1 : prepare s (.elseifx c) = (s1, []) := by simp [prepare, h, hl, hf, hbt, s1]
      rw [Alts.flat, List.cons_append, skip_dir _ _ _ (by rw [h1]), h1, List.append_assoc,
        offS_code b s1 (by simp [s1]) (by simp [s1, hl]), hk]
  | _ => trivial

theorem Same.trans {n : Nat} {a b c : State} (h : Same n a b) (h' : Same n b c) : Same n a c :=
  ⟨h'.1, h'.2.1, h'.2.2.1, fun i hi => by rw [h'.2.2.2 i hi, h.2.2.2 i hi]⟩

/-- SkipMacro over structured text: blocks are opened and closed. -/
theorem skip_code (c : Code) : ∀ (s : State), s.curr = .active → s.falseLvl = 0 → s.lvl + c.depth ≤ maxIfNesting →
    ∃ s', Same s.lvl s s' ∧ ∀ rest, skipMacro s (c.flat ++ rest) = skipMacro s' rest := by
  induction c using Code.rec (motive_2 := fun _ => True) with
  | nil => intro s ha hf _; exact ⟨s, ⟨ha, rfl, hf, fun _ _ => rfl⟩, fun _ => rfl⟩
  | line n r ih => intro s ha hf hd; exact ih s ha hf hd
  | exitm r ih => intro s ha hf hd; exact ih s ha hf hd
  | goto l r ih => intro s ha hf hd; exact ih s ha hf hd
  | label b n m r ih => intro s ha hf hd; exact ih s ha hf hd
  | block c b a r ihb _ ihr =>
    intro s ha hf hd
    simp only [Code.depth, maxIfNesting] at hd
    have hlv : s.lvl < 20 := by omega
    let s1 : State := { s with lvl := s.lvl + 1, elseBits := s.elseBits &&& ~~~(1#32 <<< s.lvl) }
    have h1 : prepare s (.ifx c) = (s1, []) := by
      have : s.lvl ≠ maxIfNesting := by simp [maxIfNesting]; omega
      simp [prepare, ha, this, s1]
    obtain ⟨s2, hs2, hk2⟩ := ihb s1 ha hf (by simp [s1, maxIfNesting]; omega)
    have hb2 : s2.elseBits.getLsbD s.lvl = false := by
      rw [hs2.2.2.2 s.lvl (by simp [s1])]; simp [s1, clear_bit]
    obtain ⟨s3, hs3, _, hk3⟩ := past_alts (σ := Unit) ⟨fun _ _ => (), fun _ _ => .error, fun _ _ => false, fun _ => false, fun _ => .done⟩
      a s2 s.lvl (by rw [hs2.1]; simp) (by rw [hs2.2.1]) (by omega) hs2.2.2.1 hb2
    obtain ⟨s4, hs4, hk4⟩ := ihr s3 hs3.1 hs3.2.2.1 (by rw [hs3.2.1]; simp [maxIfNesting]; omega)
    refine ⟨s4, ⟨hs4.1, by rw [hs4.2.1, hs3.2.1], hs4.2.2.1, fun i hi => ?_⟩, fun rest => ?_⟩
    · rw [hs4.2.2.2 i (by rw [hs3.2.1]; exact hi), hs3.2.2.2 i hi, hs2.2.2.2 i (by simp [s1]; omega)]
      have : i ≠ s.lvl := by omega
      show (s.elseBits &&& ~~~(1#32 <<< s.lvl)).getLsbD i = _
      rw [clear_bit]; simp [this]
    · rw [Code.flat, List.cons_append, skip_dir _ _ _ (by rw [h1]), h1]
      simp only [List.append_assoc]
      rw [hk2, hk3, hk4]
  | _ => trivial

/-! ## Text that is assembled -/

/-- How a piece of text is left: at its end, or by a jump, and then the blocks that it has opened are closed by skipping its rest. -/
def Leaves {σ : Type} (W : World σ) (n : Nat) (s : State) (w : σ) (fl : List Line) (w' : σ) (ev : List Event) (k : Ctl) : Prop :=
  if k = .done then
    ∃ s', Same n s s' ∧ ∀ rest, lines W (s, w) (fl ++ rest) = pre ev (lines W (s', w') rest)
  else
    ∃ s' s'' t, s'.curr = .active ∧ s'.falseLvl = 0 ∧ (∀ i < n, s'.elseBits.getLsbD i = s.elseBits.getLsbD i) ∧
      Same n s s'' ∧ (∀ rest, lines W (s, w) (fl ++ rest) = ((s', w'), ev, k, t ++ rest)) ∧
      ∀ rest, skipMacro s' (t ++ rest) = skipMacro s'' rest

theorem leaves_step {σ : Type} {W : World σ} {n : Nat} {s s1 : State} {w w1 w' : σ} {fl fl1 : List Line} {ev ev1 : List Event} {k : Ctl}
    (hbits : ∀ i < n, s1.elseBits.getLsbD i = s.elseBits.getLsbD i)
    (h : ∀ rest, lines W (s, w) (fl ++ rest) = pre ev1 (lines W (s1, w1) (fl1 ++ rest))) (hl : Leaves W n s1 w1 fl1 w' ev k) :
    Leaves W n s w fl w' (ev1 ++ ev) k := by
  unfold Leaves at hl ⊢
  by_cases hk : k = .done
  · simp only [hk, if_true] at hl ⊢
    obtain ⟨s', hs, hr⟩ := hl
    exact ⟨s', ⟨hs.1, hs.2.1, hs.2.2.1, fun i hi => by rw [hs.2.2.2 i hi, hbits i hi]⟩, fun rest => by rw [h, hr, pre_pre]⟩
  · simp only [hk, if_false] at hl ⊢
    obtain ⟨s', s'', t, h1, h2, h3, hs, hr, hsk⟩ := hl
    exact ⟨s', s'', t, h1, h2, fun i hi => by rw [h3 i hi, hbits i hi],
      ⟨hs.1, hs.2.1, hs.2.2.1, fun i hi => by rw [hs.2.2.2 i hi, hbits i hi]⟩, fun rest => by rw [h, hr]; rfl, hsk⟩

/-- text `fl1` that is left, and text behind it that only closes blocks -/
theorem leaves_then {σ : Type} {W : World σ} {n m : Nat} {s : State} {w w' : σ} {fl1 fl2 : List Line} {ev : List Event} {k : Ctl}
    (hnm : n ≤ m) (hl : Leaves W m s w fl1 w' ev k)
    (h2 : ∀ s2, Same m s s2 → ∃ s3, Same n s2 s3 ∧ (k = .done → ∀ w rest, lines W (s2, w) (fl2 ++ rest) = lines W (s3, w) rest) ∧
      (k ≠ .done → ∀ rest, skipMacro s2 (fl2 ++ rest) = skipMacro s3 rest)) :
    Leaves W n s w (fl1 ++ fl2) w' ev k := by
  unfold Leaves at hl ⊢
  by_cases hk : k = .done
  · simp only [hk, if_true] at hl ⊢
    obtain ⟨s', hs, hr⟩ := hl
    obtain ⟨s3, hs3, hr3, _⟩ := h2 s' hs
    refine ⟨s3, ⟨hs3.1, hs3.2.1, hs3.2.2.1, fun i hi => ?_⟩, fun rest => ?_⟩
    · rw [hs3.2.2.2 i hi, hs.2.2.2 i (by omega)]
    · rw [List.append_assoc, hr, hr3 hk]
  · simp only [hk, if_false] at hl ⊢
    obtain ⟨s', s'', t, h1, h2', h3, hs, hr, hsk⟩ := hl
    obtain ⟨s3, hs3, _, hr3⟩ := h2 s'' hs
    refine ⟨s', s3, t ++ fl2, h1, h2', fun i hi => h3 i (by omega), ⟨hs3.1, hs3.2.1, hs3.2.2.1, fun i hi => ?_⟩,
      fun rest => ?_, fun rest => ?_⟩
    · rw [hs3.2.2.2 i hi, hs.2.2.2 i (by omega)]
    · rw [List.append_assoc, hr, List.append_assoc]
    · rw [List.append_assoc, hsk, hr3 hk]

theorem leaves_prefix {σ : Type} {W : World σ} {n : Nat} {s : State} {w w' w'' : σ} {fl1 fl2 : List Line} {ev ev' : List Event}
    {k : Ctl} (hl : Leaves W n s w fl1 w' ev .done) (h2 : ∀ s2, Same n s s2 → Leaves W n s2 w' fl2 w'' ev' k) :
    Leaves W n s w (fl1 ++ fl2) w'' (ev ++ ev') k := by
  have hl' := hl
  unfold Leaves at hl'
  simp only [if_true] at hl'
  obtain ⟨s', hs, hr⟩ := hl'
  exact leaves_step (fl1 := fl2) hs.2.2.2 (fun rest => by rw [List.append_assoc, hr]) (h2 s' hs)

mutual
theorem exec_code {σ : Type} (W : World σ) (c : Code) (s : State) (w w' : σ) (ev : List Event) (k : Ctl)
    (ha : s.curr = .active) (hf : s.falseLvl = 0) (hd : s.lvl + c.depth ≤ maxIfNesting)
    (he : c.exec W w = some (w', ev, k)) : Leaves W s.lvl s w c.flat w' ev k := by
  cases c with
  | nil =>
    simp only [Code.exec, Option.some.injEq, Prod.mk.injEq] at he
    obtain ⟨rfl, rfl, rfl⟩ := he
    exact (if_pos rfl).mpr ⟨s, ⟨ha, rfl, hf, fun _ _ => rfl⟩, fun _ => rfl⟩
  | line n r =>
    simp only [Code.exec, Option.bind_eq_some_iff, Option.some.injEq] at he
    obtain ⟨⟨w1, ev1, k1⟩, he1, he2⟩ := he
    simp only [Prod.mk.injEq] at he2
    obtain ⟨rfl, rfl, rfl⟩ := he2
    have ih := exec_code W r s (W.assemble w n) w1 ev1 k1 ha hf (by simpa [Code.depth] using hd) he1
    refine leaves_step (ev1 := [.cond (.asm n)]) (fun _ _ => rfl) (fun rest => ?_) ih
    have h1 : step W (s, w) (.plain n) = ((s, W.assemble w n), [.asm n]) := by simp [step, ha]
    rw [Code.flat, List.cons_append, lines_cond, h1]; rfl
  | exitm r =>
    simp only [Code.exec, Option.some.injEq, Prod.mk.injEq] at he
    obtain ⟨rfl, rfl, rfl⟩ := he
    obtain ⟨s', hs, hk⟩ := skip_code r s ha hf (by simpa [Code.depth] using hd)
    refine (if_neg (by simp)).mpr ⟨s, s', r.flat, ha, hf, fun _ _ => rfl, hs, fun rest => ?_, hk⟩
    simp [Code.flat, lines, ha]
  | goto l r =>
    simp only [Code.exec, Option.some.injEq, Prod.mk.injEq] at he
    obtain ⟨rfl, rfl, rfl⟩ := he
    obtain ⟨s', hs, hk⟩ := skip_code r s ha hf (by simpa [Code.depth] using hd)
    refine (if_neg (by simp)).mpr ⟨s, s', r.flat, ha, hf, fun _ _ => rfl, hs, fun rest => ?_, hk⟩
    simp [Code.flat, lines, ha]
  | label b n m r =>
    have ih := exec_code W r s w w' ev k ha hf (by simpa [Code.depth] using hd) he
    exact leaves_step (ev1 := []) (fun _ _ => rfl) (fun rest => rfl) ih
  | block c b a r =>
    simp only [Code.exec, Option.bind_eq_some_iff] at he
    obtain ⟨t, ht, ⟨w1, ev1, k1⟩, he1, he2⟩ := he
    simp only [Code.depth, maxIfNesting] at hd
    have hlv : s.lvl < 20 := by omega
    have hev := evalCond_truth W w c t ht
    let s1 : State := { s with lvl := s.lvl + 1, elseBits := s.elseBits &&& ~~~(1#32 <<< s.lvl), curr := boolState t }
    have h1 : step W (s, w) (.dir (.ifx c)) = ((s1, w), [.eval c]) := by
      have : s.lvl ≠ maxIfNesting := by simp [maxIfNesting]; omega
      simp [step, prepare, condAsmDirective, ha, this, hev, s1]
    have hbits : ∀ i < s.lvl, s1.elseBits.getLsbD i = s.elseBits.getLsbD i := by
      intro i hi
      have : i ≠ s.lvl := by omega
      show (s.elseBits &&& ~~~(1#32 <<< s.lvl)).getLsbD i = _
      rw [clear_bit]; simp [this]
    -- the block
    have key : Leaves W s.lvl s1 w (b.flat ++ a.flat) w1 ev1 k1 := by
      cases t with
      | true =>
        simp only [if_true] at he1
        have ihb := exec_code W b s1 w w1 ev1 k1 rfl hf (by simp [s1, maxIfNesting]; omega) he1
        refine leaves_then (m := s1.lvl) (by simp [s1]) ihb fun s2 hs2 => ?_
        have hb2 : s2.elseBits.getLsbD s.lvl = false := by
          rw [hs2.2.2.2 s.lvl (by simp [s1])]; simp [s1, clear_bit]
        obtain ⟨s3, hs3, hr3, hk3⟩ := past_alts W a s2 s.lvl (by rw [hs2.1]; simp) (by rw [hs2.2.1]) (by omega) hs2.2.2.1 hb2
        exact ⟨s3, hs3, fun _ => hr3, fun _ => hk3⟩
      | false =>
        simp only [Bool.false_eq_true, if_false] at he1
        have iha := exec_alts W a s1 w w1 ev1 k1 s.lvl rfl rfl (by simp [maxIfNesting]; omega) hf (by simp [s1, clear_bit]) he1
        refine leaves_step (ev1 := []) (fun _ _ => rfl) (fun rest => ?_) iha
        rw [List.append_assoc, off_code W b s1 w (by simp [s1, boolState]) (by simp [s1])]; rfl
    have hblk : Leaves W s.lvl s w (.cond (.dir (.ifx c)) :: (b.flat ++ a.flat)) w1 (.cond (.eval c) :: ev1) k1 := by
      refine leaves_step (ev1 := [.cond (.eval c)]) hbits (fun rest => ?_) key
      rw [List.cons_append, lines_cond, h1]; rfl
    have hflat : Code.flat (.block c b a r) = (.cond (.dir (.ifx c)) :: (b.flat ++ a.flat)) ++ r.flat := by
      simp [Code.flat]
    rw [hflat]
    have hstop : ∀ k, k ≠ .done → k1 = k → some (w1, Event.cond (.eval c) :: ev1, k) = some (w', ev, k) →
        Leaves W s.lvl s w ((.cond (.dir (.ifx c)) :: (b.flat ++ a.flat)) ++ r.flat) w' ev k := by
      intro k hk hk1 he2
      simp only [Option.some.injEq, Prod.mk.injEq] at he2
      obtain ⟨rfl, rfl, _⟩ := he2
      subst hk1
      refine leaves_then (Nat.le_refl _) hblk fun s2 hs2 => ?_
      obtain ⟨s3, hs3, hk3⟩ := skip_code r s2 hs2.1 hs2.2.2.1 (by rw [hs2.2.1]; simp [maxIfNesting]; omega)
      rw [hs2.2.1] at hs3
      exact ⟨s3, hs3, fun h => absurd h hk, fun _ => hk3⟩
    cases k1 with
    | done =>
      simp only [Option.bind_eq_some_iff, Option.some.injEq] at he2
      obtain ⟨⟨w2, ev2, k2⟩, he3, he4⟩ := he2
      simp only [Prod.mk.injEq] at he4
      obtain ⟨rfl, rfl, rfl⟩ := he4
      rw [show Event.cond (.eval c) :: (ev1 ++ ev2) = (Event.cond (.eval c) :: ev1) ++ ev2 from rfl]
      refine leaves_prefix hblk fun s2 hs2 => ?_
      have := exec_code W r s2 w1 w2 ev2 k2 hs2.1 hs2.2.2.1 (by rw [hs2.2.1]; simp [maxIfNesting]; omega) he3
      rwa [hs2.2.1] at this
    | exitm =>
      simp only [Option.some.injEq, Prod.mk.injEq] at he2
      obtain ⟨rfl, rfl, rfl⟩ := he2
      exact hstop _ (by simp) rfl rfl
    | goto l =>
      simp only [Option.some.injEq, Prod.mk.injEq] at he2
      obtain ⟨rfl, rfl, rfl⟩ := he2
      exact hstop _ (by simp) rfl rfl
theorem exec_alts {σ : Type} (W : World σ) (a : Alts) (s : State) (w w' : σ) (ev : List Event) (k : Ctl) (n : Nat)
    (ha : s.curr = .inactive) (hl : s.lvl = n + 1) (hd : n + 1 + a.depth ≤ maxIfNesting) (hf : s.falseLvl = 0)
    (hb : s.elseBits.getLsbD n = false) (he : a.exec W w = some (w', ev, k)) : Leaves W n s w a.flat w' ev k := by
  cases a with
  | endif =>
    simp only [Alts.exec, Option.some.injEq, Prod.mk.injEq] at he
    obtain ⟨rfl, rfl, rfl⟩ := he
    refine (if_pos rfl).mpr ⟨{ s with lvl := n, curr := .active }, ⟨rfl, rfl, hf, fun _ _ => rfl⟩, fun rest => ?_⟩
    have h1 : step W (s, w) (.dir (.endif false)) = (({ s with lvl := n, curr := .active }, w), []) := by
      simp [step, prepare, condAsmDirective, hl, hf, finish]
    rw [Alts.flat, List.singleton_append, lines_cond, h1]; rfl
  | els b =>
    simp only [Alts.exec] at he
    simp only [Alts.depth, maxIfNesting] at hd
    have hbt := bit_free (show n < 32 by omega) hb
    let s1 : State := { s with curr := .active, elseBits := s.elseBits ||| (1#32 <<< n) }
    have h1 : step W (s, w) (.dir (.els false)) = ((s1, w), []) := by
      simp [step, prepare, condAsmDirective, ha, hl, hf, hbt, finish, s1]
    have ih := exec_code W b s1 w w' ev k rfl hf (by simp [s1, hl, maxIfNesting]; omega) he
    have hl1 : s1.lvl = n + 1 := hl
    have hin : Leaves W n s1 w (b.flat ++ [.cond (.dir (.endif false))]) w' ev k := by
      refine leaves_then (m := s1.lvl) (by omega) ih fun s2 hs2 => ?_
      refine ⟨{ s2 with lvl := n, curr := .active }, ⟨rfl, rfl, hs2.2.2.1, fun _ _ => rfl⟩, fun _ w rest => ?_, fun _ rest => ?_⟩
      · have h2 : step W (s2, w) (.dir (.endif false)) = (({ s2 with lvl := n, curr := .active }, w), []) := by
          simp [step, prepare, condAsmDirective, hs2.2.1, hs2.2.2.1, hl1, finish]
        rw [List.singleton_append, lines_cond, h2]; rfl
      · have h2 : prepare s2 (.endif false) = ({ s2 with lvl := n, curr := .active }, []) := by
          simp [prepare, hs2.2.1, hs2.2.2.1, hl1]
        rw [List.singleton_append, skip_dir _ _ _ (by rw [h2]), h2]
    refine leaves_step (ev1 := []) (fun i hi => ?_) (fun rest => ?_) hin
    · have : i ≠ n := by omega
      simp [s1, set_bit _ _ _ (show n < 32 by omega), this]
    · rw [Alts.flat, List.cons_append, lines_cond, h1]; rfl
  | elseif c b a =>
    simp only [Alts.exec, Option.bind_eq_some_iff, Option.some.injEq] at he
    obtain ⟨t, ht, ⟨w1, ev1, k1⟩, he1, he3⟩ := he
    simp only [Prod.mk.injEq] at he3
    obtain ⟨rfl, rfl, rfl⟩ := he3
    simp only [Alts.depth, maxIfNesting] at hd
    have hbt := bit_free (show n < 32 by omega) hb
    have hev := evalCond_truth W w c t ht
    let s1 : State := { s with curr := boolState t }
    have h1 : step W (s, w) (.dir (.elseifx c)) = ((s1, w), [.eval c]) := by
      simp [step, prepare, condAsmDirective, ha, hl, hf, hbt, hev, s1]
    have hl1 : s1.lvl = n + 1 := hl
    have hin : Leaves W n s1 w (b.flat ++ a.flat) w1 ev1 k1 := by
      cases t with
      | true =>
        simp only [if_true] at he1
        have ihb := exec_code W b s1 w w1 ev1 k1 rfl hf (by rw [hl1]; simp [maxIfNesting]; omega) he1
        refine leaves_then (m := s1.lvl) (by omega) ihb fun s2 hs2 => ?_
        have hb2 : s2.elseBits.getLsbD n = false := by
          rw [hs2.2.2.2 n (by omega)]; exact hb
        obtain ⟨s3, hs3, hr3, hk3⟩ := past_alts W a s2 n (by rw [hs2.1]; simp) (by rw [hs2.2.1, hl1]) (by omega) hs2.2.2.1 hb2
        exact ⟨s3, hs3, fun _ => hr3, fun _ => hk3⟩
      | false =>
        simp only [Bool.false_eq_true, if_false] at he1
        have iha := exec_alts W a s1 w w1 ev1 k1 n rfl hl (by simp [maxIfNesting]; omega) hf hb he1
        refine leaves_step (ev1 := []) (fun _ _ => rfl) (fun rest => ?_) iha
        rw [List.append_assoc, off_code W b s1 w (by simp [s1, boolState]) (by simp [s1, hl])]; rfl
    refine leaves_step (s1 := s1) (ev1 := [.cond (.eval c)]) (fun _ _ => rfl) (fun rest => ?_) hin
    rw [Alts.flat, List.cons_append, lines_cond, h1]; rfl
end

end Verif.MacroRun
