import Verif.CondAsm.Proofs
/-! # Property theorems: conditional assembly (C01, C02, C33) -/
namespace Verif.CondAsm

theorem errors_eq (l : List Event) : errors l = l.filterMap isErr := by
  induction l with
  | nil => rfl
  | cons e r ih => cases e <;> simp [errors, isErr, ih, List.filterMap_cons]

/-- **C01** Conditional assembly selects exactly the right lines.
For every structured text nested at most 20 deep, in every world: the line-by-line machine of the assembler performs
exactly the events (lines assembled, conditions evaluated, in order, no diagnostics) and ends in exactly the world
that the big-step meaning prescribes, and is back in its initial state (no block open). -/
theorem C01_selects {σ} (W : World σ) (bits : BitVec 32) (w w' : σ) (src : Src) (ev : List Event)
    (hd : src.depth ≤ 20) (he : src.exec W w = some (w', ev)) :
    ∃ bits', run W (condInit bits, w) src.flat = ((condInit bits', w'), ev) ∧ condCheckOpen (condInit bits') = [] := by
  obtain ⟨s', hr, h1, h2, h3, _⟩ := exec_src W src (condInit bits) w w' ev rfl rfl (by simpa [condInit, maxIfNesting] using hd) he
  refine ⟨s'.elseBits, ?_, by simp [condCheckOpen, condInit]⟩
  rw [hr]
  obtain ⟨c, l, f, b⟩ := s'
  simp only [condInit] at h1 h2 h3 ⊢
  subst h1 h2 h3; rfl

/-- **C01** (inside any enclosing blocks) The same for text met at any point where assembly is on:
the enclosing blocks and their ELSE marks are untouched. -/
theorem C01_selects_nested {σ} (W : World σ) (s : State) (w w' : σ) (src : Src) (ev : List Event)
    (ha : s.curr = .active) (hf : s.falseLvl = 0)
    (hd : s.lvl + src.depth ≤ 20) (he : src.exec W w = some (w', ev)) :
    ∃ s', run W (s, w) src.flat = ((s', w'), ev) ∧ s'.curr = s.curr ∧ s'.lvl = s.lvl ∧ s'.falseLvl = s.falseLvl ∧
      ∀ i < s.lvl, s'.elseBits.getLsbD i = s.elseBits.getLsbD i := by
  obtain ⟨s', hr, h1, h2, h3, h4⟩ := exec_src W src s w w' ev ha hf hd he
  exact ⟨s', hr, by rw [h1, ha], h2, by rw [h3, hf], h4⟩

/-- **C01** (skipping) Text inside a branch that is not taken is inert: whatever it contains, no line is assembled,
no condition is evaluated, no diagnostic appears, the world and the block structure do not change. -/
theorem C01_skipped_text_is_inert {σ} (W : World σ) (s : State) (w : σ) (src : Src)
    (hc : s.curr ≠ .active) (h0 : s.lvl ≠ 0) : run W (s, w) src.flat = ((s, w), []) :=
  skip_src W src s w hc h0

/-- A sample world: symbol 1 is defined from the moment line 7 has been assembled; expression `e` has value `e`. -/
def sampleWorld : World Bool where
  assemble := fun b n => b || n == 7
  evalNum := fun _ e => .const (BitVec.ofNat 64 e)
  isDefined := fun b n => b && n == 1
  setif2 := fun _ => false
  garbage := fun _ => .active

def sampleSrc : Src :=
  .line 7 (.block ⟨.sym true, .name 1, false⟩ (.line 1 .nil)
    (.elseif ⟨.num false, .expr 3, false⟩
      (.block ⟨.blk false, .text [32, 65], false⟩ (.line 2 .nil) (.els (.line 3 .nil)) .nil)
      (.els (.line 4 .nil)))
    (.line 5 .nil))

/-- Non-vacuity of C01. -/
example : sampleSrc.depth ≤ 20 ∧ sampleSrc.exec sampleWorld false = some (true,
    [.asm 7, .eval ⟨.sym true, .name 1, false⟩, .eval ⟨.num false, .expr 3, false⟩,
     .eval ⟨.blk false, .text [32, 65], false⟩, .asm 3, .asm 5]) := by decide

theorem sim_run {σ} (W : World σ) (ls : List Line) (hA : Acceptable W ls) :
    ∀ (s : State) (w : σ) (k : Stack), Sim s k →
    match checkText W w k ls with
    | .ok k' => Sim (run W (s, w) ls).1.1 k' ∧ (run W (s, w) ls).2.filterMap isErr = []
    | .error e => ((run W (s, w) ls).2.filterMap isErr).head? = some e := by
  induction ls with
  | nil => intro s w k h; exact ⟨h, rfl⟩
  | cons l ls ih =>
    intro s w k h
    have hok : l.ok W w (fun c => (truth W w c).getD false) := by
      have := hA l (List.mem_cons_self)
      cases l with
      | plain n => trivial
      | dir d =>
        cases d with
        | ifx c =>
          obtain ⟨b, hb⟩ := Option.ne_none_iff_exists'.mp (this w)
          simp only [Line.ok, hb, Option.getD_some]; exact evalCond_truth W w c b hb
        | elseifx c =>
          obtain ⟨b, hb⟩ := Option.ne_none_iff_exists'.mp (this w)
          simp only [Line.ok, hb, Option.getD_some]; exact evalCond_truth W w c b hb
        | els t => exact this
        | endif t => exact this
    have hstep := sim_step W w _ s k l h hok
    have hw : (step W (s, w) l).1.2 = nextWorld W k w l := by
      clear hok hstep hA
      cases l with
      | plain n =>
        simp only [step, nextWorld]
        by_cases hl : k.live = true
        · simp [hl, h.live_iff.mp hl]
        · have : s.curr ≠ .active := fun hh => hl (h.live_iff.mpr hh)
          simp [hl, this]
      | dir d => rfl
    simp only [checkText]
    cases hk : k.check (fun c => (truth W w c).getD false) l with
    | error e =>
      rw [hk] at hstep
      simp only [run, List.filterMap_append, List.head?_append, hstep, Option.some_or]
    | ok k' =>
      rw [hk] at hstep
      obtain ⟨hs', hn⟩ := hstep
      have := ih (fun l' hl' => hA l' (List.mem_cons_of_mem _ hl')) (step W (s, w) l).1.1 (step W (s, w) l).1.2 k' hs'
      rw [hw] at this
      simp only [run, List.filterMap_append, hn, List.nil_append]
      rw [show (step W (s, w) l).1 = ((step W (s, w) l).1.1, nextWorld W k w l) from Prod.ext rfl hw]
      exact this

/-- **C02** Malformed conditional blocks are diagnosed, for every directive history.
If the textbook stack check finds a structural error (stray ELSE/ELSEIF/ENDIF, second ELSE or ELSEIF after ELSE,
more than 20 live nested blocks), the *first* diagnostic of the assembler is exactly that error. If it finds none, the
assembler emits none, and at the end of the module an "open block" error is reported iff a block is left open. -/
theorem C02_diagnoses {σ} (W : World σ) (w : σ) (bits : BitVec 32) (ls : List Line) (hA : Acceptable W ls) :
    match checkText W w ⟨[], 0⟩ ls with
    | .error e => (errors (run W (condInit bits, w) ls).2).head? = some e
    | .ok k => errors (run W (condInit bits, w) ls).2 = [] ∧
        (condCheckOpen (run W (condInit bits, w) ls).1.1 = if k.frames = [] then [] else [.openBlock]) := by
  have h0 : Sim (condInit bits) ⟨[], 0⟩ :=
    ⟨rfl, by simp, rfl, rfl, by simp, by simp, by simp⟩
  have := sim_run W ls hA (condInit bits) w ⟨[], 0⟩ h0
  cases hc : checkText W w ⟨[], 0⟩ ls with
  | error e => rw [hc] at this; simp only [errors_eq]; exact this
  | ok k =>
    rw [hc] at this
    obtain ⟨hs, hn⟩ := this
    refine ⟨by rw [errors_eq]; exact hn, ?_⟩
    unfold condCheckOpen
    rw [hs.lvl]
    cases k.frames <;> simp

/-- Non-vacuity of C02: a second ELSE is found by the check, in acceptable text; and a well-formed history passes. -/
example : Acceptable sampleWorld [.dir (.ifx ⟨.pass1, .none, false⟩), .dir (.els false), .plain 3, .dir (.els false)] := by
  intro l hl; simp at hl; rcases hl with rfl | rfl | rfl | rfl <;> simp [truth]
example : (checkText sampleWorld false ⟨[], 0⟩
    [.dir (.ifx ⟨.pass1, .none, false⟩), .dir (.els false), .plain 3, .dir (.els false)]).toOption = none := by decide
example : (checkText sampleWorld false ⟨[], 0⟩
    [.dir (.ifx ⟨.pass1, .none, false⟩), .dir (.els false), .dir (.endif false)]).toOption = some ⟨[], 0⟩ := by decide

/-- **C33** (partial) Every acceptable condition evaluates to its documented truth value: IF/IFE by the value being
nonzero/zero, IFDEF/IFNDEF, IFB/IFNB, IFDIF/IFIDN with and without case, IF1, IF2 - with no diagnostic.
Missing for the full property: a numeric value that is nonzero but a multiple of 2^32 counts as zero, see
`C33_wide_value_counts_as_zero`. -/
theorem C33_condition_truth_partial {σ} (W : World σ) (w : σ) (c : Cond) (b : Bool) (h : truth W w c = some b) :
    evalCond W w c = (some (if b then .active else .inactive), []) :=
  evalCond_truth W w c b h

/-- **C33** counterexample: `IF 100000000h` is *not* assembled, although the value is not zero. -/
theorem C33_wide_value_counts_as_zero {σ} (W : World σ) (w : σ) (e : Nat)
    (h : W.evalNum w e = .const (BitVec.ofNat 64 0x100000000)) :
    evalCond W w ⟨.num false, .expr e, false⟩ = (some .inactive, []) := by
  simp only [evalCond, h]; rfl

/-- **C33** finding: `IF2` without OPTION SETIF2 assigns an uninitialised variable to the block state: the outcome is
whatever that variable held. -/
theorem C33_if2_uninitialised {σ} (W : World σ) (w : σ) (h : W.setif2 w = false) :
    evalCond W w ⟨.pass2, .none, false⟩ = (some (W.garbage w), [.if2NotAllowed]) := by
  simp [evalCond, h, finish]

end Verif.CondAsm
