import Verif.Switch.Body
namespace Verif.Switch

variable {σ : Type} {env : Env}

theorem valueOf_eq (m : Mode) (c : Int) : valueOf m c = caseVal m c := by cases m <;> rfl

theorem nolab_ins (l : Lbl) (is : List Ins) : NoLab (σ := σ) l (is.map .ins) := by
  intro x hx
  simp only [List.mem_map] at hx
  obtain ⟨i, _, rfl⟩ := hx
  simp

theorem nolab_app {l : Lbl} {a b : List (Line σ)} (h1 : NoLab l a) (h2 : NoLab l b) : NoLab l (a ++ b) := by
  intro x hx
  rw [List.mem_append] at hx
  exact hx.elim (h1 x) (h2 x)

theorem nolab_cons {l : Lbl} {x : Line σ} {b : List (Line σ)} (h1 : x ≠ .lab l) (h2 : NoLab l b) : NoLab l (x :: b) := by
  intro y hy
  rw [List.mem_cons] at hy
  rcases hy with rfl | hy
  · exact h1
  · exact h2 y hy

theorem nolab_nil (l : Lbl) : NoLab (σ := σ) l [] := by intro x hx; simp at hx

theorem ld_spec (is64 : Bool) (k : OpKind) (hk : k ≠ .other) (val : X σ → BitVec 64) (m : Mode) (ld : List (Line σ))
    (h : switchOperand is64 k val = some (m, ld)) (prog rest : List (Line σ)) (s : St σ) :
    Reach env m prog (ld ++ rest, s) (rest, { s with r := s.r.set .ax (opVal k val (s.r, s.u)) }) ∧ ∀ l, NoLab l ld := by
  have hload : ∀ a, val (s.r, s.u) = a → Reach env m prog ([.loadOp val] ++ rest, s) (rest, { s with r := s.r.set .ax a }) := by
    intro a e; subst e; exact Reach.one rfl
  have hno : ∀ l, NoLab l [Line.loadOp val] := by intro l x hx; simp at hx; rw [hx]; simp
  have hnil : Reach env m prog (([] : List (Line σ)) ++ rest, s) (rest, { s with r := s.r.set .ax (s.r .ax) }) := by
    rw [set_ax_self]; exact .refl _
  cases is64 <;> cases k <;>
    simp only [switchOperand, Bool.false_eq_true, ↓reduceIte, Option.some.injEq, Prod.mk.injEq, reduceCtorEq] at h <;>
    first
      | exact absurd rfl hk
      | (obtain ⟨rfl, rfl⟩ := h; exact ⟨hload _ rfl, hno⟩)
      | (obtain ⟨rfl, rfl⟩ := h; exact ⟨hnil, fun l => nolab_nil l⟩)
      | (split at h
         · simp only [Option.some.injEq, Prod.mk.injEq] at h
           obtain ⟨rfl, rfl⟩ := h; exact ⟨hload _ rfl, hno⟩
         · simp at h)

theorem find_iff (cs : List (Int × Nat)) (h : (cs.map (·.1)).Nodup) (v : Int) (l : Nat) (hm : (v, l) ∈ cs) (dl : Lbl) :
    tgt dl cs v = .case l := by
  rw [← tgt_perm dl cs h]
  unfold tgt
  have := find_mem _ (sort_sorted cs h) (v, l) ((sort_perm cs).mem_iff.mpr hm)
  simp only at this
  rw [this]

theorem seekCase_suffix (m : Mode) (v : BitVec 64) (ds r : List (Dir σ)) (h : seekCase m v ds = some r) : ∃ x p, ds = p ++ x :: r ∧ x ≠ .brk := by
  induction ds with
  | nil => simp [seekCase] at h
  | cons x xs ih =>
    have go : seekCase m v xs = some r → ∃ y p, x :: xs = p ++ y :: r ∧ y ≠ .brk := by
      intro h
      obtain ⟨y, p, e, hy⟩ := ih h
      exact ⟨y, x :: p, by rw [e]; rfl, hy⟩
    cases x with
    | case vs =>
      simp only [seekCase] at h
      split at h
      · simp only [Option.some.injEq] at h; subst h; exact ⟨.case vs, [], rfl, by simp⟩
      · exact go h
    | dflt => exact go h
    | brk => exact go h
    | brkIf p => exact go h
    | stm f => exact go h

theorem seekDflt_suffix (ds r : List (Dir σ)) (h : seekDflt ds = some r) : ∃ x p, ds = p ++ x :: r ∧ x ≠ .brk := by
  induction ds with
  | nil => simp [seekDflt] at h
  | cons x xs ih =>
    have go : seekDflt xs = some r → ∃ y p, x :: xs = p ++ y :: r ∧ y ≠ .brk := by
      intro h
      obtain ⟨y, p, e, hy⟩ := ih h
      exact ⟨y, x :: p, by rw [e]; rfl, hy⟩
    cases x with
    | dflt => simp only [seekDflt, Option.some.injEq] at h; subst h; exact ⟨.dflt, [], rfl, by simp⟩
    | case vs => exact go h
    | brk => exact go h
    | brkIf p => exact go h
    | stm f => exact go h

theorem ends_suffix (ds p r : List (Dir σ)) (x : Dir σ) (h : EndsWithBreak ds) (e : ds = p ++ x :: r) (hx : x ≠ .brk) : EndsWithBreak r := by
  obtain ⟨q, hq⟩ := h
  rcases List.eq_nil_or_concat r with rfl | ⟨r', y, rfl⟩
  · rw [hq] at e
    have := List.append_inj_right' e rfl
    simp at this; exact absurd this.symm hx
  · rw [hq] at e
    have : q ++ [Dir.brk] = (p ++ x :: r') ++ [y] := by rw [e]; simp
    have := List.append_inj_right' this rfl
    simp at this
    exact ⟨r', by rw [← this]; simp⟩

/-- up to 36 constants always fit into the tables -/
theorem C68_small_blocks (m : Mode) (cs : List Int) (hn : cs.length ≤ 36)
    (small : ∀ c ∈ cs, -2147483648 ≤ valueOf m c ∧ valueOf m c < 2147483648)
    (span : ∀ a ∈ cs, ∀ b ∈ cs, valueOf m a - valueOf m b < 536870912) : GoodConsts m cs := by
  refine ⟨small, span, ?_⟩
  intro a ha b hb _
  have : 0 < cs.length := List.length_pos_of_mem ha
  unfold TablesFit
  constructor <;> omega

/-- the operand is compared with all its bits: an accepted block has the mode of the size of its operand -/
theorem C68_operand_size (is64 : Bool) (swsize : Int) (cnt : Nat) (k : OpKind) (val : X σ → BitVec 64) (ds : List (Dir σ))
    (o : Out σ) (h : assemble is64 swsize cnt k val ds = some o) : o.mode = modeFor is64 k := by
  unfold assemble at h
  cases h1 : switchOperand is64 k val with
  | none => simp [h1] at h
  | some p1 =>
    obtain ⟨m, ld⟩ := p1
    have hm : o.mode = m := by
      simp only [h1] at h
      split at h
      · cases h
      · split at h
        · cases h
        · split at h
          · cases h
          · cases h; rfl
    rw [hm]
    cases is64 <;> cases k <;>
      simp only [switchOperand, Bool.false_eq_true, ↓reduceIte, Option.some.injEq, Prod.mk.injEq, reduceCtorEq] at h1
    all_goals (try split at h1)
    all_goals (try cases h1)
    all_goals simp_all [modeFor]

/-- **C68**: the code of a `.SWITCH` block executes the statements of the `.CASE` that has the value of the operand (of
    `.DEFAULT`, if no `.CASE` has it), up to the first `.BREAK`; only the accumulator may have been changed before. -/
theorem C68_switch_partial (is64 : Bool) (swsize : Int) (hs0 : 0 ≤ swsize) (hsw : swsize ≤ 0x8000) (cnt : Nat) (k : OpKind)
    (hk : k ≠ .other) (val : X σ → BitVec 64) (ds : List (Dir σ)) (o : Out σ)
    (h : assemble is64 swsize cnt k val ds = some o) (hp : Placed env o) (hl : Layout env o.code)
    (hcnt : cnt + ds.length < 65536) (hsep : Separated ds) (hend : EndsWithBreak ds) (hc : GoodConsts o.mode (consts ds))
    (s : St σ) (hop : o.mode = .m64d → (opVal k val (s.r, s.u)).toNat < 4294967296) :
    ∃ ax fl, Reach env o.mode o.code (o.code, s)
      ([], { s with
        r := (run (entry o.mode (opVal k val (s.r, s.u)) ds) (s.r.set .ax ax, s.u)).1
        u := (run (entry o.mode (opVal k val (s.r, s.u)) ds) (s.r.set .ax ax, s.u)).2
        fl := fl }) := by
  unfold assemble at h
  cases h1 : switchOperand is64 k val with
  | none => simp [h1] at h
  | some p1 =>
  obtain ⟨m, ld⟩ := p1
  simp only [h1] at h
  cases h2 : dirs m { cnt := cnt } ds with
  | none => simp [h2] at h
  | some p2 =>
  obtain ⟨d, body⟩ := p2
  simp only [h2] at h
  by_cases hne : d.cases = []
  · simp [hne] at h
  simp only [if_neg hne] at h
  generalize hdl : (if d.dflt = true then Lbl.dflt else Lbl.exit) = dl at h
  cases h3 : tables m (method m swsize (sortCases d.cases)) dl (sortCases d.cases) with
  | none => simp [h3] at h
  | some p3 =>
  obtain ⟨t1, t2, w2⟩ := p3
  simp only [h3, Option.some.injEq] at h
  subst h
  simp only at hl hc hop ⊢
  generalize hme : method m swsize (sortCases d.cases) = me at *
  generalize hD : (if d.dflt = true then ([] : List (Line σ)) else [.lab .dflt]) = D at *
  have hpl : PlacedAt env m t1 t2 w2 := ⟨hp.t1, hp.t2⟩
  -- the whole program
  generalize hpg : ld ++ .ins (.jmp .start) :: body ++ D ++ .lab .start :: dispatch m me dl d.cases (sortCases d.cases) ++ [.lab .exit] = prog at *
  obtain ⟨hld, hldn⟩ := ld_spec (env := env) is64 k hk val m ld h1 prog
    (.ins (.jmp .start) :: body ++ D ++ .lab .start :: dispatch m me dl d.cases (sortCases d.cases) ++ [.lab .exit]) s
  obtain ⟨c1, c2⟩ := dirs_cases ds _ _ _ h2
  simp only [List.map_nil, List.nil_append] at c1 c2
  have hnd := c2 (by simp)
  have hlabs := dirs_labs ds _ _ _ h2
  have hbn : ∀ l, l = .start ∨ l = .exit ∨ l = .top ∨ l = .jump ∨ l = .skip ∨ l = .cont → NoLab l body := by
    intro l hl x hx e
    rcases hlabs x hx l e with ⟨n, e, _⟩ | ⟨e, _⟩ <;> subst e <;> simp at hl
  have hDn : ∀ l, l ≠ .dflt → NoLab l D := by
    intro l hl; rw [← hD]; split
    · exact nolab_nil l
    · exact nolab_cons (by simp; exact fun e => hl e.symm) (nolab_nil l)
  have hstart : after .start prog = some (dispatch m me dl d.cases (sortCases d.cases) ++ [.lab .exit]) := by
    rw [← hpg, show ld ++ Line.ins (Ins.jmp Lbl.start) :: body ++ D ++
      Line.lab Lbl.start :: dispatch m me dl d.cases (sortCases d.cases) ++ [Line.lab Lbl.exit] =
      (ld ++ (Line.ins (Ins.jmp Lbl.start) :: (body ++ D))) ++ .lab .start :: (dispatch m me dl d.cases (sortCases d.cases) ++ [.lab .exit]) from by simp]
    exact after_hit _ _ _ (nolab_app (hldn _) (nolab_cons (by simp) (nolab_app (hbn _ (.inl rfl)) (hDn _ (by simp)))))
  have hpre : ∀ l, l = .exit ∨ l = .top ∨ l = .jump ∨ l = .skip ∨ l = .cont →
      NoLab l (ld ++ .ins (.jmp .start) :: body ++ D ++ [.lab .start]) := by
    intro l hl
    refine nolab_app (nolab_app (nolab_app (hldn _) (nolab_cons (by simp) (hbn l (.inr hl)))) (hDn l ?_)) (nolab_cons ?_ (nolab_nil l))
    · rintro rfl; simp at hl
    · intro e; cases e; simp at hl
  have hot : ∀ l (is : List Ins), NoLab (σ := σ) l (onTree me is) := by
    intro l is; unfold onTree; split
    · exact nolab_ins l is
    · exact nolab_nil l
  have hexit : after .exit prog = some [] := by
    rw [← hpg, show ld ++ Line.ins (Ins.jmp Lbl.start) :: body ++ D ++
      Line.lab Lbl.start :: dispatch m me dl d.cases (sortCases d.cases) ++ [Line.lab Lbl.exit] =
      (ld ++ .ins (.jmp .start) :: body ++ D ++ [.lab .start] ++ dispatch m me dl d.cases (sortCases d.cases)) ++ .lab .exit :: [] from by simp]
    refine after_hit _ _ _ (nolab_app (hpre _ (.inl rfl)) ?_)
    unfold dispatch
    exact nolab_app (nolab_app (nolab_app (nolab_app (nolab_ins _ _) (nolab_cons (by simp) (hot _ _))) (nolab_cons (by simp) (hot _ _))) (nolab_cons (by simp) (hot _ _))) (nolab_cons (by simp) (hot _ _))
  have htree : me = .tree → ∃ rt rj rc, TreeAt m dl prog rt rj rc ∧
      ∃ rest', dispatch m me dl d.cases (sortCases d.cases) ++ [.lab .exit] =
        (treeInit m dl d.cases.length).map .ins ++ .lab .top :: ((treeTop m).map .ins ++ rt) ++ rest' ∧ rest' = [] := by
    intro e
    subst e
    have q : ∀ (l : Lbl) (a : List (Line σ)), (l = .top ∨ l = .jump ∨ l = .skip ∨ l = .cont) → NoLab l a →
        NoLab l ((ld ++ .ins (.jmp .start) :: body ++ D ++ [.lab .start]) ++ a) := fun l a hl ha => nolab_app (hpre l (.inr hl)) ha
    refine ⟨.lab .jump :: ((treeJump m).map .ins ++ .lab .skip :: ((treeSkip m).map .ins ++ .lab .cont :: ((treeCont m dl).map .ins ++ [.lab .exit]))),
      .lab .skip :: ((treeSkip m).map .ins ++ .lab .cont :: ((treeCont m dl).map .ins ++ [.lab .exit])), [.lab .exit], ⟨?_, ?_, ?_, ?_⟩, [], ?_, rfl⟩
    · rw [← hpg]
      refine Eq.trans (congrArg (after .top) ?_) (after_hit .top _ _ (q .top ((treeInit m dl d.cases.length).map .ins) (by simp) (nolab_ins _ _)))
      simp [dispatch, headCode, onTree]
    · rw [← hpg]
      refine Eq.trans (congrArg (after .jump) ?_) (after_hit .jump _ _ (q .jump ((treeInit m dl d.cases.length).map .ins ++ .lab .top :: (treeTop m).map .ins) (by simp)
        (nolab_app (nolab_ins _ _) (nolab_cons (by simp) (nolab_ins _ _)))))
      simp [dispatch, headCode, onTree]
    · rw [← hpg]
      refine Eq.trans (congrArg (after .skip) ?_) (after_hit .skip _ _ (q .skip ((treeInit m dl d.cases.length).map .ins ++ .lab .top :: ((treeTop m).map .ins ++ .lab .jump :: (treeJump m).map .ins)) (by simp)
        (nolab_app (nolab_ins _ _) (nolab_cons (by simp) (nolab_app (nolab_ins _ _) (nolab_cons (by simp) (nolab_ins _ _)))))))
      simp [dispatch, headCode, onTree]
    · rw [← hpg]
      refine Eq.trans (congrArg (after .cont) ?_) (after_hit .cont _ _ (q .cont ((treeInit m dl d.cases.length).map .ins ++ .lab .top :: ((treeTop m).map .ins ++ .lab .jump :: ((treeJump m).map .ins ++ .lab .skip :: (treeSkip m).map .ins))) (by simp)
        (nolab_app (nolab_ins _ _) (nolab_cons (by simp) (nolab_app (nolab_ins _ _) (nolab_cons (by simp) (nolab_app (nolab_ins _ _) (nolab_cons (by simp) (nolab_ins _ _)))))))))
      simp [dispatch, headCode, onTree]
    · simp [dispatch, headCode, onTree]
  -- the labels of the cases
  generalize hv : opVal k val (s.r, s.u) = v at *
  have hprog' : prog = (ld ++ [.ins (.jmp .start)]) ++ body ++ (D ++ .lab .start :: dispatch m me dl d.cases (sortCases d.cases) ++ [.lab .exit]) := by
    rw [← hpg]; simp
  obtain ⟨g1, g2, g3, _⟩ := dirs_hit (D ++ .lab .start :: dispatch m me dl d.cases (sortCases d.cases) ++ [.lab .exit]) v ds _ d body h2 false hsep hcnt
    (ld ++ [.ins (.jmp .start)]) hprog'
    (fun n _ => nolab_app (hldn _) (nolab_cons (by simp) (nolab_nil _))) (by simp)
  simp only [List.not_mem_nil, false_or] at g1 g3
  -- the constants
  have hval : ∀ c ∈ d.cases, ∃ w ∈ consts ds, valueOf m w = c.1 := by
    intro c hc'
    have : c.1 ∈ d.cases.map (·.1) := List.mem_map.mpr ⟨c, hc', rfl⟩
    rw [c1, List.mem_map] at this
    obtain ⟨w, hw, e⟩ := this
    exact ⟨w, hw, by rw [valueOf_eq]; exact e⟩
  have hval' : ∀ w ∈ consts ds, ∃ c ∈ d.cases, valueOf m w = c.1 := by
    intro w hw
    have : caseVal m w ∈ d.cases.map (·.1) := by rw [c1]; exact List.mem_map.mpr ⟨w, hw, rfl⟩
    rw [List.mem_map] at this
    obtain ⟨c, hc, e⟩ := this
    exact ⟨c, hc, by rw [valueOf_eq]; exact e.symm⟩
  have hsm := fun c => (sort_perm d.cases).mem_iff (a := c)
  have hgood : Good (sortCases d.cases) := by
    refine ⟨sort_sorted _ hnd, ?_, ?_⟩
    · intro c hcm
      obtain ⟨w, hw, e⟩ := hval c ((hsm c).mp hcm)
      rw [← e]; exact hc.small w hw
    · intro a ham b hbm
      obtain ⟨w, hw, e⟩ := hval a ((hsm a).mp ham)
      obtain ⟨w', hw', e'⟩ := hval b ((hsm b).mp hbm)
      rw [← e, ← e']; exact hc.span w hw w' hw'
  have hne' : sortCases d.cases ≠ [] := by
    intro e; have := (sort_perm d.cases).length_eq; rw [e] at this; exact hne (List.length_eq_zero_iff.mp this.symm)
  have hfit : TablesFit d.cases.length (maxOf (sortCases d.cases) - minOf (sortCases d.cases)) := by
    obtain ⟨a, ha, ea⟩ := maxOf_mem _ hne'
    obtain ⟨b, hb, eb⟩ := minOf_mem _ hne'
    obtain ⟨wa, hwa, ewa⟩ := hval a ((hsm a).mp ha)
    obtain ⟨wb, hwb, ewb⟩ := hval b ((hsm b).mp hb)
    have hlen : d.cases.length = (consts ds).length := by
      have := congrArg List.length c1; simpa using this
    rw [ea, eb, hlen, ← ewa, ← ewb]
    refine hc.fit wa hwa wb hwb ?_
    intro c hcm
    obtain ⟨x, hx, ex⟩ := hval' c hcm
    rw [ewa, ewb, ex, ← ea, ← eb]
    exact ⟨minOf_le _ hgood.asc x ((hsm x).mpr hx), le_maxOf _ hgood.asc x ((hsm x).mpr hx)⟩
  -- the default
  have hdfl := dirs_dflt ds _ _ _ h2 rfl
  have hdst : ∃ rd, after dl prog = some rd ∧
      ((seekDflt ds = none ∧ rd = []) ∨ ∃ r d1 b1, seekDflt ds = some r ∧ dirs m d1 r = some (d, b1) ∧
        rd = b1 ++ (D ++ .lab .start :: dispatch m me dl d.cases (sortCases d.cases) ++ [.lab .exit])) := by
    rcases hdfl with ⟨e1, e2⟩ | ⟨e1, r, d1, p, b1, e2, e3, e4, e5⟩
    · rw [e1] at hdl
      simp only [Bool.false_eq_true, ↓reduceIte] at hdl
      subst hdl
      exact ⟨[], hexit, .inl ⟨e2, rfl⟩⟩
    · rw [e1] at hdl
      simp only [↓reduceIte] at hdl
      subst hdl
      refine ⟨_, ?_, .inr ⟨r, d1, b1, e2, e3, rfl⟩⟩
      rw [hprog', e4]
      refine Eq.trans (congrArg (after .dflt) ?_) (after_hit .dflt (ld ++ .ins (.jmp .start) :: p) _ (nolab_app (hldn _) (nolab_cons (by simp) e5)))
      simp
  obtain ⟨rd, hrd, hdst⟩ := hdst
  have hgo := dispatch_spec (env := env) hl dl swsize hs0 (by omega) d.cases hne hnd hgood (fun c hc => (g1 c hc).1) hfit t1 t2 w2
    (by rw [hme]; exact h3) hpl [.lab .exit] (by rw [hme]; exact htree) (fun c hc => (g1 c hc).2) rd hrd
    { s with r := s.r.set .ax v } (by
      intro e
      simp only [set_get]
      apply BitVec.eq_of_toNat_eq
      have := hop e
      simp only [BitVec.toNat_setWidth]
      omega)
  rw [hme] at hgo
  simp only [set_get] at hgo
  obtain ⟨rt, hrt, ax, fl, hreach⟩ := hgo
  have hfirst : Reach env m prog (prog, s) (dispatch m me dl d.cases (sortCases d.cases) ++ [.lab .exit], { s with r := s.r.set .ax v }) := by
    have := hld.trans (Reach.one (step_jmp (env := env) (m := m) (rest := body ++ D ++ .lab .start :: dispatch m me dl d.cases (sortCases d.cases) ++ [.lab .exit]) hstart))
    have e : ld ++ (Line.ins (Ins.jmp Lbl.start) :: body ++ D ++ Line.lab Lbl.start :: dispatch m me dl d.cases (sortCases d.cases) ++ [Line.lab Lbl.exit]) = prog := by
      rw [← hpg]; simp
    rw [e] at this
    exact this
  have hto := hfirst.trans hreach
  simp only [set_set] at hto
  -- execution of the statements, from lines behind labels
  have fin : ∀ (r : List (Dir σ)) (d1 : DSt) (labs b1 tl : List (Line σ)), EndsWithBreak r → dirs m d1 r = some (d, b1) →
      OnlyLabs labs → rt = labs ++ b1 ++ tl →
      ∃ ax fl, Reach env m prog (prog, s)
        ([], { s with r := (run r (s.r.set .ax ax, s.u)).1, u := (run r (s.r.set .ax ax, s.u)).2, fl := fl }) := by
    intro r d1 labs b1 tl he hd1 hol hrt'
    refine ⟨ax, fl, ?_⟩
    -- strip drops labels; from the stripped lines and from the lines themselves the same is reached
    have hb := body_run (env := env) (m := m) [] hexit r he d1 d b1 tl hd1 { s with r := s.r.set .ax ax, fl := fl }
    rw [hrt', List.append_assoc, strip_labs _ _ hol] at hto
    exact hto.trans (strip_reach _ _ _ hb)
  cases hseek : seekCase m v ds with
  | some r =>
    obtain ⟨l, hlm, labs, b1, d1, ha, hol, hd1⟩ := g2 r hseek
    rw [find_iff _ hnd _ _ hlm] at hrt
    rw [ha] at hrt
    simp only [Option.some.injEq] at hrt
    obtain ⟨x, p, e, hx⟩ := seekCase_suffix m v ds r hseek
    have := fin r d1 labs b1 _ (ends_suffix ds p r x hend e hx) hd1 hol hrt.symm
    simpa only [entry, hseek] using this
  | none =>
    have hmiss : tgt dl d.cases (sgn (opW m) v) = dl := by
      unfold tgt
      rw [find_none]
      intro l hl
      exact g3 hseek _ hl rfl
    rw [hmiss, hrd] at hrt
    simp only [Option.some.injEq] at hrt
    subst hrt
    rcases hdst with ⟨e1, e2⟩ | ⟨r, d1, b1, e1, e2, e3⟩
    · subst e2
      refine ⟨ax, fl, ?_⟩
      simpa [entry, hseek, e1, run, strip] using hto
    · obtain ⟨x, p, e, hx⟩ := seekDflt_suffix ds r e1
      have := fin r d1 [] b1 _ (ends_suffix ds p r x hend e hx) e2 (by intro y hy; simp at hy) e3
      simpa only [entry, hseek, e1, Option.getD_some] using this
where
  strip_reach {m : Mode} {prog : List (Line σ)} (a : List (Line σ)) (s : St σ) (e : St σ) (h : Reach env m prog (a, s) ([], e)) :
      Reach env m prog (strip a, s) ([], e) := by
    induction a with
    | nil => exact h
    | cons x xs ih =>
      cases x with
      | lab l =>
        cases h with
        | head h1 h2 =>
          simp only [step, Option.some.injEq] at h1
          subst h1
          exact ih h2
      | _ => exact h

end Verif.Switch
