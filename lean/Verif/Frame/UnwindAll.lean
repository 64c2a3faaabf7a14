import Verif.Frame.Unwind
/-! # Unwinding at every instruction boundary -/
namespace Verif.Frame

structure F.Ok (f : F) : Prop where
  pre : ∀ x ∈ f.pre, OnlyMem x
  rs : ∀ r ∈ f.rs, r < 16
  room : f.i + bytes f.vs ≤ f.N
  nodup : (f.vs.map (·.1)).Nodup
  v16 : ∀ p ∈ f.vs, 16 ≤ p.2
  vreg : ∀ p ∈ f.vs, p.1 < 16
  near : f.i + bytes f.vs < 1048576
  small : f.N < 4294967296
  lea : ∀ b o, f.lea = some (b, o) → 0 < b ∧ b < 16 ∧ o < 4294967296 ∧ b ∈ f.rs

theorem prefix_app {α : Type} {x y a b : List α} (h : x ++ y = a ++ b) :
    (∃ c, x = a ++ c) ∨ (∃ c, a = x ++ c ∧ y = c ++ b) := by
  rcases List.append_eq_append_iff.1 h with ⟨c, h1, h2⟩ | ⟨c, h1, _⟩
  · exact .inr ⟨c, h1, h2⟩
  · exact .inl ⟨c, h1⟩

/-- The executed part of a prologue. -/
structure Part (f : F) (a : List Step) (pre : List Ins) (rs : List Nat) (N i : Nat) (vs : List (Nat × Nat))
    (lea : Option (Nat × Nat)) : Prop where
  eq : a = pre.map (fun i => (i, none)) ++ (pushSteps rs ++ (subSteps N ++ (vputSteps i vs ++ leaSteps lea)))
  hpre : pre <+: f.pre
  hrs : rs <+: f.rs
  room : i + bytes vs ≤ N
  hvs : vs <+: f.vs
  hlea : lea ≠ none → lea = f.lea ∧ rs = f.rs ∧ N = f.N ∧ vs = f.vs

theorem bytes_append (a b : List (Nat × Nat)) : bytes (a ++ b) = bytes a + bytes b := by simp [bytes]

theorem vput_prefix (i : Nat) (vs : List (Nat × Nat)) (a b : List Step) (h : vputSteps i vs = a ++ b) :
    ∃ v w, vs = v ++ w ∧ a = vputSteps i v := by
  induction vs generalizing i a with
  | nil =>
    have : a = [] := by cases a with | nil => rfl | cons x l => cases h
    exact ⟨[], [], rfl, this⟩
  | cons p l ih =>
    obtain ⟨r, n⟩ := p
    cases a with
    | nil => exact ⟨[], _, rfl, rfl⟩
    | cons x a =>
      simp only [vputSteps, List.cons_append, List.cons.injEq] at h
      obtain ⟨v, w, h1, h2⟩ := ih (i + n) a h.2
      exact ⟨(r, n) :: v, w, by rw [h1]; rfl, by rw [← h.1, h2]; rfl⟩

theorem F.part (f : F) (ok : f.Ok) (a b : List Step) (h : f.steps = a ++ b) :
    ∃ pre rs N i vs lea, Part f a pre rs N i vs lea := by
  unfold F.steps at h
  rcases prefix_app h with ⟨c, hc⟩ | ⟨a1, ha1, h1⟩
  · obtain ⟨p, q, hpq, hp, hq⟩ := List.map_eq_append_iff.1 hc
    exact ⟨p, [], 0, 0, [], none, by simp [← hp, pushSteps, subSteps, vputSteps, leaSteps], ⟨q, hpq.symm⟩,
      List.nil_prefix, by simp [bytes], List.nil_prefix, fun h => (h rfl).elim⟩
  rcases prefix_app h1 with ⟨c, hc⟩ | ⟨a2, ha2, h2⟩
  · obtain ⟨p, q, hpq, hp, hq⟩ := List.map_eq_append_iff.1 hc
    exact ⟨f.pre, p, 0, 0, [], none, by rw [ha1, ← hp]; simp [pushSteps, subSteps, vputSteps, leaSteps], List.prefix_rfl,
      ⟨q, hpq.symm⟩, by simp [bytes], List.nil_prefix, fun h => (h rfl).elim⟩
  rcases prefix_app h2 with ⟨c, hc⟩ | ⟨a3, ha3, h3⟩
  · have : a2 = [] ∨ a2 = subSteps f.N := by
      unfold subSteps at hc ⊢
      by_cases hN : f.N > 0
      · rw [if_pos hN] at hc ⊢
        cases a2 with
        | nil => exact .inl rfl
        | cons x l =>
          simp only [List.cons_append, List.cons.injEq] at hc
          have := hc.2
          cases l with
          | nil => right; rw [hc.1]
          | cons y l => cases this
      · rw [if_neg hN] at hc
        cases a2 with
        | nil => exact .inl rfl
        | cons x l => cases hc
    rcases this with e | e
    · exact ⟨f.pre, f.rs, 0, 0, [], none, by rw [ha1, ha2, e]; simp [subSteps, vputSteps, leaSteps], List.prefix_rfl,
        List.prefix_rfl, by simp [bytes], List.nil_prefix, fun h => (h rfl).elim⟩
    · exact ⟨f.pre, f.rs, f.N, 0, [], none, by rw [ha1, ha2, e]; simp [vputSteps, leaSteps], List.prefix_rfl,
        List.prefix_rfl, by simp [bytes], List.nil_prefix, fun h => (h rfl).elim⟩
  have hroom := ok.room
  rcases prefix_app h3 with ⟨c, hc⟩ | ⟨a4, ha4, h4⟩
  · obtain ⟨v, w, hvw, hv⟩ := vput_prefix _ _ _ _ hc
    refine ⟨f.pre, f.rs, f.N, f.i, v, none, by rw [ha1, ha2, ha3, hv]; simp [leaSteps], List.prefix_rfl,
        List.prefix_rfl, ?_, ⟨w, hvw.symm⟩, fun h => (h rfl).elim⟩
    rw [hvw, bytes_append] at hroom
    omega
  · have : a4 = [] ∨ a4 = leaSteps f.lea := by
      cases hl : f.lea with
      | none =>
        rw [hl] at h4
        cases a4 with
        | nil => exact .inl rfl
        | cons x l => cases h4
      | some q =>
        rw [hl] at h4
        cases a4 with
        | nil => exact .inl rfl
        | cons x l =>
          simp only [leaSteps, List.cons_append, List.cons.injEq] at h4
          have := h4.2
          cases l with
          | nil => right; rw [← h4.1]; rfl
          | cons y l => cases this
    rcases this with e | e
    · exact ⟨f.pre, f.rs, f.N, f.i, f.vs, none, by rw [ha1, ha2, ha3, ha4, e]; simp [leaSteps], List.prefix_rfl,
        List.prefix_rfl, hroom, List.prefix_rfl, fun h => (h rfl).elim⟩
    · exact ⟨f.pre, f.rs, f.N, f.i, f.vs, f.lea, by rw [ha1, ha2, ha3, ha4, e], List.prefix_rfl,
        List.prefix_rfl, hroom, List.prefix_rfl, fun _ => ⟨rfl, rfl, rfl, rfl⟩⟩

/-! ## Directives of the prologue -/

theorem mem_dirsAt (len : Ins → Nat) (pos : Nat) (ls : List Line) : ∀ p ∈ dirsAt len pos ls, .dir p.2 ∈ ls := by
  induction ls generalizing pos with
  | nil => intro p hp; cases hp
  | cons x l ih =>
    cases x with
    | ins i => intro p hp; exact List.mem_cons_of_mem _ (ih _ p hp)
    | dir d =>
      intro p hp
      rcases List.mem_cons.1 hp with rfl | hp
      · exact List.mem_cons_self
      · exact List.mem_cons_of_mem _ (ih _ p hp)

theorem mem_toLines (st : List Step) (d : Dir) : .dir d ∈ toLines st → ∃ i, (i, some d) ∈ st := by
  intro h
  obtain ⟨s, hs, hd⟩ := List.mem_flatMap.1 h
  obtain ⟨i, o⟩ := s
  cases o with
  | none => simp [stepLines] at hd
  | some e =>
    simp only [stepLines, List.mem_cons, reduceCtorEq, false_or, List.not_mem_nil, or_false, Line.dir.injEq] at hd
    exact ⟨i, hd ▸ hs⟩

theorem mem_vputSteps (vs : List (Nat × Nat)) (i : Nat) (s : Step) (h : s ∈ vputSteps i vs) :
    ∃ p ∈ vs, ∃ k : Nat, s = (.vput p.1 k p.2, some (.savexmm p.1 k)) ∧ k + p.2 ≤ i + bytes vs := by
  induction vs generalizing i with
  | nil => cases h
  | cons p l ih =>
    obtain ⟨r, n⟩ := p
    rcases List.mem_cons.1 h with e | h
    · exact ⟨(r, n), List.mem_cons_self, i, e, by rw [bytes_cons]; simp only; omega⟩
    · obtain ⟨p, hp, k, e, hk⟩ := ih (i + n) h
      exact ⟨p, List.mem_cons_of_mem _ hp, k, e, by rw [bytes_cons]; simp only; omega⟩

theorem F.inRange (f : F) (ok : f.Ok) (len : Ins → Nat) : ∀ p ∈ dirsAt len 0 f.lines, InRange p.2 := by
  intro p hp
  have h := mem_dirsAt len 0 _ p hp
  unfold F.lines at h
  rcases List.mem_append.1 h with h | h
  · obtain ⟨i, h⟩ := mem_toLines _ _ h
    unfold F.steps at h
    simp only [List.mem_append, List.mem_map, Prod.mk.injEq, reduceCtorEq, and_false, exists_false, false_or] at h
    rcases h with h | h | h | h
    · simp only [pushSteps, List.mem_map, Prod.mk.injEq, Option.some.injEq] at h
      obtain ⟨r, hr, _, e⟩ := h
      rw [← e]; exact ok.rs r hr
    · unfold subSteps at h
      split at h
      · simp only [List.mem_singleton, Prod.mk.injEq, Option.some.injEq] at h
        rw [h.2]
        have := ok.small
        exact ⟨by omega, by omega⟩
      · cases h
    · obtain ⟨q, hq, k, e, hk⟩ := mem_vputSteps _ _ _ h
      simp only [Prod.mk.injEq, Option.some.injEq] at e
      rw [e.2]
      have := ok.near
      have h16 := ok.v16 q hq
      exact ⟨ok.vreg q hq, by omega, by omega⟩
    · cases hl : f.lea with
      | none => rw [hl] at h; cases h
      | some q =>
        obtain ⟨b, o⟩ := q
        rw [hl] at h
        simp only [leaSteps, List.mem_singleton, Prod.mk.injEq, Option.some.injEq] at h
        rw [h.2]
        have := ok.lea b o hl
        exact ⟨this.2.1, by omega, by omega⟩
  · simp only [List.mem_singleton, Line.dir.injEq] at h
    rw [h]; trivial

theorem frameOf_none (l : List (Nat × Dir)) (q : Nat × Nat) (h : ∀ p ∈ l, ∀ r v, p.2 ≠ .setframe r v) : frameOf q l = q := by
  induction l generalizing q with
  | nil => rfl
  | cons p l ih =>
    obtain ⟨x, d⟩ := p
    have h0 := h (x, d) List.mem_cons_self
    have := ih q (fun p hp => h p (List.mem_cons_of_mem _ hp))
    cases d <;> first | exact absurd rfl (h0 _ _) | exact this

theorem frameOf_append (a b : List (Nat × Dir)) (q : Nat × Nat) : frameOf q (a ++ b) = frameOf (frameOf q a) b := by
  induction a generalizing q with
  | nil => rfl
  | cons p l ih =>
    obtain ⟨x, d⟩ := p
    cases d <;> exact ih _

/-- The frame register and offset of the prologue. -/
theorem F.frameOf (f : F) (len : Ins → Nat) : Frame.frameOf (0, 0) (dirsAt len 0 f.lines) = f.lea.getD (0, 0) := by
  have e : f.lines = toLines (f.pre.map (fun i => (i, none)) ++ (pushSteps f.rs ++ (subSteps f.N ++ vputSteps f.i f.vs)))
      ++ (toLines (leaSteps f.lea) ++ [.dir .endprolog]) := by
    unfold F.lines F.steps
    simp only [toLines_append, List.append_assoc]
  rw [e, dirsAt_append, frameOf_append]
  rw [frameOf_none (dirsAt len 0 _)]
  · cases f.lea with
    | none => rfl
    | some q => rfl
  · intro p hp r v he
    have h := mem_dirsAt len 0 _ p hp
    obtain ⟨i, h⟩ := mem_toLines _ _ h
    simp only [List.mem_append, List.mem_map, Prod.mk.injEq, reduceCtorEq, and_false, exists_false, false_or] at h
    rcases h with h | h | h
    · simp only [pushSteps, List.mem_map, Prod.mk.injEq, Option.some.injEq] at h
      obtain ⟨r', hr, _, e⟩ := h
      rw [he] at e; cases e
    · unfold subSteps at h
      split at h
      · simp only [List.mem_singleton, Prod.mk.injEq, Option.some.injEq] at h
        rw [he] at h; cases h.2
      · cases h
    · obtain ⟨q, hq, k, e, hk⟩ := mem_vputSteps _ _ _ h
      simp only [Prod.mk.injEq, Option.some.injEq] at e
      rw [he] at e; cases e.2

theorem part_ops (pre : List Ins) (rs : List Nat) (N i : Nat) (vs : List (Nat × Nat)) (lea : Option (Nat × Nat)) :
    ops (toLines (pre.map (fun i => (i, none)) ++ (pushSteps rs ++ (subSteps N ++ (vputSteps i vs ++ leaSteps lea)))))
      = rs.map UOp.pushNonvol ++ (allocOps N ++ (xmmOps i vs ++ leaOps lea)) := by
  simp only [toLines_append, ops_append, ops_pre, ops_push, ops_sub, ops_vput, ops_lea, List.nil_append]

def leaCode : Option (Nat × Nat) → List Ins
  | none => []
  | some (b, o) => [.lea b o]

theorem part_code (pre : List Ins) (rs : List Nat) (N i : Nat) (vs : List (Nat × Nat)) (lea : Option (Nat × Nat)) :
    code (toLines (pre.map (fun i => (i, none)) ++ (pushSteps rs ++ (subSteps N ++ (vputSteps i vs ++ leaSteps lea)))))
      = (pre ++ (rs.map Ins.push ++ (subSteps N).map (·.1) ++ code (vputLines i vs))) ++ leaCode lea := by
  rw [code_toLines]
  simp only [List.map_append, code_push, code_vputS, List.map_map, List.append_assoc]
  have e1 : pre.map ((fun x : Step => x.1) ∘ fun i => (i, none)) = pre := by
    induction pre with
    | nil => rfl
    | cons a l ih => simpa using ih
  have e2 : (leaSteps lea).map (·.1) = leaCode lea := by cases lea <;> rfl
  rw [e1, e2]

theorem setFpreg_mem (rs : List Nat) (N i : Nat) (vs : List (Nat × Nat)) (lea : Option (Nat × Nat)) :
    UOp.setFpreg ∈ (rs.map UOp.pushNonvol ++ (allocOps N ++ (xmmOps i vs ++ leaOps lea))).reverse ↔ lea ≠ none := by
  rw [List.mem_reverse]
  simp only [List.mem_append, List.mem_map, reduceCtorEq, and_false, exists_false, false_or]
  have h1 : UOp.setFpreg ∉ allocOps N := by unfold allocOps; split <;> simp
  have h2 : UOp.setFpreg ∉ xmmOps i vs := by
    induction vs generalizing i with
    | nil => simp [xmmOps]
    | cons p l ih => obtain ⟨r, n⟩ := p; simp [xmmOps, ih]
  cases lea with
  | none => simp [h1, h2, leaOps]
  | some q => simp [leaOps]

/-- Unwinding an executed part, with the decoded information. -/
theorem F.unwind_part (f : F) (ok : f.Ok) (a : List Step) (pre : List Ins) (rs : List Nat) (N i : Nat) (vs : List (Nat × Nat))
    (lea : Option (Nat × Nat)) (pt : Part f a pre rs N i vs lea) (info : UInfo) (pos : Nat)
    (hact : active info pos = (ops (toLines a)).reverse) (hfr : (info.frameReg, info.frameOfs * 16) = f.lea.getD (0, 0))
    (m0 m1 : M) (hf : fits 8 m0) (hb : BodyEnd 8 (code (toLines a)) (lea.map (·.1)) m0 m1) :
    Unwound rs vs m0 m1 (unwind info pos m1) := by
  have hpre : ∀ x ∈ pre, OnlyMem x := fun x hx => ok.pre x (pt.hpre.subset hx)
  obtain ⟨p1, p2, p3⟩ := run_onlyMem 8 pre m0 hpre
  have hS := code_sub N
  have hcr := core_run 8 rs ((subSteps N).map (·.1)) N i vs (run 8 m0 pre) hS
  simp only at hcr
  have hk := hb.kept
  have hfrm := hb.frame
  rw [pt.eq, part_code] at hk hfrm
  rw [pt.eq, part_ops] at hact
  have hsp : (run 8 m0 (pre ++ (rs.map Ins.push ++ (subSteps N).map (·.1) ++ code (vputLines i vs)))).sp
      = m0.sp - 8 * rs.length - N := by
    rw [run_append, hcr.2.2, p3]; rfl
  generalize hQ : pre ++ (rs.map Ins.push ++ (subSteps N).map (·.1) ++ code (vputLines i vs)) = Q at *
  have hk' : ∀ a, written 8 m0 a Q → m1.mem a = (run 8 m0 Q).mem a := by
    intro x hx
    have := hk x (by rw [written_append]; exact .inl hx)
    rw [this, run_append]
    cases lea with
    | none => rfl
    | some q => rfl
  have hnd : (vs.map (·.1)).Nodup := (pt.hvs.map (·.1)).sublist.nodup ok.nodup
  have h16 : ∀ p ∈ vs, 16 ≤ p.2 := fun p hp => ok.v16 p (pt.hvs.subset hp)
  have hspn : lea = none → m1.sp = m0.sp - 8 * rs.length - N := by
    intro hl
    subst hl
    have : m1.sp = (run 8 m0 (Q ++ [])).sp := hfrm
    rw [this, List.append_nil, hsp]
  have hlea : lea ≠ none → m1.gpr info.frameReg - info.frameOfs * 16 = m0.sp - 8 * rs.length - N := by
    intro hl
    have h2 := pt.hlea hl
    cases hq : lea with
    | none => exact (hl hq).elim
    | some q =>
      obtain ⟨b, o⟩ := q
      rw [← h2.1, hq] at hfr
      simp only [Option.getD_some, Prod.mk.injEq] at hfr
      rw [hq] at hfrm
      have h3 : m1.gpr b = (run 8 m0 (Q ++ [.lea b o])).gpr b := hfrm
      rw [run_append] at h3
      have h4 : (run 8 (run 8 m0 Q) [.lea b o]).gpr b = (run 8 m0 Q).sp + o := by
        show setG _ b _ b = _
        simp [setG]
      rw [hfr.1, h3, h4, hsp]
      omega
  have hbase : frameBase info pos m1 = m0.sp - 8 * rs.length - N := by
    unfold frameBase
    rw [hact]
    by_cases hl : lea = none
    · rw [if_neg (fun h => (setFpreg_mem ..).1 h.2 hl), hspn hl]
    · have hne : info.frameReg ≠ 0 := ?_
      · rw [if_pos ⟨hne, (setFpreg_mem ..).2 hl⟩, hlea hl]
      have h2 := pt.hlea hl
      cases hq : lea with
      | none => exact (hl hq).elim
      | some q =>
        obtain ⟨b, o⟩ := q
        rw [← h2.1, hq] at hfr
        simp only [Option.getD_some, Prod.mk.injEq] at hfr
        have := ok.lea b o (by rw [← h2.1, hq])
        omega
  unfold unwind
  rw [hact]
  subst hQ
  exact undo_part pre _ rs N i vs lea m0 m1 hpre hf hS pt.room hnd h16 _ _ _ hk' hbase hspn hlea

/-- The whole prologue as a part. -/
theorem F.whole (f : F) (ok : f.Ok) : Part f f.steps f.pre f.rs f.N f.i f.vs f.lea :=
  ⟨rfl, List.prefix_rfl, List.prefix_rfl, ok.room, List.prefix_rfl, fun _ => ⟨rfl, rfl, rfl, rfl⟩⟩

theorem F.active (f : F) (len : Ins → Nat) (hl : ∀ i, 0 < len i) (info : UInfo)
    (hc : info.codes = (opsOf (dirsAt len 0 f.lines)).reverse) (ls1 ls2 : List Line) (pos : Nat) (h : f.lines = ls1 ++ ls2)
    (hb : Boundary len ls1 ls2 pos) :
    ∃ a b, f.steps = a ++ b ∧ Frame.active info pos = (ops (toLines a)).reverse ∧ code ls1 = code (toLines a) ∧ (ls2 = [] → b = []) := by
  rw [h] at hc
  have := active_eq len hl ls1 ls2 pos hb info hc
  rcases hb with ⟨h2, _⟩ | ⟨i, r, h2, _⟩
  · subst h2
    rw [List.append_nil] at h
    refine ⟨f.steps, [], by simp, ?_, ?_, fun _ => rfl⟩
    · rw [this, ← h]
      unfold F.lines
      rw [ops_append]
      have : ops [.dir .endprolog] = [] := rfl
      rw [this, List.append_nil]
    · rw [← h]
      unfold F.lines
      rw [code_append]
      have : code [.dir .endprolog] = [] := rfl
      rw [this, List.append_nil]
  · subst h2
    obtain ⟨a, b, h3, h4⟩ := split_steps f.steps ls1 r i h
    exact ⟨a, b, h3, by rw [this, h4], by rw [h4], fun h => by cases h⟩

/-- What the unwind data of the prologue read as. -/
def mkInfo (len : Ins → Nat) (f : F) (u : U) (handler : Option Nat) : UInfo :=
  { version := 1, flags := if handler.isSome then 3 else 0, sizeOfProlog := u.sizeOfProlog, frameReg := u.frameReg,
    frameOfs := u.frameOfs, codes := (opsOf (dirsAt len 0 f.lines)).reverse, handler := handler }

theorem F.unwinds (f : F) (ok : f.Ok) (len : Ins → Nat) (hl : ∀ i, 0 < len i) (u : U) (handler : Option Nat)
    (hh : ∀ h, handler = some h → h < 4294967296) (h : assembleLines len {} 0 f.lines = .ok u) :
    ∃ info, readInfo (xdata u handler) = some info ∧
      -- anywhere in the body
      (∀ pos m0 m1, codeLen len f.lines ≤ pos → fits 8 m0 → BodyEnd 8 (code f.lines) (f.lea.map (·.1)) m0 m1 →
        Unwound f.rs f.vs m0 m1 (unwind info pos m1)) ∧
      -- between two instructions of the prologue
      (∀ ls1 ls2 pos m0, f.lines = ls1 ++ ls2 → Boundary len ls1 ls2 pos → fits 8 m0 →
        IsCaller m0 (unwind info pos (run 8 m0 (code ls1)))) := by
  obtain ⟨hi, hfr⟩ := readInfo_xdata len f.lines u handler hh (dirs_small len (toLines f.steps) {} u h) (f.inRange ok len) h
  rw [f.frameOf len] at hfr
  refine ⟨mkInfo len f u handler, hi, ?_, ?_⟩
  · intro pos m0 m1 hpos hf hb
    obtain ⟨a, b, h1, h2, h3, h4⟩ := f.active len hl (mkInfo len f u handler) rfl f.lines [] pos (by simp) (.inl ⟨rfl, hpos⟩)
    have hb0 : a = f.steps := by rw [h1, h4 rfl, List.append_nil]
    subst hb0
    refine f.unwind_part ok f.steps _ _ _ _ _ _ (f.whole ok) _ pos h2 hfr m0 m1 hf ?_
    rw [← h3]; exact hb
  · intro ls1 ls2 pos m0 hs hb hf
    obtain ⟨a, b, h1, h2, h3, h4⟩ := f.active len hl (mkInfo len f u handler) rfl ls1 ls2 pos hs hb
    obtain ⟨pre, rs, N, i, vs, lea, pt⟩ := f.part ok a b h1
    have hu := f.unwind_part ok a pre rs N i vs lea pt _ pos h2 hfr m0 (run 8 m0 (code ls1)) hf (by
      rw [h3]
      refine ⟨fun _ _ => rfl, ?_⟩
      cases lea <;> rfl)
    have hpre : ∀ x ∈ pre, OnlyMem x := fun x hx => ok.pre x (pt.hpre.subset hx)
    obtain ⟨p1, p2, p3⟩ := run_onlyMem 8 pre m0 hpre
    have hcr := core_run 8 rs ((subSteps N).map (·.1)) N i vs (run 8 m0 pre) (code_sub N)
    simp only at hcr
    have hst : ∀ r, r ∉ rs → (run 8 m0 (code ls1)).gpr r = m0.gpr r := by
      intro r hr
      rw [h3, pt.eq, part_code, run_append, run_append]
      cases hq : lea with
      | none =>
        show (run 8 (run 8 m0 pre) _).gpr r = _
        rw [hcr.1, p1]
      | some q =>
        obtain ⟨bb, o⟩ := q
        have h5 := pt.hlea (by simp [hq])
        have h6 := ok.lea bb o (by rw [← h5.1, hq])
        show setG (run 8 (run 8 m0 pre) _).gpr bb _ r = _
        unfold setG
        rw [if_neg (fun e => hr (by rw [h5.2.1, e]; exact h6.2.2.2)), hcr.1, p1]
    have hvt : (run 8 m0 (code ls1)).vec = m0.vec := by
      rw [h3, pt.eq, part_code, run_append, run_append]
      have : ∀ m : M, (run 8 m (leaCode lea)).vec = m.vec := by intro m; cases lea <;> rfl
      rw [this, hcr.2.1, p2]
    refine ⟨hu.sp, ?_, ?_⟩
    · intro r
      by_cases hr : r ∈ rs
      · exact hu.gpr r hr
      · rw [hu.otherGpr r hr, hst r hr]
    · intro r
      by_cases hr : r ∈ vs.map (·.1)
      · obtain ⟨p, hp, e⟩ := List.mem_map.1 hr
        rw [← e, hu.vec p hp, Int.emod_emod_of_dvd _ ⟨1, by omega⟩]
      · rw [hu.otherVec r hr, hvt]

/-! ## The prologues of the assembler -/

def W.toF (w : W) : F :=
  { pre := w.pre, rs := w.saved, N := w.total
    i := if vecs w.regs = [] then 0 else vecBase w.localsize (vecBytes w.regs) + w.resstack
    vs := vecs w.regs, lea := if w.fpo then none else some (w.base, w.frameofs) }

theorem toLines_push (l : List Nat) (h : ∀ r ∈ l, nonvol r = true) : toLines (pushSteps l) = pushLines l := by
  induction l with
  | nil => rfl
  | cons r l ih =>
    have h0 := h r List.mem_cons_self
    have := ih (fun q hq => h q (List.mem_cons_of_mem _ hq))
    simp only [pushLines, h0, if_true, ← this]
    rfl

theorem toLines_pre (l : List Ins) : toLines (l.map (fun i => (i, none))) = l.map Line.ins := by
  induction l with
  | nil => rfl
  | cons a l ih =>
    show stepLines (a, none) ++ toLines _ = _
    rw [ih]; rfl

theorem toLines_vput (i : Nat) (vs : List (Nat × Nat)) : toLines (vputSteps i vs) = vputLines i vs := by
  induction vs generalizing i with
  | nil => rfl
  | cons p l ih =>
    obtain ⟨r, n⟩ := p
    have := ih (i + n)
    rw [Int.natCast_add] at this
    simp only [vputLines, ← this]
    rfl

theorem W.lines (w : W) (hn : ∀ r ∈ gprs w.regs, nonvol r = true) : w.toF.lines = prologueRBP w := by
  have hr := w.resv_eq
  unfold F.lines F.steps prologueRBP
  simp only [W.toF, toLines_append, hr, toLines_pre]
  have e1 : w.pre.map Line.ins = (if w.saveParams then (saveParamsRBP 4 0 w.params).map Line.ins else []) := by
    unfold W.pre; cases w.saveParams <;> rfl
  have e2 : toLines (pushSteps w.saved) = (if w.fpo then [] else [.ins (.push w.base), .dir (.pushreg w.base)])
      ++ pushLines (gprs w.regs) := by
    unfold W.saved
    have : pushSteps ((if w.fpo then [] else [w.base]) ++ gprs w.regs)
        = pushSteps (if w.fpo then [] else [w.base]) ++ pushSteps (gprs w.regs) := by simp [pushSteps]
    rw [this, toLines_append, toLines_push _ hn]
    cases w.fpo <;> rfl
  have e4 : toLines (vputSteps (if vecs w.regs = [] then 0 else vecBase w.localsize (vecBytes w.regs) + w.resstack) (vecs w.regs))
      = if vecs w.regs ≠ [] then vputLines (vecBase w.localsize (vecBytes w.regs) + w.resstack : Nat) (vecs w.regs) else [] := by
    by_cases h : vecs w.regs = []
    · simp [h, vputSteps, toLines]
    · rw [if_pos h, if_neg h, toLines_vput]
  have e5 : toLines (leaSteps (if w.fpo then none else some (w.base, w.frameofs)))
      = (if w.fpo then [] else [.ins (.lea w.base w.frameofs), .dir (.setframe w.base w.frameofs)]) := by
    cases w.fpo <;> rfl
  have e3 : toLines (subSteps w.total) = (if (!w.fpo || w.stackparam || w.vararg || w.align16 || w.autosp) = true then
        (if w.localsize + stackadj w.fpo (gprs w.regs).length w.localsize + w.resstack > 0 then
          [.ins (.sub ((w.localsize + stackadj w.fpo (gprs w.regs).length w.localsize + w.resstack : Nat) : Int)),
           .dir (.alloc ((w.localsize + stackadj w.fpo (gprs w.regs).length w.localsize + w.resstack : Nat) : Int))]
        else [])
      else if stackadj w.fpo (gprs w.regs).length w.localsize + w.localsize > 0 then
        [.ins (.sub (stackadj w.fpo (gprs w.regs).length w.localsize + w.localsize : Nat)),
         .dir (.alloc (stackadj w.fpo (gprs w.regs).length w.localsize + w.localsize : Nat))]
      else []) := by
    unfold subSteps W.total
    generalize stackadj w.fpo (gprs w.regs).length w.localsize = adj
    by_cases hc : (!w.fpo || w.stackparam || w.vararg || w.align16 || w.autosp) = true
    · rw [if_pos hc]
      by_cases h : w.localsize + adj + w.resstack > 0
      · rw [if_pos h, if_pos h]; rfl
      · rw [if_neg h, if_neg h]; rfl
    · rw [if_neg hc]
      have ha : w.autosp = false := by revert hc; cases w.autosp <;> simp
      have : w.resstack = 0 := by unfold W.resstack; rw [ha]; rfl
      rw [this, Nat.add_zero, Nat.add_comm adj]
      by_cases h : w.localsize + adj > 0
      · rw [if_pos h, if_pos h]; rfl
      · rw [if_neg h, if_neg h]; rfl
  rw [e1, e2, e3, e4, e5]
  simp only [List.append_assoc]

def R.toF (w : R) : F :=
  { pre := w.pre, rs := w.pushed, N := w.total, i := if vecs w.regs = [] then 0 else w.resstack, vs := vecs w.regs, lea := none }

/-- The RSP prologue without registers in the home area; `full` or nothing reserved. -/
theorem R.lines (w : R) (hn : ∀ r ∈ gprs w.regs, nonvol r = true) (hs : w.slots = [])
    (hfull : (w.full = true ∧ 0 < w.total) ∨ (w.total = 0 ∧ w.full = false ∧ vecs w.regs = [])) : w.toF.lines = prologueRSP w := by
  have hpd : w.pushed = gprs w.regs := by unfold R.pushed; rw [hs]; rfl
  unfold F.lines F.steps prologueRSP
  simp only [R.toF, toLines_append, toLines_pre, hs, List.flatMap_nil, List.append_nil]
  have e1 : w.pre.map Line.ins = (if w.smart then (saveParamsRSP 4 0 w.params).map Line.ins
      else if w.saveParams then (saveParamsRSP0 4 0 w.params).map Line.ins else []) := by
    unfold R.pre; cases w.smart <;> cases w.saveParams <;> rfl
  rw [e1, hpd, toLines_push _ hn]
  have e5 : toLines (leaSteps none) = [] := rfl
  rw [e5, List.append_nil]
  simp only [List.append_assoc]
  congr 2
  rcases hfull with ⟨hf, ht⟩ | ⟨ht, hf, hv⟩
  · have hc : w.hasLocals = true ∨ w.resstack ≠ 0 ∨ w.xmmsize ≠ 0 := of_decide_eq_true hf
    have e : w.total = w.stackSize + w.resstack := by unfold R.total; rw [hf]; rfl
    rw [if_pos hc]
    unfold subSteps
    rw [if_pos ht, e]
    have e4 : toLines (vputSteps (if vecs w.regs = [] then 0 else w.resstack) (vecs w.regs)) = vputLines w.resstack (vecs w.regs) := by
      by_cases h : vecs w.regs = []
      · rw [h]; rfl
      · rw [if_neg h, toLines_vput]
    rw [e4]
    simp only [List.append_assoc]
    rfl
  · have hc : ¬ (w.hasLocals = true ∨ w.resstack ≠ 0 ∨ w.xmmsize ≠ 0) := of_decide_eq_false hf
    rw [if_neg hc, ht, hv]
    have : w.localsize = 0 := by unfold R.total at ht; rw [hf] at ht; exact ht
    rw [if_neg (show ¬ w.localsize > 0 by omega)]
    rfl

end Verif.Frame
