import Verif.Equate.Main
/-! # C69: names have their values in every pass -/
namespace Verif.Equate
variable {E : Type}

/-- Values of names come from definitions. -/
theorem reading_vals {W : World E} {src : List (Line E)} {x : Name} {v : Val} : ∀ p,
    (reading W src p).env x = some v → ∃ q, (x, v) ∈ (reading W src q).defs
  | 0, h => by
    rcases env_from _ _ h with h | h
    · cases h
    · exact ⟨0, h⟩
  | p + 1, h => by
    rcases env_from _ _ h with h | h
    · exact reading_vals p h
    · exact ⟨p + 1, h⟩

theorem reading_str {W : World E} {src : List (Line E)} {x : Name} {n : BitVec 32} (h : .strvar x n ∈ src) (p : Nat) :
    (x, .const (n.setWidth 64)) ∈ (reading W src p).defs := by
  have key : ∀ ls : List (Nat × Line E), ∀ i, (i, .strvar x n) ∈ ls → ∀ t,
      (x, Val.const (n.setWidth 64)) ∈ (readLines W p ls t).defs := by
    intro ls
    induction ls with
    | nil => intro i hi; simp at hi
    | cons l r ih =>
      intro i hi t
      rcases List.mem_cons.1 hi with h | h
      · subst h
        exact defs_mono r _ (by simp [readLine, Trace.define])
      · exact ih i h _
  obtain ⟨i, hi⟩ := numbered_mem (k := 0) h
  cases p <;> exact key _ i hi _

/-- Names set by `SIZESTR` or `INSTR` are numbers. -/
theorem str_kind {W : World E} {src : List (Line E)} (hr : ∀ x n, .strvar x n ∈ src → OneKind W src x) {x : Name}
    {n : BitVec 32} (h : .strvar x n ∈ src) {p : Nat} {v : Val} (hv : (x, v) ∈ (reading W src p).defs) : v.seg = none := by
  obtain ⟨k, hk⟩ := hr x n h
  rw [hk p v hv, ← hk 0 _ (reading_str h 0)]
  rfl

/-- Start of pass `p`. -/
def initEnv (W : World E) (src : List (Line E)) : Nat → Env
  | 0 => fun _ => none
  | p + 1 => (reading W src p).env

theorem reading_eq (W : World E) (src : List (Line E)) (p : Nat) :
    reading W src p = readLines W p (numbered 0 src) { env := initEnv W src p } := by cases p <;> rfl

theorem init_kind {W : World E} {src : List (Line E)} (hr : ∀ x n, .strvar x n ∈ src → OneKind W src x) {x : Name}
    {n : BitVec 32} (h : .strvar x n ∈ src) {p : Nat} {v : Val} (hv : initEnv W src p x = some v) : v.seg = none := by
  cases p with
  | zero => cases hv
  | succ p =>
    obtain ⟨q, hq⟩ := reading_vals p hv
    exact str_kind hr h hq

/-- A pass over the whole source. -/
theorem full_pass {W : World E} {src : List (Line E)} (hr : ∀ x n, .strvar x n ∈ src → OneKind W src x) {p : Nat}
    {st : St E} (hv : st.view = initEnv W src p) (ho : st.outs = [])
    (he : (runLines W p (numbered 0 src) st).err = false) :
    (runLines W p (numbered 0 src) st).view = (reading W src p).env ∧
      (runLines W p (numbered 0 src) st).outs = (reading W src p).outs := by
  rw [reading_eq]
  refine run_ok _ hv ho ?_ he
  intro i x n hm
  refine ⟨fun v hx => init_kind hr (mem_numbered hm) hx, fun v hd => ?_⟩
  rw [← reading_eq] at hd
  exact str_kind hr (mem_numbered hm) hd

/-- Values of the names where the line store is started. -/
def env0 (W : World E) (src : List (Line E)) : Env := (readLines W 0 (headOf W src) { env := fun _ => none }).env

theorem inHead_iff {W : World E} {src : List (Line E)} {x : Name} : InHead W src x ↔ env0 W src x ≠ none := by
  constructor
  · rintro ⟨l, hl, hx⟩
    exact head_defines W (numbered 0 src) { env := fun _ => none } l hl x hx
  · intro h
    refine Classical.byContradiction fun hn => h ?_
    refine envs_other (fun l hl hx => hn ⟨l, hl, hx⟩)

theorem env0_vals {W : World E} {src : List (Line E)} {x : Name} {v : Val} (h : env0 W src x = some v) :
    (x, v) ∈ (reading W src 0).defs := by
  obtain ⟨rest, h1, -⟩ := head_split W (numbered 0 src) { env := fun _ => none }
  rcases env_from _ _ h with h2 | h2
  · cases h2
  · rw [reading, h1, readLines_append]
    exact defs_mono rest _ h2

/-- The lines below the head. -/
theorem first_pass {W : World E} {src : List (Line E)} (hr : Regular W src)
    (he : (assembling W false src 0).err = false) :
    ∃ rest, numbered 0 src = headOf W src ++ rest ∧
      ((assembling W false src 0).useSaved = true → Saved src (env0 W src) rest (assembling W false src 0)) := by
  obtain ⟨rest, h1, h2⟩ := head_split W (numbered 0 src) { env := fun _ => none }
  refine ⟨rest, h1, ?_⟩
  have hrun : assembling W false src 0 = runLines W 0 rest (runLines W 0 (headOf W src) {}) := by
    show runLines W 0 (numbered 0 src) {} = _
    conv => lhs; rw [h1]
    exact runLines_append W 0 _ _ _
  have hread : reading W src 0 = readLines W 0 rest (readLines W 0 (headOf W src) { env := fun _ => none }) := by
    show readLines W 0 (numbered 0 src) { env := fun _ => none } = _
    conv => lhs; rw [h1]
    exact readLines_append W 0 _ _ _
  rw [hrun] at he ⊢
  have h0 : HeadInv ({} : St E) := ⟨rfl, rfl, rfl, rfl, by intro x s h; cases h⟩
  have hmem : ∀ i l, (i, l) ∈ rest → l ∈ src := fun i l hl => mem_numbered (k := 0) (i := i) (by rw [h1]; simp [hl])
  have hmemh : ∀ i l, (i, l) ∈ headOf W src → l ∈ src :=
    fun i l hl => mem_numbered (k := 0) (i := i) (by rw [h1]; exact List.mem_append_left _ hl)
  have hkh : ∀ i x n, (i, .strvar x n) ∈ headOf W src → (∀ v, (fun _ => none : Env) x = some v → v.seg = none) ∧
      ∀ v, (x, v) ∈ (readLines W 0 (headOf W src) { env := fun _ => none }).defs → v.seg = none := by
    intro i x n hm
    refine ⟨(fun v h => by cases h), fun v hd => str_kind hr.strs (hmemh i _ hm) (p := 0) ?_⟩
    rw [hread]; exact defs_mono rest _ hd
  have hh : HeadInv (runLines W 0 (headOf W src) ({} : St E)) := run_head (W := W) (numbered 0 src) { env := fun _ => none } {} h0 rfl rfl hkh (run_err he)
  have hok := run_ok (W := W) (p := 0) (headOf W src) (st := {}) (t := { env := fun _ => none }) rfl rfl hkh (run_err he)
  cases hrest : rest with
  | nil => intro hu; rw [runLines] at hu; rw [show (runLines W 0 (headOf W src) ({} : St E)).useSaved = false from hh.us] at hu; cases hu
  | cons l r =>
    intro _
    obtain ⟨i, l⟩ := l
    rw [hrest] at he hread
    have hstart : runLines W 0 ((i, l) :: r) (runLines W 0 (headOf W src) {}) =
        runLines W 0 ((i, l) :: r) (mark (runLines W 0 (headOf W src) {})) := by
      simp only [runLines]
      rw [start_eq (r := r) hh (by rw [← hrest, hok.1]; exact h2) (run_err he)]
    rw [hstart] at he ⊢
    have henv : (runLines W 0 (headOf W src) ({} : St E)).view = env0 W src := hok.1
    have hi := mark_inv2 (src := src) hh
    rw [henv] at hi
    have := run_below (W := W) (src := src) (env0 := env0 W src)
      (by
        intro x n hx v hv
        exact hr.small x n hx (inHead_iff.2 (by rw [hv]; simp)) 0 v (env0_vals hv))
      (by
        intro x hx hq
        exact hr.unmixed x (fun hc => inHead_iff.1 hc hx) hq)
      ((i, l) :: r) (mark (runLines W 0 (headOf W src) {})) (readLines W 0 (headOf W src) { env := fun _ => none })
      hi hok.1 hok.2 (by rw [← hrest]; exact hmem)
      (by
        intro j x n hm
        have hms : Line.strvar x n ∈ src := hmem j _ (by rw [hrest]; exact hm)
        refine ⟨fun v hx => str_kind hr.strs hms (p := 0) (env0_vals hx), fun v hd => str_kind hr.strs hms (p := 0) ?_⟩
        rw [hread]; exact hd)
      (by intro x hx; rw [← hread]; exact hr.known x (inHead_iff.2 hx))
      (by intro x hx o v hm; rw [← hread] at hm; exact hr.same x (inHead_iff.2 hx) 0 o v hm) he
    obtain ⟨i1, i2, i3, i4, i5⟩ := this
    refine ⟨by rw [i2, show (mark (runLines W 0 (headOf W src) ({} : St E))).store = [] from hh.so]; rfl, i1.A, i4, i5, ?_⟩
    intro x v hx
    obtain ⟨s, hs, hb⟩ := i1.B x v hx
    rcases hb with ⟨-, hb⟩ | ⟨-, hb⟩
    · exact .inl hb
    · exact .inr (by simp [St.view, hs, hb])

/-- What holds after pass `p`. -/
structure After (W : World E) (full : Bool) (src : List (Line E)) (rest : List (Nat × Line E)) (p : Nat) : Prop where
  view : (assembling W full src p).view = (reading W src p).env
  outs : (assembling W full src p).outs = (reading W src p).outs
  saved : full = false → (assembling W full src p).useSaved = true → Saved src (env0 W src) rest (assembling W full src p)

theorem replay_pass {W : World E} {src : List (Line E)} (hr : Regular W src) {rest : List (Nat × Line E)}
    (hsplit : numbered 0 src = headOf W src ++ rest) {p : Nat} {st : St E} (hv : st.view = (reading W src p).env)
    (hsv : Saved src (env0 W src) rest st)
    (he : (runLines W (p + 1) st.store (restore st.equs { st with storeState := false, outs := [] })).err = false) :
    (runLines W (p + 1) st.store (restore st.equs { st with storeState := false, outs := [] })).view =
        (reading W src (p + 1)).env ∧
      (runLines W (p + 1) st.store (restore st.equs { st with storeState := false, outs := [] })).outs =
        (reading W src (p + 1)).outs ∧
      ∀ x v, env0 W src x = some v → (∃ lo hi, (x, lo, hi) ∈ st.equs) ∨ (reading W src (p + 1)).env x = some v := by
  have hrw : ∀ s, runLines W (p + 1) st.store s = runLines W (p + 1) rest s := fun s => by rw [hsv.store]
  rw [hrw] at he ⊢
  have hmem : ∀ i l, (i, l) ∈ rest → l ∈ src := fun i l hl => mem_numbered (k := 0) (i := i) (by rw [hsplit]; simp [hl])
  have hread : reading W src (p + 1) =
      readLines W (p + 1) rest (readLines W (p + 1) (headOf W src) { env := (reading W src p).env }) := by
    show readLines W (p + 1) (numbered 0 src) { env := (reading W src p).env } = _
    rw [hsplit, readLines_append]
  obtain ⟨a1, a2⟩ := head_again (W := W) (p := p + 1) (numbered 0 src) { env := fun _ => none }
    (fun l hl x e hle env env' v => hr.headConst l hl x e hle (p + 1) env env' v)
    { env := (reading W src p).env } (by intro y u h; cases h)
  have hsome : ∀ x v, env0 W src x = some v → ∃ u, (reading W src p).env x = some u ∧ u.seg = v.seg := by
    intro x v hx
    have hn : (reading W src p).env x ≠ none := by
      have hbase : (reading W src 0).env x ≠ none := by
        rw [reading, hsplit, readLines_append]
        apply env_some
        show env0 W src x ≠ none
        rw [hx]; simp
      clear hv a1 a2 hread he hrw
      induction p with
      | zero => exact hbase
      | succ q ih => exact env_some _ _ ih
    cases hu : (reading W src p).env x with
    | none => exact absurd hu hn
    | some u =>
      refine ⟨u, rfl, ?_⟩
      obtain ⟨k, hk⟩ := hr.kind x (inHead_iff.2 (by rw [hx]; simp))
      obtain ⟨q, hq⟩ := reading_vals p hu
      rw [hk q u hq, hk 0 v (env0_vals hx)]
  have hview : (restore st.equs { st with storeState := false, outs := [] }).view =
      (readLines W (p + 1) (headOf W src) { env := (reading W src p).env }).env := by
    funext x
    cases h0 : env0 W src x with
    | none =>
      rw [show (readLines W (p + 1) (headOf W src) { env := (reading W src p).env }).env x = _ from a2 x h0]
      rw [restore_other]
      · exact congrFun hv x
      · intro lo hi hm
        obtain ⟨v, hv, -⟩ := hsv.A x lo hi hm
        rw [h0] at hv; cases hv
    | some v =>
      rw [show (readLines W (p + 1) (headOf W src) { env := (reading W src p).env }).env x = _ from a1 x v h0]
      obtain ⟨u, hu, hseg⟩ := hsome x v h0
      rw [← hv] at hu
      simp only [St.view] at hu
      cases hs : st.syms x with
      | none => simp [hs] at hu
      | some s =>
        simp only [hs, Option.map_some, Option.some.injEq] at hu
        refine restore_view _ _ x v s hs ?_ ?_ ?_
        · rw [← hseg, ← hu]
          unfold Sym.view
          cases s.segment <;> rfl
        · intro lo hi hm
          obtain ⟨v', hv', hh⟩ := hsv.A x lo hi hm
          rw [h0] at hv'; cases hv'; exact hh
        · rcases hsv.keep x v h0 with h | h
          · exact .inl h
          · refine .inr ?_
            simp only [St.view, hs, Option.map_some, Option.some.injEq] at h
            exact h
  have houts : (restore st.equs { st with storeState := false, outs := [] }).outs =
      (readLines W (p + 1) (headOf W src) { env := (reading W src p).env }).outs := by
    rw [(restore_frozen _ _).2.1, show (readLines W (p + 1) (headOf W src) { env := (reading W src p).env }).outs = [] from head_outs W (p + 1) _ _ _]
  have hk : ∀ i x n, (i, .strvar x n) ∈ rest →
      (∀ v, (readLines W (p + 1) (headOf W src) { env := (reading W src p).env }).env x = some v → v.seg = none) ∧
      ∀ v, (x, v) ∈ (readLines W (p + 1) rest
        (readLines W (p + 1) (headOf W src) { env := (reading W src p).env })).defs → v.seg = none := by
    intro i x n hm
    have hms := hmem i _ hm
    refine ⟨fun v hx => ?_, fun v hd => ?_⟩
    · rcases env_from _ _ hx with h | h
      · obtain ⟨q, hq⟩ := reading_vals p h
        exact str_kind hr.strs hms hq
      · refine str_kind hr.strs hms (p := p + 1) ?_
        rw [hread]; exact defs_mono rest _ h
    · rw [← hread] at hd
      exact str_kind hr.strs hms hd
  obtain ⟨r1, r2⟩ := run_ok rest hview houts hk he
  rw [hread]
  refine ⟨r1, r2, ?_⟩
  intro x v hx
  by_cases hq : ∃ lo hi, (x, lo, hi) ∈ st.equs
  · exact .inl hq
  · right
    refine env_keep rest _ (a1 x v hx) ?_ ?_ ?_ ?_
    · intro i e hm; exact hq (hsv.saved i x (.inl ⟨e, hm⟩) (by rw [hx]; simp))
    · intro i n hm; exact hq (hsv.saved i x (.inr ⟨n, hm⟩) (by rw [hx]; simp))
    · intro i hm; rw [hsv.label i x hm] at hx; cases hx
    · intro o w hm
      rw [← hread] at hm
      exact hr.same x (inHead_iff.2 (by rw [hx]; simp)) (p + 1) o w hm

theorem assembling_err {W : World E} {full : Bool} {src : List (Line E)} {p : Nat}
    (he : (assembling W full src (p + 1)).err = false) : (assembling W full src p).err = false := by
  simp only [assembling, onePass] at he
  split at he
  · have := run_err he
    rw [(restore_frozen _ _).2.2] at this
    exact this
  · have := run_err he
    exact this

theorem assembling_frozen (W : World E) (full : Bool) (src : List (Line E)) (p : Nat) :
    (assembling W full src (p + 1)).useSaved = (assembling W full src p).useSaved ∧
    (assembling W full src (p + 1)).store = (assembling W full src p).store ∧
    (assembling W full src (p + 1)).equs = (assembling W full src p).equs := by
  simp only [assembling, onePass]
  split
  · have h1 := (restore_frozen (assembling W full src p).equs { assembling W full src p with storeState := false, outs := [] }).1
    have h2 := run_frozen (W := W) (p := p) (assembling W full src p).store (by exact h1.ss)
    exact ⟨h2.us.trans h1.us, h2.so.trans h1.so, h2.eq.trans h1.eq⟩
  · have h2 := run_frozen (W := W) (p := p) (numbered 0 src) (st := { assembling W full src p with storeState := false, outs := [] }) rfl
    exact ⟨h2.us, h2.so, h2.eq⟩

/-- **C69 (partial).**  For regular sources, in each pass the operand of every instruction and data item has the value
that reading the source from top to bottom gives it, and so have all names at the end of the pass: storing the lines of the
first pass and restoring the variables gives the same result as reading the source again.  (`full` says whether the source is
read again or the stored lines are used.)  What is missing: for sources that are not regular the claim is false, see
`Examples`. -/
theorem C69_passes_partial (W : World E) (src : List (Line E)) (hr : Regular W src) (full : Bool) (p : Nat)
    (he : (assembling W full src p).err = false) :
    (assembling W full src p).outs = (reading W src p).outs ∧
      ∀ x, (assembling W full src p).view x = (reading W src p).env x := by
  have hrest : ∃ rest, numbered 0 src = headOf W src ++ rest ∧ ((assembling W false src 0).err = false →
      (assembling W false src 0).useSaved = true → Saved src (env0 W src) rest (assembling W false src 0)) := by
    by_cases h0 : (assembling W false src 0).err = false
    · obtain ⟨rest, h1, h2⟩ := first_pass hr h0
      exact ⟨rest, h1, fun _ => h2⟩
    · obtain ⟨rest, h1, -⟩ := head_split W (numbered 0 src) { env := fun _ => none }
      exact ⟨rest, h1, fun h => absurd h h0⟩
  obtain ⟨rest, hsplit, hfirst⟩ := hrest
  have key : After W full src rest p := by
    induction p with
    | zero =>
      have hp : assembling W full src 0 = runLines W 0 (numbered 0 src) {} := by
        simp [assembling, onePass]
      obtain ⟨a, b⟩ := full_pass hr.strs (p := 0) (st := {}) rfl rfl (by rw [← hp]; exact he)
      refine ⟨by rw [hp]; exact a, by rw [hp]; exact b, ?_⟩
      intro hf hu
      subst hf
      exact hfirst he hu
    | succ p ih =>
      have ih := ih (assembling_err he)
      have hfz := assembling_frozen W full src p
      by_cases hc : (assembling W full src p).useSaved = true ∧ full = false
      · obtain ⟨hu, hf⟩ := hc
        have hsv := ih.saved hf hu
        have hp : assembling W full src (p + 1) = runLines W (p + 1) (assembling W full src p).store
            (restore (assembling W full src p).equs { assembling W full src p with storeState := false, outs := [] }) := by
          simp only [assembling, onePass]
          rw [if_pos ⟨by omega, hu, hf⟩]
        obtain ⟨a, b, c⟩ := replay_pass hr hsplit ih.view hsv (by rw [← hp]; exact he)
        rw [← hp] at a b
        refine ⟨a, b, fun _ _ => ⟨hfz.2.1.trans hsv.store, ?_, ?_, hsv.label, ?_⟩⟩
        · rw [hfz.2.2]; exact hsv.A
        · rw [hfz.2.2]; exact hsv.saved
        · rw [hfz.2.2, a]; exact c
      · have hp : assembling W full src (p + 1) = runLines W (p + 1) (numbered 0 src)
            { assembling W full src p with storeState := false, outs := [] } := by
          simp only [assembling, onePass]
          rw [if_neg (by rintro ⟨-, h⟩; exact hc h)]
        obtain ⟨a, b⟩ := full_pass hr.strs (p := p + 1)
          (st := { assembling W full src p with storeState := false, outs := [] }) ih.view rfl (by rw [← hp]; exact he)
        refine ⟨by rw [hp]; exact a, by rw [hp]; exact b, ?_⟩
        intro hf hu
        rw [hfz.1] at hu
        exact absurd ⟨hu, hf⟩ hc
  exact ⟨key.outs, fun x => congrFun key.view x⟩

/-- Without the line store (the source is read again in each pass) only the names set by `SIZESTR` and `INSTR` matter. -/
theorem C69_full_passes (W : World E) (src : List (Line E))
    (hs : ∀ x n, .strvar x n ∈ src → OneKind W src x) (p : Nat)
    (he : (assembling W true src p).err = false) :
    (assembling W true src p).outs = (reading W src p).outs ∧
      ∀ x, (assembling W true src p).view x = (reading W src p).env x := by
  have key : (assembling W true src p).view = (reading W src p).env ∧ (assembling W true src p).outs = (reading W src p).outs := by
    induction p with
    | zero => exact full_pass hs (p := 0) (st := {}) rfl rfl he
    | succ p ih =>
      have ih := ih (assembling_err he)
      have hp : assembling W true src (p + 1) = runLines W (p + 1) (numbered 0 src)
          { assembling W true src p with storeState := false, outs := [] } := by
        simp [assembling, onePass]
      obtain ⟨a, b⟩ := full_pass hs (p := p + 1)
        (st := { assembling W true src p with storeState := false, outs := [] }) ih.1 rfl (by rw [← hp]; exact he)
      exact ⟨by rw [hp]; exact a, by rw [hp]; exact b⟩
  exact ⟨key.2, fun x => congrFun key.1 x⟩

end Verif.Equate
