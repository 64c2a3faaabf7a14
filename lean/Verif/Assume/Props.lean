import Verif.Assume.Spec
import Verif.ModRM.Props
/-!
# C56-C58: ASSUME, segment registers of operands
-/
namespace Verif.Assume
open Verif.ModRM (Seg Mode Reg Cls)

/-! ### The table says what the history says -/

theorem run_cons (e : Env) (ev : Event) (h : List Event) : run e (ev :: h).reverse = step e (run e h.reverse) ev := by
  simp [run, List.foldl_append]

theorem table_symbol (e : Env) (h : List Event) : ∀ r, (run e h.reverse r).symbol = assumedTo e h r := by
  induction h with
  | nil => intro r; rfl
  | cons ev h ih =>
    intro r
    rw [run_cons]
    cases ev with
    | nothing => rfl
    | item s a =>
      cases a <;> simp only [step, segItem, Option.getD_some, Option.getD_none, Table.set, assumedTo] <;> split <;>
        simp_all
    | segment x =>
      cases x with
      | none => simp only [step, updateCS, Table.set, assumedTo]; split <;> simp_all
      | some n =>
        simp only [step, updateCS, assumedTo]
        cases hg : e.groupOf n <;> simp only [Table.set] <;> split <;> simp_all

theorem table_error (e : Env) (h : List Event) : ∀ r, (run e h.reverse r).error = declaredError h r := by
  induction h with
  | nil => intro r; rfl
  | cons ev h ih =>
    intro r
    rw [run_cons]
    cases ev with
    | nothing => rfl
    | item s a =>
      cases a <;> simp only [step, segItem, Option.getD_some, Option.getD_none, Table.set, declaredError] <;> split <;>
        simp_all
    | segment x =>
      cases x with
      | none => simp only [step, updateCS, Table.set, declaredError]; split <;> simp_all
      | some n =>
        simp only [step, updateCS, declaredError]
        cases hg : e.groupOf n <;> simp only [Table.set] <;> split <;> simp_all

theorem isFlat_iff (e : Env) (a : Area) : e.isFlat a = true ↔ ∃ f, e.flat = some f ∧ a = .grp f := by
  unfold Env.isFlat
  cases hf : e.flat <;> cases a <;> simp
  exact eq_comm

theorem table_flat (e : Env) (h : List Event) :
    ∀ r, (run e h.reverse r).isFlat = true ↔ FlatReg e h r := by
  induction h with
  | nil => intro r; simp [run, initTable, FlatReg, assumedTo]
  | cons ev h ih =>
    intro r
    rw [run_cons]
    unfold FlatReg
    cases ev with
    | nothing => simp [step, initTable, assumedTo]
    | item s a =>
      cases a with
      | area x =>
        simp only [step, segItem, Option.getD_some, Table.set, assumedTo]; split
        · rw [isFlat_iff]; simp
        · exact ih r
      | segOf x =>
        simp only [step, segItem, Option.getD_some, Table.set, assumedTo]; split
        · cases x <;> simp
        · exact ih r
      | reg r2 =>
        simp only [step, segItem, Option.getD_some, Table.set, assumedTo]; split
        · exact ih r2
        · exact ih r
      | other =>
        simp only [step, segItem, Option.getD_none, assumedTo]; split
        · exact ih r
        · exact ih r
      | error =>
        simp only [step, segItem, Option.getD_some, Table.set, assumedTo]; split
        · simp
        · exact ih r
      | nothing =>
        simp only [step, segItem, Option.getD_some, Table.set, assumedTo]; split
        · simp
        · exact ih r
    | segment x =>
      cases x with
      | none =>
        simp only [step, updateCS, Table.set, assumedTo]; split
        · simp
        · exact ih r
      | some n =>
        simp only [step, updateCS, assumedTo]
        cases hg : e.groupOf n <;> simp only [Table.set] <;> split
        · simp [hg]
        · exact ih r
        · rw [isFlat_iff]; simp [hg]
        · exact ih r

/-- C56: the register table is what the last ASSUME statements say, for every history. -/
theorem C56_last_assume_counts (e : Env) (h : List Event) (r : Seg) :
    (run e h.reverse r).symbol = assumedTo e h r ∧ (run e h.reverse r).error = declaredError h r ∧
      ((run e h.reverse r).isFlat = true ↔ FlatReg e h r) :=
  ⟨table_symbol e h r, table_error e h r, table_flat e h r⟩

/-! ### Search -/

theorem mem_searchtab (r : Seg) : r ∈ searchtab := by cases r <;> decide

theorem grpMatches_iff (e : Env) (h : List Event) (g : Nat) (r : Seg) :
    grpMatches e (run e h.reverse) g r = true ↔ assumedTo e h r = some (.grp g) := by
  unfold grpMatches
  rw [Bool.or_eq_true, Bool.and_eq_true, table_flat, table_symbol, beq_iff_eq, beq_iff_eq]
  constructor
  · rintro (⟨⟨f, h1, h2⟩, h3⟩ | h3)
    · rw [h1] at h3; cases h3; exact h2
    · exact h3
  · exact .inr

/-- The register that is chosen for a segment: the default one if it reaches the segment, else the first register that is
assumed to the segment, else the first one assumed to the group, in the order DS, SS, ES, FS, GS, CS. -/
theorem search_seg (e : Env) (h : List Event) (n : Nat) (d : Seg) :
    (Reaches e h n d ∧ searchAssume e (run e h.reverse) (some (.seg n)) (some d) true = some d) ∨
    (¬ Reaches e h n d ∧
      searchAssume e (run e h.reverse) (some (.seg n)) (some d) true =
        ((searchtab.find? fun r => decide (assumedTo e h r = some (.seg n))).orElse fun _ =>
          searchtab.find? fun r => decide (∃ g, e.groupOf n = some g ∧ assumedTo e h r = some (.grp g)))) := by
  classical
  have hin : ∀ r, inGroup e (run e h.reverse) (e.groupOf n) r = true ↔
      ∃ g, e.groupOf n = some g ∧ assumedTo e h r = some (.grp g) := by
    intro r
    cases hg : e.groupOf n with
    | none => simp [inGroup]
    | some g => simp [inGroup, grpMatches_iff]
  have hd : ((run e h.reverse d).symbol == some (.seg n) ||
      inGroup e (run e h.reverse) (e.groupOf n) d) = true ↔ Reaches e h n d := by
    rw [Bool.or_eq_true, hin, beq_iff_eq, table_symbol]; rfl
  by_cases hr : Reaches e h n d
  · refine .inl ⟨hr, ?_⟩
    simp only [searchAssume, getGroup, if_true]
    rw [if_pos (hd.2 hr)]
  · refine .inr ⟨hr, ?_⟩
    simp only [searchAssume, getGroup, if_true]
    rw [if_neg (fun q => hr (hd.1 q))]
    have e1 : (fun r => (run e h.reverse r).symbol == some (.seg n)) =
        fun r => decide (assumedTo e h r = some (.seg n)) := by
      funext r; rw [table_symbol, Bool.eq_iff_iff, beq_iff_eq, decide_eq_true_iff]
    have e2 : inGroup e (run e h.reverse) (e.groupOf n) =
        fun r => decide (∃ g, e.groupOf n = some g ∧ assumedTo e h r = some (.grp g)) := by
      funext r
      rw [Bool.eq_iff_iff, hin, decide_eq_true_iff]
    rw [e1, e2]
    cases searchtab.find? fun r => decide (assumedTo e h r = some (.seg n)) <;> rfl

theorem search_seg_reaches {e : Env} {h : List Event} {n : Nat} {d r : Seg}
    (hs : searchAssume e (run e h.reverse) (some (.seg n)) (some d) true = some r) : Reaches e h n r := by
  rcases search_seg e h n d with ⟨h1, h2⟩ | ⟨-, h2⟩
  · rw [h2] at hs; cases hs; exact h1
  · rw [h2] at hs
    cases hf : searchtab.find? fun r => decide (assumedTo e h r = some (.seg n)) with
    | some x =>
      rw [hf] at hs
      cases hs
      have := List.find?_some hf
      exact .inl (of_decide_eq_true this)
    | none =>
      rw [hf] at hs
      have hs : searchtab.find? (fun r => decide (∃ g, e.groupOf n = some g ∧ assumedTo e h r = some (.grp g))) = some r := hs
      have := List.find?_some hs
      exact .inr (of_decide_eq_true this)

theorem search_seg_none {e : Env} {h : List Event} {n : Nat} {d : Seg} :
    searchAssume e (run e h.reverse) (some (.seg n)) (some d) true = none ↔ ∀ r, ¬ Reaches e h n r := by
  constructor
  · intro hs r hr
    rcases search_seg e h n d with ⟨-, h2⟩ | ⟨-, h2⟩
    · rw [h2] at hs; cases hs
    · rw [h2] at hs
      cases hf : searchtab.find? fun r => decide (assumedTo e h r = some (.seg n)) with
      | some x => rw [hf] at hs; cases hs
      | none =>
        rw [hf] at hs
        have hs : searchtab.find? (fun r => decide (∃ g, e.groupOf n = some g ∧ assumedTo e h r = some (.grp g))) = none := hs
        rw [List.find?_eq_none] at hf hs
        rcases hr with q | q
        · exact hf r (mem_searchtab r) (decide_eq_true q)
        · exact hs r (mem_searchtab r) (decide_eq_true q)
  · intro hn
    cases hs : searchAssume e (run e h.reverse) (some (.seg n)) (some d) true with
    | none => rfl
    | some r => exact absurd (search_seg_reaches hs) (hn r)

/-- The search for a segment or group given by name. -/
theorem search_area {e : Env} {h : List Event} {a : Area} {d r : Seg}
    (hs : searchAssume e (run e h.reverse) (some a) (some d) false = some r) : assumedTo e h r = some a := by
  simp only [searchAssume, inGroup, Bool.or_false, Bool.false_eq_true, if_false] at hs
  split at hs
  · rename_i q
    cases hs
    rw [beq_iff_eq, table_symbol] at q
    exact q
  · split at hs
    · rename_i x hf
      cases hs
      have := List.find?_some hf
      rw [beq_iff_eq, table_symbol] at this
      exact this
    · have := List.find?_some hs
      cases this

theorem search_area_none {e : Env} {h : List Event} {a : Area} {d : Seg}
    (hs : searchAssume e (run e h.reverse) (some a) (some d) false = none) (r : Seg) : assumedTo e h r ≠ some a := by
  intro q
  simp only [searchAssume, inGroup, Bool.or_false, Bool.false_eq_true, if_false] at hs
  split at hs
  · cases hs
  · split at hs
    · cases hs
    · rename_i hf
      rw [List.find?_eq_none] at hf
      exact hf r (mem_searchtab r) (by rw [beq_iff_eq, table_symbol]; exact q)

/-! ### The register and the frame of an operand with a label -/

/-- A label: not on the stack, defined (or external), in a segment. -/
def IsLabel (s : MSym) (n : Nat) : Prop := (s.state = .internal ∨ s.state = .external) ∧ s.segment = some n

theorem flat_cases (e : Env) (h : List Event) (d : Seg) :
    ((run e h.reverse d).isFlat = true ∧ FlatReg e h d) ∨ ((run e h.reverse d).isFlat = false ∧ ¬ FlatReg e h d) := by
  cases hf : (run e h.reverse d).isFlat with
  | true => exact .inl ⟨rfl, (table_flat e h d).1 hf⟩
  | false => exact .inr ⟨rfl, fun q => by rw [(table_flat e h d).2 q] at hf; cases hf⟩

theorem getAssume_ok {e : Env} {h : List Event} {ov : Option Area} {s : MSym} {n : Nat} (hl : IsLabel s n) {d r : Seg}
    {a : Option Area} (hg : getAssume e (run e h.reverse) ov (some s) d = (some r, a)) :
    ∃ x, a = some x ∧ assumedTo e h r = some x ∧
      ((FlatReg e h d ∧ r = d) ∨ (∃ o, ov = some o ∧ x = o) ∨ (ov = none ∧ Reaches e h n r)) := by
  unfold getAssume at hg
  rcases flat_cases e h d with ⟨hf, f, h1, h2⟩ | ⟨hf, -⟩
  · rw [if_pos hf] at hg
    simp only [Prod.mk.injEq, Option.some.injEq] at hg
    obtain ⟨rfl, rfl⟩ := hg
    exact ⟨.grp f, by rw [h1]; rfl, h2, .inl ⟨⟨f, h1, h2⟩, rfl⟩⟩
  · rw [if_neg (by simp [hf])] at hg
    obtain ⟨hst, hseg⟩ := hl
    have hns : s.state ≠ .stack := by rcases hst with q | q <;> simp [q]
    cases ov with
    | some o =>
      simp only at hg
      cases hs : searchAssume e (run e h.reverse) (some o) (some d) false with
      | none => rw [hs] at hg; simp [hseg] at hg
      | some x =>
        rw [hs] at hg
        simp only [Prod.mk.injEq, Option.some.injEq] at hg
        obtain ⟨rfl, rfl⟩ := hg
        have := search_area hs
        exact ⟨o, by rw [table_symbol, this], this, .inr (.inl ⟨o, rfl, rfl⟩)⟩
    | none =>
      simp only [if_neg hns, hseg, Option.map_some] at hg
      cases hs : searchAssume e (run e h.reverse) (some (.seg n)) (some d) true with
      | none => rw [hs] at hg; simp [hseg] at hg
      | some x =>
        rw [hs] at hg
        simp only [Prod.mk.injEq, Option.some.injEq] at hg
        obtain ⟨rfl, rfl⟩ := hg
        have hr := search_seg_reaches hs
        rcases id hr with q | ⟨g, -, q⟩
        · exact ⟨_, by rw [table_symbol, q], q, .inr (.inr ⟨rfl, hr⟩)⟩
        · exact ⟨_, by rw [table_symbol, q], q, .inr (.inr ⟨rfl, hr⟩)⟩

/-- What is chosen for a label: a register `r`, and a frame; the register is assumed to the frame, or it is the register given
in the source, which is not assumed to anything, and the frame is the label's own. -/
theorem operand_label {e : Env} {h : List Event} {mode : Mode} {ov : Override} {s : MSym} {n : Nat} (hl : IsLabel s n)
    {idx base : Option Reg} {st : S} (ho : operand e (run e h.reverse) mode .other ov (some s) idx base = .ok st) :
    ∃ r a, st.regOverride = some r ∧ st.frame = .area a ∧
      (assumedTo e h r = some a ∨ (ov = .reg r ∧ assumedTo e h r = none ∧ a = ownFrame e n)) ∧
      (∀ q, ov = .reg q → r = q ∧ declaredError h r = false) := by
  obtain ⟨hst, hseg⟩ := id hl
  unfold operand at ho
  simp only [bind, Except.bind] at ho
  split at ho
  · cases ho
  rename_i st1 h1
  cases ov with
  | none =>
    simp only [segmOverride, Except.ok.injEq] at h1
    subst h1
    simp only [segOverride, Option.isSome_some, true_or, if_true] at ho
    obtain ⟨state, segment⟩ := s
    have hu : state ≠ .undefined := by rcases hst with q | q <;> simp only at q <;> simp [q]
    unfold checkAssume at ho
    split at ho
    · rename_i w hw; exact absurd (by simpa using hw : state = .undefined ∧ _).1 hu
    · cases hg : getAssume e (run e h.reverse) none (some ⟨state, segment⟩) (defaultSeg (overrideReg idx base)) with
      | mk reg a =>
        rw [hg] at ho
        cases reg with
        | none => simp only at hseg; simp [hseg] at ho
        | some r =>
          obtain ⟨x, rfl, hx, -⟩ := getAssume_ok hl hg
          simp only [Except.ok.injEq] at ho
          subst ho
          exact ⟨r, x, rfl, rfl, .inl hx, fun q hq => by cases hq⟩
  | area o =>
    simp only [segmOverride, Except.ok.injEq] at h1
    subst h1
    simp only [segOverride, Option.isSome_some, true_or, if_true] at ho
    obtain ⟨state, segment⟩ := s
    have hu : state ≠ .undefined := by rcases hst with q | q <;> simp only at q <;> simp [q]
    unfold checkAssume at ho
    split at ho
    · rename_i w hw; exact absurd (by simpa using hw : state = .undefined ∧ _).1 hu
    · cases hg : getAssume e (run e h.reverse) (some o) (some ⟨state, segment⟩) (defaultSeg (overrideReg idx base)) with
      | mk reg a =>
        rw [hg] at ho
        cases reg with
        | none => simp only at hseg; simp [hseg] at ho
        | some r =>
          obtain ⟨x, rfl, hx, -⟩ := getAssume_ok hl hg
          simp only [Except.ok.injEq] at ho
          subst ho
          exact ⟨r, x, rfl, rfl, .inl hx, fun q hq => by cases hq⟩
  | reg q =>
    simp only [segmOverride] at h1
    split at h1
    · cases h1
    rename_i herr
    split at h1
    · cases h1
    simp only [Except.ok.injEq] at h1
    subst h1
    simp only [segOverride, Except.ok.injEq] at ho
    subst ho
    have herr : declaredError h q = false := by rw [← table_error e]; simpa using herr
    have hoa : getOverrideAssume e (run e h.reverse) q = assumedTo e h q := by
      unfold getOverrideAssume
      rcases flat_cases e h q with ⟨hf, f, h1, h2⟩ | ⟨hf, -⟩
      · rw [if_pos hf, h1, h2]; rfl
      · rw [if_neg (by simp [hf]), table_symbol]
    rw [hoa]
    cases ha : assumedTo e h q with
    | some a =>
      exact ⟨q, a, rfl, rfl, .inl ha, fun _ hq => by cases hq; exact ⟨rfl, herr⟩⟩
    | none =>
      refine ⟨q, ownFrame e n, rfl, ?_, .inr ⟨rfl, ha, rfl⟩, fun _ hq => by cases hq; exact ⟨rfl, herr⟩⟩
      simp only [setFrameSym, ownFrame]
      rw [hseg]
      rcases hst with q' | q' <;> rw [q'] <;> cases hg : e.groupOf n <;> simp [hg]

/-- C56: the instruction reaches the label. `L` is the linear address of the label, the linker writes its distance from the
frame (added to what is in the field). Where the registers hold what they are assumed to hold, the segment register that the
processor uses and the effective address give the label's address plus the terms in the source, for all contents of the general
registers. -/
theorem C56_label_is_reached {e : Env} {h : List Event} {cx : ModRM.Ctx} {ts : List ModRM.Term} {other : ModRM.Other}
    {o : ModRM.Opnd} {st : S} {enc : ModRM.Enc} {s : MSym} {n : Nat} {ov : Override} {w : World}
    (hl : IsLabel s n) (hmode : cx.mode ≠ .u64) (hs : ModRM.Source cx ts) (hfix : cx.fixup = true) (hother : other.ok)
    (hev : ModRM.evalTerms ts = .ok o)
    (hop : operand e (run e h.reverse) cx.mode .other ov (some s) o.idx o.base = .ok st) (hcx : cx.seg = st.regOverride)
    (henc : ModRM.assemble cx ts other = .ok enc) (hon : Honoured e h w)
    (hown : ∀ r, ov = .reg r → assumedTo e h r = none → w.reg r = w.base (ownFrame e n)) :
    ∃ a pre k, st.frame = .area a ∧ enc.bytes = pre ++ ModRM.leBytes (ModRM.numSum ts) k ∧
      ∀ (L : Int) (field tail : List Nat), field.length = k →
        ModRM.leSigned field % 2 ^ (8 * k) = (L - w.base a + ModRM.numSum ts) % 2 ^ (8 * k) →
        ∃ ea r, ModRM.decode cx.mode enc.p67 enc.rex (pre ++ field ++ tail) = some (ea, other.no, tail) ∧
          ModRM.usedSeg cx.mode enc.seg ea.stack = some r ∧
          ∀ regs next, (w.reg r + ea.addr regs next) % 2 ^ ea.bits = (L + ModRM.sumTerms regs next ts) % 2 ^ ea.bits := by
  obtain ⟨r, a, h1, h2, h3, -⟩ := operand_label hl hop
  have hra : w.reg r = w.base a := by
    rcases h3 with q | ⟨q1, q2, rfl⟩
    · exact hon r a q
    · exact hown r q1 q2
  obtain ⟨pre, k, hb, hdec⟩ := ModRM.C19_fixup hs hfix hother henc
  refine ⟨a, pre, k, h2, hb, ?_⟩
  intro L field tail hlen hfield
  obtain ⟨ea, hd, hk, haddr, -, -, hseg⟩ := hdec field tail hlen
  refine ⟨ea, r, hd, ?_, ?_⟩
  · rw [hseg, hcx, h1]
    simp [ModRM.usedSeg, hmode]
  · intro regs next
    have hbits : 8 * k = ea.bits := by
      have hb' : ea.bits = ModRM.addrBits cx.mode enc.p67 := by
        have := hd
        unfold ModRM.decode at this
        revert this
        cases hp : pre ++ field ++ tail with
        | nil => simp
        | cons m rest =>
          simp only
          intro this
          split at this
          · cases this
          · split at this
            · cases hf : ModRM.form16 (m / 64) (m % 8) with
              | none => rw [hf] at this; simp at this
              | some f =>
                rw [hf] at this
                simp only [Option.bind_some] at this
                split at this
                · cases this
                · simp only [Option.some.injEq, Prod.mk.injEq] at this; rw [← this.1]
            · split at this
              · split at this
                · cases this
                · split at this
                  · cases this
                  · simp only [Option.some.injEq, Prod.mk.injEq] at this; rw [← this.1]
              · split at this
                · cases this
                · simp only [Option.some.injEq, Prod.mk.injEq] at this; rw [← this.1]
      rcases ModRM.addrBits_cases cx.mode enc.p67 with q | q | q
      · rw [hb', q] at hk ⊢; simp [hk]
      · rw [hb', q] at hk ⊢; simp [hk]
      · exact absurd q.2 hmode
    have hble : ea.bits ≤ 64 := by
      rw [← hbits, hk]; split <;> omega
    rw [haddr, if_neg (fun q => hmode q.2), add_zero, hra, Int.add_emod_emod]
    rw [hbits] at hfield
    rw [ModRM.sumTerms_split regs next ts]
    have e1 := ModRM.numSum_emod ts hble (L + ModRM.sumTerms regs next (ModRM.regTerms ts))
    rw [← add_assoc L, ← e1]
    have e2 : w.base a + (ModRM.sumTerms regs next (ModRM.regTerms ts) + ModRM.leSigned field) =
      (w.base a + ModRM.sumTerms regs next (ModRM.regTerms ts)) + ModRM.leSigned field := by ring
    rw [e2, Int.add_emod, hfield, ← Int.add_emod]
    congr 1
    ring

/-- C56: a label without override in the source is refused only where no register gives access to it: neither is a register
assumed to its segment or group, nor is the default register assumed to FLAT. -/
theorem C56_refused_iff {e : Env} {h : List Event} {mode : Mode} {s : MSym} {n : Nat} (hl : IsLabel s n) (idx base : Option Reg) :
    operand e (run e h.reverse) mode .other .none (some s) idx base = .error .cannotAccess ↔
      (∀ r, ¬ Reaches e h n r) ∧ ¬ FlatReg e h (defaultSeg (overrideReg idx base)) := by
  obtain ⟨hst, hseg⟩ := id hl
  obtain ⟨state, segment⟩ := s
  simp only at hst hseg
  subst hseg
  have hns : state ≠ .stack := by rcases hst with q | q <;> simp [q]
  have hu : state ≠ .undefined := by rcases hst with q | q <;> simp [q]
  generalize hd : defaultSeg (overrideReg idx base) = d
  have key : operand e (run e h.reverse) mode .other .none (some ⟨state, some n⟩) idx base =
      checkAssume e (run e h.reverse) (some ⟨state, some n⟩) d {} := by
    simp only [operand, segmOverride, bind, Except.bind, segOverride, Option.isSome_some, true_or, if_true, hd]
  rw [key]
  have key2 : checkAssume e (run e h.reverse) (some ⟨state, some n⟩) d {} = .error .cannotAccess ↔
      (getAssume e (run e h.reverse) none (some ⟨state, some n⟩) d).1 = none := by
    unfold checkAssume
    split
    · rename_i w hw; exact absurd (by simpa using hw : state = .undefined ∧ _).1 hu
    · cases hg : getAssume e (run e h.reverse) none (some ⟨state, some n⟩) d with
      | mk reg a => cases reg <;> simp
  rw [key2]
  unfold getAssume
  rcases flat_cases e h d with ⟨hf, hF⟩ | ⟨hf, hF⟩
  · rw [if_pos hf]; simp [hF]
  · rw [if_neg (by simp [hf])]
    simp only [if_neg hns, Option.map_some]
    rw [← search_seg_none (d := d)]
    cases hs : searchAssume e (run e h.reverse) (some (.seg n)) (some d) true <;> simp [hF]

/-- C56: which register is taken for a label without override: the default register of the addressing mode if it is assumed to
FLAT, to the segment of the label or to its group; otherwise the first of DS, SS, ES, FS, GS, CS that is assumed to the segment;
otherwise the first of these that is assumed to the group. -/
theorem C56_choice {e : Env} {h : List Event} {mode : Mode} {s : MSym} {n : Nat} (hl : IsLabel s n) {idx base : Option Reg}
    {st : S} (hop : operand e (run e h.reverse) mode .other .none (some s) idx base = .ok st) :
    (FlatReg e h (defaultSeg (overrideReg idx base)) ∨ Reaches e h n (defaultSeg (overrideReg idx base)) →
      st.regOverride = some (defaultSeg (overrideReg idx base))) ∧
    (¬ (FlatReg e h (defaultSeg (overrideReg idx base)) ∨ Reaches e h n (defaultSeg (overrideReg idx base))) →
      st.regOverride = (([.ds, .ss, .es, .fs, .gs, .cs].find? fun r => decide (assumedTo e h r = some (.seg n))).orElse fun _ =>
          [.ds, .ss, .es, .fs, .gs, .cs].find? fun r => decide (∃ g, e.groupOf n = some g ∧ assumedTo e h r = some (.grp g)))) := by
  obtain ⟨hst, hseg⟩ := id hl
  obtain ⟨state, segment⟩ := s
  simp only at hst hseg
  subst hseg
  have hns : state ≠ .stack := by rcases hst with q | q <;> simp [q]
  have hu : state ≠ .undefined := by rcases hst with q | q <;> simp [q]
  generalize hd : defaultSeg (overrideReg idx base) = d at *
  have key : operand e (run e h.reverse) mode .other .none (some ⟨state, some n⟩) idx base =
      checkAssume e (run e h.reverse) (some ⟨state, some n⟩) d {} := by
    simp only [operand, segmOverride, bind, Except.bind, segOverride, Option.isSome_some, true_or, if_true, hd]
  rw [key] at hop
  have key2 : st.regOverride = (getAssume e (run e h.reverse) none (some ⟨state, some n⟩) d).1 := by
    unfold checkAssume at hop
    split at hop
    · rename_i w hw; exact absurd (by simpa using hw : state = .undefined ∧ _).1 hu
    · cases hg : getAssume e (run e h.reverse) none (some ⟨state, some n⟩) d with
      | mk reg a =>
        rw [hg] at hop
        cases reg with
        | none => simp at hop
        | some r => simp only [Except.ok.injEq] at hop; subst hop; rfl
  rw [key2]
  unfold getAssume
  rcases flat_cases e h d with ⟨hf, hF⟩ | ⟨hf, hF⟩
  · rw [if_pos hf]; exact ⟨fun _ => rfl, fun q => absurd (.inl hF) q⟩
  · rw [if_neg (by simp [hf])]
    simp only [if_neg hns, Option.map_some]
    rcases search_seg e h n d with ⟨q1, q2⟩ | ⟨q1, q2⟩
    · rw [q2]; exact ⟨fun _ => rfl, fun q => absurd (.inr q1) q⟩
    · refine ⟨fun q => absurd (q.resolve_left hF) q1, fun _ => ?_⟩
      refine Eq.trans ?_ q2
      cases searchAssume e (run e h.reverse) (some (.seg n)) (some d) true <;> simp

/-- C56: a parameter or local variable is accessed through SS, or through the default register of the addressing mode if that
is assumed to FLAT. -/
theorem C56_stack_variable (e : Env) (h : List Event) (mode : Mode) (idx base : Option Reg) :
    ∃ st, operand e (run e h.reverse) mode .other .none (some ⟨.stack, none⟩) idx base = .ok st ∧
      (FlatReg e h (defaultSeg (overrideReg idx base)) → st.regOverride = some (defaultSeg (overrideReg idx base))) ∧
      (¬ FlatReg e h (defaultSeg (overrideReg idx base)) → st.regOverride = some .ss) := by
  generalize hd : defaultSeg (overrideReg idx base) = d
  simp only [operand, segmOverride, bind, Except.bind, segOverride, Option.isSome_some, true_or, if_true, hd, checkAssume, getAssume]
  rcases flat_cases e h d with ⟨hf, hF⟩ | ⟨hf, hF⟩ <;> simp [hf, hF]

/-- C56: an external symbol whose segment is not known is accessed through the default register, relative to what that register
is assumed to (if anything). -/
theorem C56_external_variable (e : Env) (h : List Event) (mode : Mode) (idx base : Option Reg) :
    ∃ st, operand e (run e h.reverse) mode .other .none (some ⟨.external, none⟩) idx base = .ok st ∧
      st.regOverride = some (defaultSeg (overrideReg idx base)) ∧
      (∀ a, assumedTo e h (defaultSeg (overrideReg idx base)) = some a ↔ st.frame = .area a) := by
  generalize hd : defaultSeg (overrideReg idx base) = d
  simp only [operand, segmOverride, bind, Except.bind, segOverride, Option.isSome_some, true_or, if_true, hd, checkAssume, getAssume]
  rcases flat_cases e h d with ⟨hf, f, h1, h2⟩ | ⟨hf, hF⟩
  · simp [hf, h1, h2, setFrameArea]
  · simp only [hf, Bool.false_eq_true, if_false, searchAssume, Option.map_none, reduceCtorEq, and_self, if_true]
    rw [table_symbol]
    cases assumedTo e h d <;> simp [setFrameArea]

/-- The prefix: the register is written down unless it is the default register. -/
theorem setRmSib_override {cx : ModRM.Ctx} {adrsiz : Bool} {ss : Nat} {idx base : Option Reg} {v : Int} {ci : ModRM.CI}
    (h : ModRM.setRmSib cx adrsiz ss idx base v = .ok ci) :
    ci.regOverride = ModRM.segOverride cx.seg (overrideReg idx base) := by
  unfold ModRM.setRmSib at h
  cases idx with
  | none =>
    cases base with
    | none =>
      simp only at h
      split at h
      · split at h
        · cases h
        · cases h; rfl
      · split at h <;> cases h <;> rfl
    | some b =>
      simp only at h
      repeat' split at h
      all_goals (cases h; rfl)
  | some i =>
    cases base with
    | none => simp only at h; cases h; rfl
    | some b =>
      simp only [bind, Except.bind] at h
      split at h
      · cases h
      split at h
      · rename_i q
        split at h
        · cases h
        split at h
        · cases h
        cases h
        simp only [overrideReg, if_pos q]
      · rename_i q
        split at h
        · split at h
          · cases h
          split at h
          · cases h
          cases h
          simp only [overrideReg, if_neg q]
        · split at h
          · cases h
          · cases h
            simp only [overrideReg, if_neg q]

/-- C56: no needless prefix, and no missing one: a prefix is emitted exactly if the register is not the default of the
addressing mode. -/
theorem C56_prefix {cx : ModRM.Ctx} {ts : List ModRM.Term} {other : ModRM.Other} {o : ModRM.Opnd} {enc : ModRM.Enc} {r : Seg}
    (hev : ModRM.evalTerms ts = .ok o) (hcx : cx.seg = some r) (henc : ModRM.assemble cx ts other = .ok enc) :
    enc.seg = if r = defaultSeg (overrideReg o.idx o.base) then none else some r := by
  unfold ModRM.assemble at henc
  simp only [hev, bind, Except.bind] at henc
  split at henc
  · cases henc
  rename_i ci hci
  have hse : enc.seg = ci.regOverride := by
    unfold ModRM.output at henc
    simp only at henc
    repeat' split at henc
    all_goals first | (cases henc; rfl) | cases henc
  unfold ModRM.memoryOperand at hci
  simp only [bind, Except.bind] at hci
  split at hci
  · cases hci
  split at hci
  · cases hci
  split at hci
  · cases hci
  rw [hse, setRmSib_override hci, hcx]
  have hd : ∀ q, ModRM.segOverride (some r) q = if r = defaultSeg q then none else some r := by
    intro q
    unfold ModRM.segOverride defaultSeg
    split <;> simp
  exact hd _

/-! ### C57: overrides without label, string instructions -/

/-- C57: `name:[...]` without label, `name` a segment or group: if it is accepted, the register is assumed to it. Not if the
default register is assumed to FLAT (`C57_finding_flat`). -/
theorem C57_named_override_partial {e : Env} {h : List Event} {mode : Mode} {a : Area} {idx base : Option Reg} {st : S}
    (hnf : ¬ FlatReg e h (defaultSeg (overrideReg idx base)))
    (hop : operand e (run e h.reverse) mode .other (.area a) none idx base = .ok st) :
    ∃ r, st.regOverride = some r ∧ assumedTo e h r = some a := by
  simp only [operand, segmOverride, bind, Except.bind, segOverride, Option.isSome_some, or_true, if_true] at hop
  generalize defaultSeg (overrideReg idx base) = d at *
  unfold checkAssume getAssume at hop
  rcases flat_cases e h d with ⟨-, hF⟩ | ⟨hf, -⟩
  · exact absurd hF hnf
  · simp only [hf, Bool.false_eq_true, if_false] at hop
    cases hs : searchAssume e (run e h.reverse) (some a) (some d) false with
    | none => rw [hs] at hop; simp at hop
    | some r =>
      rw [hs] at hop
      simp only [Except.ok.injEq] at hop
      subst hop
      exact ⟨r, rfl, search_area hs⟩

/-- C57: it is refused if no register is assumed to the name. -/
theorem C57_named_override_refused {e : Env} {h : List Event} {mode : Mode} {a : Area} {idx base : Option Reg}
    (hnf : ¬ FlatReg e h (defaultSeg (overrideReg idx base))) (hno : ∀ r, assumedTo e h r ≠ some a) :
    operand e (run e h.reverse) mode .other (.area a) none idx base = .error .cannotAccess := by
  cases hop : operand e (run e h.reverse) mode .other (.area a) none idx base with
  | ok st =>
    obtain ⟨r, -, q⟩ := C57_named_override_partial hnf hop
    exact absurd q (hno r)
  | error x =>
    simp only [operand, segmOverride, bind, Except.bind, segOverride, Option.isSome_some, or_true, if_true] at hop
    unfold checkAssume at hop
    revert hop
    cases hg : getAssume e (run e h.reverse) (some a) none (defaultSeg (overrideReg idx base)) with
    | mk reg y => cases reg <;> simp <;> exact fun q => q.symm

/-- C57: a segment register in the source is used, with or without label, or the operand is refused. -/
theorem C57_register_override {e : Env} {h : List Event} {mode : Mode} {r : Seg} {sym : Option MSym} {idx base : Option Reg}
    {st : S} (hop : operand e (run e h.reverse) mode .other (.reg r) sym idx base = .ok st) :
    st.regOverride = some r ∧ declaredError h r = false ∧ (mode = .u64 → r = .fs ∨ r = .gs) := by
  simp only [operand, segmOverride, bind, Except.bind] at hop
  rw [table_error] at hop
  cases he : declaredError h r with
  | true => rw [he] at hop; simp at hop
  | false =>
    rw [he] at hop
    simp only [Bool.false_eq_true, if_false] at hop
    by_cases hm : mode = .u64 ∧ Seg.high r = false
    · rw [if_pos hm] at hop; simp at hop
    · rw [if_neg hm] at hop
      refine ⟨?_, rfl, ?_⟩
      · simp only [segOverride] at hop
        cases sym <;> cases hop <;> rfl
      · intro hu
        cases r <;> simp_all [Seg.high]

/-- C57: `SEG16:[0]` while DS is assumed to FLAT and ES to SEG16: the processor uses DS, not ES. -/
theorem C57_finding_flat :
    ∃ (e : Env) (h : List Event) (st : S),
      assumedTo e h .es = some (.seg 1) ∧ assumedTo e h .ds = some (.grp 0) ∧ e.flat = some 0 ∧
      operand e (run e h.reverse) .u32 .other (.area (.seg 1)) none none none = .ok st ∧ st.regOverride = some .ds :=
  ⟨⟨fun _ => none, some 0⟩, [.item .es (.area (.seg 1)), .item .ds (.area (.grp 0))],
    { regOverride := some .ds, segOverride := some (.seg 1), frame := .area (.grp 0) }, by decide +kernel⟩

/-- C57: the segments in the operands of CMPS, LODS, OUTS, STOS, SCAS, INS are honoured or refused. MOVS: the destination has
none (or ES). -/
theorem C57_string_instructions_partial {k : Str} {o1 o2 p : Option Seg} (hk : k = .movs → o1 = none ∨ o1 = some .es)
    (h1 : k = .lods ∨ k = .stos → o2 = none) (h : stringInstr k o1 o2 = .ok p) : k.Honours o1 o2 p := by
  rcases k with _ | _ | _ | _ <;> rcases o1 with _ | r1 <;> rcases o2 with _ | r2 <;> simp_all [stringInstr, strPrefix, Str.Honours,
    Str.source, Str.dest]
  all_goals (try (cases r1 <;> simp_all <;> try (subst h; simp)))
  all_goals (try (cases r2 <;> simp_all <;> try (subst h; simp)))
  all_goals (subst h; simp)

/-- C57: no other segment prefix than DS is dropped. CMPS, LODS: what can be done is not refused. -/
theorem C57_string_not_refused {k : Str} {o1 o2 : Option Seg} (hk : k ≠ .movs ∨ o1 = none) (h1 : k = .lods ∨ k = .stos → o2 = none)
    (h : stringInstr k o1 o2 = .error .invalidOperands) : ∀ p, ¬ k.Honours o1 o2 p := by
  intro p
  rcases k with _ | _ | _ | _ <;> rcases o1 with _ | r1 <;> rcases o2 with _ | r2 <;> simp_all [stringInstr, strPrefix, Str.Honours,
    Str.source, Str.dest]
  all_goals (try (cases r1 <;> simp_all))
  all_goals (try (cases r2 <;> simp_all))

/-- C57: `movs byte ptr ds:[di], fs:[si]` is accepted, the destination is ES:DI. -/
theorem C57_finding_movs : stringInstr .movs (some .ds) (some .fs) = .ok (some .fs) ∧
    ∀ p, ¬ Str.Honours .movs (some .ds) (some .fs) p := by
  refine ⟨rfl, fun p h => ?_⟩
  have := h.2 .ds rfl
  cases this

/-- C57: `movs byte ptr es:[di], [si]`, which names what the processor does, is refused. -/
theorem C57_finding_movs_refused : stringInstr .movs (some .es) none = .error .invalidOperands ∧
    Str.Honours .movs (some .es) none none := by
  refine ⟨rfl, fun o h => by cases h; rfl, fun r h => by cases h; rfl⟩

/-! ### C58: general registers assumed to ERROR -/

theorem grun_cons (ev : GEvent) (h : List GEvent) : grun (ev :: h).reverse = gstep (grun h.reverse) ev := by
  simp [grun, List.foldl_append]

theorem errBit_inj {a b : GCls} (h : errBit a = errBit b) : a = b := by cases a <;> cases b <;> simp_all [errBit]

/-- C58: a register as an operand is refused exactly if the last ASSUME for this register said ERROR. -/
theorem C58_register_refused_iff (h : List GEvent) (r : GReg) : regRefused (grun h.reverse) r = declaredErrorG h r := by
  unfold regRefused
  induction h with
  | nil => rfl
  | cons ev h ih =>
    rw [grun_cons]
    cases ev with
    | nothing => rfl
    | item s a =>
      have hiff : (r.no = s.no ∧ errBit r.cls = errBit s.cls) ↔ r = s := by
        constructor
        · rintro ⟨q1, q2⟩
          cases r; cases s
          simp only at q1 q2
          rw [q1, errBit_inj q2]
        · rintro rfl; exact ⟨rfl, rfl⟩
      cases a <;> simp only [gstep, declaredErrorG, hiff] <;> split <;> simp_all

/-- C58: base and index registers are refused if the register (or another one with the same number in the encoding) was
assumed to ERROR: the number 4 belongs to AH, SPL, SP, ESP and RSP (`C58_finding_ah`). -/
theorem C58_address_refused_partial (h : List GEvent) {n : Nat} (hn : n < 16) :
    ∃ b, eaRefused (grun h.reverse) n = some b ∧ (b = true ↔ ∃ c, declaredErrorG h ⟨c, n⟩ = true) := by
  refine ⟨_, by rw [eaRefused, if_pos hn], ?_⟩
  have e : ∀ c, grun h.reverse n (errBit c) = declaredErrorG h ⟨c, n⟩ := fun c => C58_register_refused_iff h ⟨c, n⟩
  have e0 := e .lo
  have e1 := e .w
  have e2 := e .d
  have e3 := e .q
  have e4 := e .hi
  simp only [errBit] at e0 e1 e2 e3 e4
  rw [e0, e1, e2, e3, e4]
  simp only [Bool.or_eq_true]
  constructor
  · rintro ((((q | q) | q) | q) | q) <;> exact ⟨_, q⟩
  · rintro ⟨c, q⟩
    cases c <;> simp [q]

/-- C58: after `ASSUME AH:ERROR` the operand `[esp]` is refused (and `[eax]` is not): AH has number 4. -/
theorem C58_finding_ah :
    eaRefused (grun [.item ⟨.hi, 4⟩ .error]) 4 = some true ∧ eaRefused (grun [.item ⟨.hi, 4⟩ .error]) 0 = some false := by
  decide +kernel

/-- C58: `[rip]` (number 16) and vector indices from 16 on read behind the end of the table. -/
theorem C58_finding_table_end (t : StdTable) (n : Nat) (h : 16 ≤ n) : eaRefused t n = none := by
  rw [eaRefused, if_neg (by omega)]

/-! ### The hypotheses can be met -/

/-- DATA (1) is in DGROUP (0), XDATA (2) is in no group; DS and SS are assumed to DGROUP, ES to XDATA. -/
def exEnv : Env := ⟨fun n => if n = 1 then some 0 else none, none⟩
def exHist : List Event := [.item .es (.area (.seg 2)), .item .ss (.area (.grp 0)), .item .ds (.area (.grp 0)), .segment (some 3)]
def exWorld : World := ⟨fun a => match a with | .grp 0 => 0x20000 | .seg 1 => 0x20100 | .seg 2 => 0x30000 | _ => 0x10000,
  fun r => match r with | .es => 0x30000 | .cs => 0x10000 | _ => 0x20000⟩

example : IsLabel ⟨.internal, some 1⟩ 1 := ⟨.inl rfl, rfl⟩
example : Honoured exEnv exHist exWorld := by
  intro r a h
  cases r <;> simp_all [exHist, exEnv, assumedTo] <;> subst h <;> rfl
/-- `mov al, var[bx]`, var in DATA: no prefix, frame DGROUP. -/
example : operand exEnv (run exEnv exHist.reverse) .u16 .other .none (some ⟨.internal, some 1⟩) none (some ⟨.r16, 3⟩) =
    .ok { regOverride := some .ds, frame := .area (.grp 0) } := by decide +kernel
/-- `mov al, xvar[bp]`, xvar in XDATA: ES, frame XDATA. -/
example : operand exEnv (run exEnv exHist.reverse) .u16 .other .none (some ⟨.internal, some 2⟩) none (some ⟨.r16, 5⟩) =
    .ok { regOverride := some .es, frame := .area (.seg 2) } := by decide +kernel
/-- ... and its bytes: a prefix 26h, ModRM 86h with a 16-bit field -/
example : ModRM.assemble { mode := .u16, fixup := true, seg := some .es, dir := .u16 } [.reg ⟨.r16, 5⟩] (.regFirst 0) =
    .ok { p67 := false, seg := some .es, rex := 0, bytes := [0x86, 0, 0] } := by decide +kernel
/-- A label in a segment that no register is assumed to. -/
example : operand exEnv (run exEnv exHist.reverse) .u16 .other .none (some ⟨.internal, some 9⟩) none none =
    .error .cannotAccess := by decide +kernel
example : operand exEnv (run exEnv exHist.reverse) .u16 .other (.reg .ss) (some ⟨.internal, some 1⟩) none none =
    .ok { regOverride := some .ss, segOverride := some (.grp 0), frame := .area (.grp 0) } := by decide +kernel
example : operand exEnv (run exEnv exHist.reverse) .u16 .other (.area (.grp 0)) none none (some ⟨.r16, 5⟩) =
    .ok { regOverride := some .ss, segOverride := some (.grp 0), frame := .area (.grp 0) } := by decide +kernel
example : stringInstr .cmps (some .fs) (some .es) = .ok (some .fs) := rfl
example : declaredErrorG [.item ⟨.d, 1⟩ .error] ⟨.d, 1⟩ = true := rfl

end Verif.Assume
