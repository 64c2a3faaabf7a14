import Verif.OrgFlat.Model
import Mathlib.Data.List.Range
/-! # Property theorems: ORG in binaries of OPTION FLAT (C83) -/
namespace Verif.OrgFlat

namespace Spec

/-- The bytes a program emits. -/
def bytes (l : List Op) : List UInt8 := l.filterMap (fun o => match o with | .emit b => some b | _ => none)

/-- Every ORG is a constant and not below the location it stands at. -/
def Forward : Nat → List Op → Prop
  | _, [] => True
  | p, .emit _ :: r => Forward (p + 1) r
  | p, .org v :: r => p ≤ v ∧ Forward v r
  | _, .orgLabel _ _ :: _ => False

end Spec
open Spec

theorem p1_start : ∀ (l : List Op) (s : P1), s.start = 0 → s.written = true → (l.foldl p1Step s).start = 0 := by
  intro l
  induction l with
  | nil => intro s h _; exact h
  | cons o r ih =>
    intro s h hw
    refine ih _ ?_ ?_
    · unfold p1Step
      cases o <;> simp [Op.dest, h, hw]
    · unfold p1Step
      cases o <;> simp [Op.dest, hw]

/-- The invariant of the last pass. -/
structure Good (s : P2) (out : List UInt8) : Prop where
  pos : 0 < s.loc
  top : s.max = s.loc
  tab : ∀ r ∈ s.table, r.2 ≤ s.loc
  eq : ((List.range s.loc).filter (fun i => !inOrgRange s.table i)).map s.buf = out

theorem notIn {t : List (Nat × Nat)} {p : Nat} (h : ∀ r ∈ t, r.2 ≤ p) : inOrgRange t p = false := by
  unfold inOrgRange
  rw [List.any_eq_false]
  intro r hr
  have := h r hr
  simp
  omega

theorem emit_good {s : P2} {out : List UInt8} (b : UInt8) (h : Good s out) :
    Good (p2Step 0 s (.emit b)) (out ++ [b]) := by
  refine ⟨Nat.succ_pos _, ?_, fun r hr => Nat.le_succ_of_le (h.tab r hr), ?_⟩
  · show (if s.max < s.loc + 1 then s.loc + 1 else s.max) = s.loc + 1
    rw [h.top, if_pos (Nat.lt_succ_self _)]
  · show ((List.range (s.loc + 1)).filter (fun i => !inOrgRange s.table i)).map
      (fun i => if i = s.loc - 0 then b else s.buf i) = _
    rw [List.range_succ, List.filter_append, List.map_append]
    congr 1
    · rw [← h.eq]
      apply List.map_congr_left
      intro i hi
      have : i < s.loc := List.mem_range.1 (List.mem_filter.1 hi).1
      rw [if_neg (by omega)]
    · simp [notIn h.tab]

theorem inOrgRange_append (t : List (Nat × Nat)) (a b i : Nat) :
    inOrgRange (t ++ [(a, b)]) i = (inOrgRange t i || (decide (a ≤ i) && decide (i < b))) := by
  unfold inOrgRange; simp

theorem org_good {s : P2} {out : List UInt8} (v : Nat) (hv : s.loc ≤ v) (h : Good s out) :
    Good (p2Step 0 s (.org v)) out := by
  have hp := h.pos
  refine ⟨Nat.lt_of_lt_of_le h.pos hv, ?_, ?_, ?_⟩
  · show (if s.max < v then v else s.max) = v
    rw [h.top]; split <;> omega
  · intro r hr
    have hr' : r ∈ (if s.loc < v ∧ 0 < s.loc then s.table ++ [(s.loc, v)] else s.table) := hr
    show r.2 ≤ v
    split at hr'
    · rcases List.mem_append.1 hr' with e | e
      · have := h.tab r e; omega
      · rw [List.mem_singleton] at e; subst e; exact Nat.le_refl _
    · have := h.tab r hr'; omega
  · show ((List.range v).filter (fun i => !inOrgRange
      (if s.loc < v ∧ 0 < s.loc then s.table ++ [(s.loc, v)] else s.table) i)).map s.buf = out
    by_cases hlt : s.loc < v
    · rw [if_pos ⟨hlt, hp⟩]
      obtain ⟨k, rfl⟩ := Nat.exists_eq_add_of_le hv
      rw [List.range_add, List.filter_append, List.map_append]
      have e1 : (List.range s.loc).filter (fun i => !inOrgRange (s.table ++ [(s.loc, s.loc + k)]) i) =
          (List.range s.loc).filter (fun i => !inOrgRange s.table i) := by
        apply List.filter_congr
        intro i hi
        have := List.mem_range.1 hi
        rw [inOrgRange_append]
        have : decide (s.loc ≤ i) = false := by simp; omega
        rw [this]; simp
      have e2 : ((List.range k).map (s.loc + ·)).filter
          (fun i => !inOrgRange (s.table ++ [(s.loc, s.loc + k)]) i) = [] := by
        rw [List.filter_eq_nil_iff]
        intro i hi
        obtain ⟨j, hj, rfl⟩ := List.mem_map.1 hi
        have := List.mem_range.1 hj
        rw [inOrgRange_append]
        simp
        omega
      rw [e1, e2, h.eq]; simp
    · have : v = s.loc := by omega
      subst this
      rw [if_neg (fun c => hlt c.1)]
      exact h.eq

theorem run_good : ∀ (l : List Op) (s : P2) (out : List UInt8), Good s out → Forward s.loc l →
    Good (l.foldl (p2Step 0) s) (out ++ bytes l) := by
  intro l
  induction l with
  | nil => intro s out h _; simpa [bytes] using h
  | cons o r ih =>
    intro s out h hf
    cases o with
    | emit b =>
      have := ih _ _ (emit_good b h) hf
      rw [List.append_assoc] at this
      exact this
    | org v => exact ih _ _ (org_good v hf.1 h) hf.2
    | orgLabel a b => exact hf.elim

/-- **C83.**  A flat binary that begins with a byte and whose ORGs are constants that go forward: the file consists of
exactly the bytes the program emits, in order; ORG leaves no gap.  Missing: ORG at the start and ORG with a label,
for which this is false (C83_defect_start, C83_defect_label), and ORG backward, which overwrites. -/
theorem C83_file_partial (b : UInt8) (l : List Op) (hf : Forward 0 (.emit b :: l)) :
    file (.emit b :: l) = bytes (.emit b :: l) := by
  have hs : startLoc (.emit b :: l) = 0 := p1_start l (p1Step ⟨0, 0, false⟩ (.emit b)) rfl rfl
  have h0 : Good (p2Step 0 ⟨0, 0, fun _ => 0, []⟩ (.emit b)) [b] := by
    refine ⟨Nat.one_pos, rfl, fun r hr => absurd hr List.not_mem_nil, ?_⟩
    show ((List.range 1).filter (fun i => !inOrgRange [] i)).map _ = [b]
    rfl
  have h := run_good l _ _ h0 hf
  unfold file
  simp only [hs, List.foldl_cons, Nat.sub_zero]
  rw [h.top, h.eq]
  rfl

example : Forward 0 [.emit 1, .emit 2, .org 0x200, .emit 3, .org 0x210, .org 0x220, .emit 4] := by
  simp [Forward]

example : file [.emit 1, .emit 2, .org 0x20, .emit 3, .org 0x30, .org 0x32, .emit 4] = [1, 2, 3, 4] := by
  decide +kernel

/-- **C83 (defect).**  The table has addresses, the bytes are looked up by their position in the buffer: in a program
that starts at an ORG, a later ORG removes bytes that were emitted, and keeps those of the gap. -/
theorem C83_defect_start :
    file [.org 2, .emit 1, .org 5, .emit 2, .emit 3, .emit 4] = [1, 0, 0, 4] ∧
    bytes [.org 2, .emit 1, .org 5, .emit 2, .emit 3, .emit 4] = [1, 2, 3, 4] := by
  constructor <;> decide +kernel

/-- **C83 (defect).**  An ORG with a label plus a constant not above the location counter leaves a gap of zeros in the
file: the constant is compared without the label. -/
theorem C83_defect_label (b c : UInt8) (sym add : Nat) (ha : add ≤ 1) (hs : 1 < sym + add) :
    file [.emit b, .orgLabel sym add, .emit c] = b :: List.replicate (sym + add - 1) 0 ++ [c] := by
  have h1 : startLoc [.emit b, .orgLabel sym add, .emit c] = 0 := p1_start [.orgLabel sym add, .emit c] (p1Step ⟨0, 0, false⟩ (.emit b)) rfl rfl
  have hn : ¬ 1 < add := by omega
  let s : P2 := { loc := sym + add + 1, max := sym + add + 1, buf := fun i => if i = sym + add then c else if i = 0 then b else 0, table := [] }
  have hfold : [Op.emit b, .orgLabel sym add, .emit c].foldl (p2Step 0) ⟨0, 0, fun _ => 0, []⟩ = s := by
    have m1 : (if (1 : Nat) < sym + add then sym + add else 1) = sym + add := by split <;> omega
    have m2 : (if sym + add < sym + add + 1 then sym + add + 1 else sym + add) = sym + add + 1 := by split <;> omega
    simp only [List.foldl_cons, List.foldl_nil, p2Step, Op.dest, Op.cmp, Option.getD_some, Nat.zero_add, Nat.sub_zero]
    simp only [Nat.zero_lt_one, if_true, m1, m2, s]
    rw [if_neg (fun h => hn h.1)]
  unfold file
  rw [h1]
  simp only [hfold, Nat.sub_zero]
  show ((List.range (sym + add + 1)).filter (fun i => !inOrgRange [] i)).map s.buf = _
  have hall : ∀ n, (List.range n).filter (fun i => !inOrgRange [] i) = List.range n := by
    intro n; exact List.filter_eq_self.2 (fun _ _ => rfl)
  rw [hall, List.range_succ, List.map_append]
  have e1 : (List.range (sym + add)).map s.buf = b :: List.replicate (sym + add - 1) 0 := by
    obtain ⟨m, hm⟩ := Nat.exists_eq_succ_of_ne_zero (show sym + add ≠ 0 by omega)
    rw [hm, List.range_succ_eq_map, List.map_cons, List.map_map]
    congr 1
    · show (if 0 = sym + add then c else if 0 = 0 then b else 0) = b
      rw [if_neg (by omega), if_pos rfl]
    · rw [List.eq_replicate_iff]
      refine ⟨by simp, ?_⟩
      intro x hx
      obtain ⟨j, hj, rfl⟩ := List.mem_map.1 hx
      have := List.mem_range.1 hj
      show (if j + 1 = sym + add then c else if j + 1 = 0 then b else 0) = 0
      rw [if_neg (by omega), if_neg (by omega)]
  rw [e1]
  show _ ++ [if sym + add = sym + add then c else _] = _
  rw [if_pos rfl]

example : file [.emit 1, .orgLabel 3 1, .emit 2] = [1, 0, 0, 0, 2] := by decide +kernel

end Verif.OrgFlat
