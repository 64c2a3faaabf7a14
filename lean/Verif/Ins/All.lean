import Verif.Ins.Kinds
import Mathlib.Tactic.FinCases
import Verif.Ins.Fin16
import Verif.Ins.Fin32
import Verif.Ins.Fin64
/-! # C64: the finite check holds for all operand lists -/
namespace Verif.Ins
open Verif.ModRM (Mode)

theorem check1_all (m : Mode) (fam : Fam) {o : AOp} (ho : o ∈ kinds) : check m fam [o] = true := by
  have h : check1 m = true := by
    cases m
    · exact check1_16
    · exact check1_32
    · exact check1_64
  unfold check1 at h
  rw [List.all_eq_true] at h
  have h := h fam (mem_fams fam)
  rw [List.all_eq_true] at h
  exact h o ho

theorem rmKinds_index {o : AOp} (ho : o ∈ rmKinds) : ∃ i, i < 18 ∧ rmKinds[i]? = some o := by
  obtain ⟨i, hi, rfl⟩ := List.getElem_of_mem ho
  exact ⟨i, hi, by simp⟩

theorem check_of_none {m : Mode} {fam : Fam} {ops : List AOp} (h : plan m fam ops = none) : check m fam ops = true := by
  unfold check; rw [h]; simp

theorem regKinds_wf : ∀ o ∈ regKinds, ∃ ty a b, o = .reg ty a b ∧ ty ≠ 0 := by
  intro o ho
  fin_cases ho <;> exact ⟨_, _, _, rfl, by decide⟩

theorem kinds_cases {o : AOp} (ho : o ∈ kinds) : o.wf ∧ (o ∈ rmKinds ∨ ∃ f z, o = .imm f z) := by
  unfold kinds at ho
  rcases List.mem_append.mp ho with h | h
  · refine ⟨?_, Or.inl h⟩
    unfold rmKinds at h
    rcases List.mem_append.mp h with h | h
    · obtain ⟨ty, a, b, rfl, hne⟩ := regKinds_wf o h
      exact hne
    · fin_cases h <;> trivial
  · unfold immKinds at h
    rw [List.mem_flatMap] at h
    obtain ⟨f, -, h⟩ := h
    simp only [List.mem_cons, List.not_mem_nil, or_false] at h
    rcases h with rfl | rfl | rfl | rfl <;> exact ⟨trivial, Or.inr ⟨_, _, rfl⟩⟩

theorem check2_all (m : Mode) (fam : Fam) {o1 o2 : AOp} (h1 : o1 ∈ rmKinds) (h2 : o2 ∈ kinds) : check m fam [o1, o2] = true := by
  rcases fams2_all m (mem_modes m) fam (mem_fams fam) with hf | hf
  · obtain ⟨i, hi, e⟩ := rmKinds_index h1
    have h : check2 m i = true := by
      cases m
      · exact check2_16 i hi
      · exact check2_32 i hi
      · exact check2_64 i hi
    unfold check2 at h
    rw [e] at h
    simp only [List.all_eq_true] at h
    exact h fam hf o2 h2
  · exact check_of_none (plan_no2 m fam hf o1 o2 (kinds_cases h2).1)

theorem check3_all (m : Mode) (fam : Fam) (hf : fam = .imul ∨ fam = .shxd) {o1 o2 o3 : AOp} (h1 : o1 ∈ rmKinds) (h2 : o2 ∈ rmKinds)
    (h3 : o3 ∈ kinds) : check m fam [o1, o2, o3] = true := by
  cases hp : plan m fam [o1, o2, o3] with
  | none => exact check_of_none hp
  | some p =>
    obtain ⟨hm, hpre⟩ := plan_pre3 hf (kinds_cases (List.mem_append_left _ h2)).1 hp
    obtain ⟨i, hi, e⟩ := rmKinds_index h1
    have h : check3 m fam i = true := by
      rcases hf with rfl | rfl <;> cases m
      · exact check3_imul_16 i hi
      · exact check3_imul_32 i hi
      · exact check3_imul_64 i hi
      · exact check3_shxd_16 i hi
      · exact check3_shxd_32 i hi
      · exact check3_shxd_64 i hi
    unfold check3 at h
    rw [e] at h
    simp only [List.all_eq_true] at h
    have h := h o2 h2
    rw [hpre] at h
    simp only [Bool.not_true, Bool.false_or, List.all_eq_true] at h
    apply h o3
    unfold kinds rmKinds at h3
    simp only [List.mem_append] at h3 ⊢
    rcases h3 with (h3 | h3) | h3
    · exact Or.inl h3
    · exfalso
      fin_cases h3 <;> simp [AOp.isMem] at hm
    · exact Or.inr h3

theorem check_all (m : Mode) (fam : Fam) (ops : List AOp) (h : ∀ o ∈ ops, o ∈ kinds ∨ ∃ f, o = .imm f (some .q)) :
    check m fam ops = true := by
  by_cases hq : ∃ f, .imm f (some .q) ∈ ops
  · obtain ⟨f, hq⟩ := hq
    exact check_of_none (plan_q hq)
  have h : ∀ o ∈ ops, o ∈ kinds := by
    intro o ho
    rcases h o ho with h | ⟨f, rfl⟩
    · exact h
    · exact absurd ⟨f, ho⟩ hq
  match ops, h with
  | [], _ => exact check_of_none rfl
  | [o], h => exact check1_all m fam (h o (by simp))
  | [o1, o2], h =>
    obtain ⟨w1, c1⟩ := kinds_cases (h o1 (by simp))
    obtain ⟨w2, c2⟩ := kinds_cases (h o2 (by simp))
    rcases c1 with c1 | ⟨f, z, rfl⟩
    · exact check2_all m fam c1 (h o2 (by simp))
    · exact check_of_none (plan_imm_first m fam f z o2 [] w2 (by simp))
  | [o1, o2, o3], h =>
    obtain ⟨w1, c1⟩ := kinds_cases (h o1 (by simp))
    obtain ⟨w2, c2⟩ := kinds_cases (h o2 (by simp))
    obtain ⟨w3, c3⟩ := kinds_cases (h o3 (by simp))
    by_cases hf : fam = .imul ∨ fam = .shxd
    · rcases c1 with c1 | ⟨f, z, rfl⟩
      · rcases c2 with c2 | ⟨f, z, rfl⟩
        · exact check3_all m fam hf c1 c2 (h o3 (by simp))
        · exact check_of_none (plan_imm_second m fam f z o1 o3 w1 w3)
      · exact check_of_none (plan_imm_first m fam f z o2 [o3] w2 (by simpa using w3))
    · exact check_of_none (plan_no3 m fam (skip3_empty m (mem_modes m) fam (mem_fams fam) (fun e => hf (Or.inl e)) fun e => hf (Or.inr e)) o1 o2 o3)
  | _ :: _ :: _ :: _ :: _, _ => exact check_of_none rfl

end Verif.Ins
