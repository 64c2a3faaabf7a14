import Verif.MzHdr.Spec
import Verif.Bin.Layout
namespace Verif.MzHdr
open Verif.Bin Verif.MzHdr.Spec

theorem Spec.Stored.tail {x : MSeg} {r : List MSeg} {s : MSeg} (h : Stored r s) : Stored (x :: r) s := by
  obtain ⟨a, b, e, p⟩ := h
  exact ⟨x :: a, b, by rw [e]; rfl, p⟩

theorem Spec.Stored.cons {x : MSeg} {r : List MSeg} {s : MSeg} (h : Stored (x :: r) s) :
    (s = x ∧ placed x = true ∧ (x.written = true ∨ ∃ t ∈ r, t.written = true)) ∨ Stored r s := by
  obtain ⟨a, b, e, p⟩ := h
  cases a with
  | nil => simp only [List.nil_append, List.cons.injEq] at e; obtain ⟨rfl, rfl⟩ := e; exact .inl ⟨rfl, p⟩
  | cons y a => simp only [List.cons_append, List.cons.injEq] at e; exact .inr ⟨a, b, e.2, p⟩

theorem Spec.Stored.mem {r : List MSeg} {s : MSeg} (h : Stored r s) : s ∈ r := by
  obtain ⟨a, b, rfl, _⟩ := h; simp

theorem skip_iff (s : MSeg) : (decide (s.seg.segtype = .abs) || s.seg.info) = !placed s := by
  unfold placed; cases s.seg.info <;> simp

theorem size_toNat {s : MSeg} (h : s.seg.startLoc.toNat ≤ s.seg.maxOffset.toNat) :
    (size s).toNat = s.seg.maxOffset.toNat - s.seg.startLoc.toNat := sub_toNat h

theorem end_toNat {s : MSeg} (h : s.seg.startLoc.toNat ≤ s.seg.maxOffset.toNat) (h2 : fileEnd s < 2 ^ 32) :
    (s.seg.fileOffset + size s).toNat = fileEnd s := by
  rw [BitVec.toNat_add, size_toNat h, Nat.mod_eq_of_lt (by unfold fileEnd at h2; omega)]
  rfl

theorem sum_le {l : List MSeg} : ∀ {s : MSeg}, s ∈ l →
    s.seg.startLoc.toNat ≤ (l.map (fun t => t.seg.startLoc.toNat)).sum := by
  induction l with
  | nil => intro s h; cases h
  | cons x r ih =>
    intro s h
    simp only [List.map_cons, List.sum_cons]
    rcases List.mem_cons.1 h with rfl | h
    · omega
    · have := ih h; omega

theorem Spec.Sane.tail {x : MSeg} {r : List MSeg} (h : Sane (x :: r)) : Sane r := by
  intro s hs
  have := h s (List.mem_cons_of_mem _ hs)
  simp only [List.map_cons, List.sum_cons] at this
  exact ⟨this.1, by omega⟩

/-- GetImageSize without uninitialised segments. -/
theorem image_false : ∀ (segs : List MSeg) (first : Bool) (v sz : W), Sane segs →
    sz.toNat ≤ (imageLoop false first v sz segs).toNat ∧
    (∀ s, Stored segs s → fileEnd s ≤ (imageLoop false first v sz segs).toNat) ∧
    (imageLoop false first v sz segs = sz ∨
      ∃ s, Stored segs s ∧ fileEnd s = (imageLoop false first v sz segs).toNat) := by
  intro segs
  induction segs with
  | nil =>
    intro first v sz _
    refine ⟨Nat.le_refl _, ?_, .inl rfl⟩
    intro s h; cases h.mem
  | cons x r ih =>
    intro first v sz hs
    have ht := Sane.tail hs
    have hx := hs x (List.mem_cons_self ..)
    unfold imageLoop
    rw [skip_iff]
    cases hp : placed x with
    | false =>
      simp only [Bool.not_false, if_true]
      obtain ⟨h1, h2, h3⟩ := ih first v sz ht
      refine ⟨h1, ?_, ?_⟩
      · intro s h
        rcases h.cons with ⟨_, hp', _⟩ | h
        · rw [hp] at hp'; cases hp'
        · exact h2 s h
      · rcases h3 with h3 | ⟨s, h, e⟩
        · exact .inl h3
        · exact .inr ⟨s, h.tail, e⟩
    | true =>
      simp only [Bool.not_true, Bool.false_eq_true, if_false, Bool.not_false, Bool.true_and]
      by_cases hw : (!x.written && !r.any (·.written)) = true
      · rw [if_pos hw]
        simp only [Bool.and_eq_true, Bool.not_eq_true', List.any_eq_false] at hw
        refine ⟨Nat.le_refl _, ?_, .inl rfl⟩
        intro s h
        obtain ⟨a, b, e, _, w⟩ := h
        exfalso
        have hnone : ∀ t ∈ x :: r, t.written = false := by
          intro t ht'
          rcases List.mem_cons.1 ht' with rfl | ht'
          · exact hw.1
          · have := hw.2 t ht'; simpa using this
        rcases w with w | ⟨t, ht', w⟩
        · have := hnone s (by rw [e]; simp); rw [w] at this; cases this
        · have := hnone t (by rw [e]; simp [ht']); rw [w] at this; cases this
      · rw [if_neg hw]
        have hst : Stored (x :: r) x := by
          refine ⟨[], r, rfl, hp, ?_⟩
          cases hxw : x.written with
          | true => exact .inl rfl
          | false =>
            right
            rw [hxw] at hw
            have : r.any (·.written) = true := by
              cases h : r.any (·.written) <;> simp_all
            simpa [List.any_eq_true] using this
        have he := end_toNat hx.1 (by omega)
        obtain ⟨h1, h2, h3⟩ := ih false (if first = true then v else v + x.seg.startLoc)
          (if sz < x.seg.fileOffset + size x then x.seg.fileOffset + size x else sz) ht
        have hmax : (if sz < x.seg.fileOffset + size x then x.seg.fileOffset + size x else sz).toNat
            = max sz.toNat (fileEnd x) := by
          by_cases hlt : sz < x.seg.fileOffset + size x
          · rw [if_pos hlt, he]; rw [BitVec.lt_def, he] at hlt; omega
          · rw [if_neg hlt]; rw [BitVec.lt_def, he] at hlt; omega
        rw [hmax] at h1
        refine ⟨by omega, ?_, ?_⟩
        · intro s h
          rcases h.cons with ⟨rfl, _⟩ | h
          · omega
          · exact h2 s h
        · rcases h3 with h3 | ⟨s, h, e⟩
          · by_cases hlt : sz < x.seg.fileOffset + size x
            · right
              refine ⟨x, hst, ?_⟩
              rw [h3, hmax]; rw [BitVec.lt_def, he] at hlt; omega
            · left
              rw [h3, if_neg hlt]
          · exact .inr ⟨s, h.tail, e⟩

/-- GetImageSize with uninitialised segments: no segment ends behind it. -/
theorem image_true : ∀ (segs : List MSeg) (first : Bool) (v sz : W),
    (∀ s ∈ segs, s.seg.startLoc.toNat ≤ s.seg.maxOffset.toNat ∧
      fileEnd s + (v.toNat + (segs.map (fun t => t.seg.startLoc.toNat)).sum) < 2 ^ 32) →
    sz.toNat ≤ (imageLoop true first v sz segs).toNat ∧
    (∀ s ∈ segs, placed s = true → fileEnd s ≤ (imageLoop true first v sz segs).toNat) := by
  intro segs
  induction segs with
  | nil =>
    intro first v sz _
    exact ⟨Nat.le_refl _, fun s h => absurd h List.not_mem_nil⟩
  | cons x r ih =>
    intro first v sz hs
    have hx := hs x (List.mem_cons_self ..)
    simp only [List.map_cons, List.sum_cons] at hs hx
    unfold imageLoop
    rw [skip_iff]
    cases hp : placed x with
    | false =>
      simp only [Bool.not_false, if_true]
      obtain ⟨h1, h2⟩ := ih first v sz (fun s h => by
        have := hs s (List.mem_cons_of_mem _ h); exact ⟨this.1, by omega⟩)
      refine ⟨h1, ?_⟩
      intro s h hps
      rcases List.mem_cons.1 h with rfl | h
      · rw [hp] at hps; cases hps
      · exact h2 s h hps
    | true =>
      simp only [Bool.not_true, Bool.false_eq_true, if_false, if_true, Bool.false_and]
      have he := end_toNat hx.1 (by omega)
      have hv : (if first = true then v else v + x.seg.startLoc).toNat ≤ v.toNat + x.seg.startLoc.toNat := by
        split
        · omega
        · rw [BitVec.toNat_add]; exact Nat.mod_le ..
      obtain ⟨h1, h2⟩ := ih false (if first = true then v else v + x.seg.startLoc)
        (if sz < x.seg.fileOffset + size x + (if first = true then v else v + x.seg.startLoc) then
          x.seg.fileOffset + size x + (if first = true then v else v + x.seg.startLoc) else sz)
        (fun s h => by
          have := hs s (List.mem_cons_of_mem _ h); exact ⟨this.1, by omega⟩)
      have he2 : fileEnd x ≤ (x.seg.fileOffset + size x +
          (if first = true then v else v + x.seg.startLoc)).toNat := by
        rw [BitVec.toNat_add, he, Nat.mod_eq_of_lt (by omega)]; omega
      have hmax : sz.toNat ≤ (if sz < x.seg.fileOffset + size x +
          (if first = true then v else v + x.seg.startLoc) then
          x.seg.fileOffset + size x + (if first = true then v else v + x.seg.startLoc) else sz).toNat ∧
          fileEnd x ≤ (if sz < x.seg.fileOffset + size x +
          (if first = true then v else v + x.seg.startLoc) then
          x.seg.fileOffset + size x + (if first = true then v else v + x.seg.startLoc) else sz).toNat := by
        by_cases hlt : sz < x.seg.fileOffset + size x + (if first = true then v else v + x.seg.startLoc)
        · rw [if_pos hlt]; rw [BitVec.lt_def] at hlt; omega
        · rw [if_neg hlt]; rw [BitVec.lt_def] at hlt; omega
      refine ⟨Nat.le_trans hmax.1 h1, ?_⟩
      intro s h hps
      rcases List.mem_cons.1 h with rfl | h
      · exact Nat.le_trans hmax.2 h1
      · exact h2 s h hps

/-- The length of the written file is the largest end of a stored, non-empty segment. -/
theorem fileLength_spec : ∀ (segs : List MSeg) (len : Nat),
    (∀ s ∈ segs, s.seg.info = false ∧ s.seg.startLoc.toNat ≤ s.seg.maxOffset.toNat ∧
      (Stored segs s → s.buf = true)) →
    len ≤ fileLength len segs ∧
    (∀ s, Stored segs s → s.seg.startLoc.toNat < s.seg.maxOffset.toNat → fileEnd s ≤ fileLength len segs) ∧
    (fileLength len segs = len ∨ ∃ s, Stored segs s ∧ fileEnd s = fileLength len segs) := by
  intro segs
  induction segs with
  | nil =>
    intro len _
    refine ⟨Nat.le_refl _, ?_, .inl rfl⟩
    intro s h; cases h.mem
  | cons x r ih =>
    intro len hs
    have hx := hs x (List.mem_cons_self ..)
    have ht : ∀ s ∈ r, s.seg.info = false ∧ s.seg.startLoc.toNat ≤ s.seg.maxOffset.toNat ∧
        (Stored r s → s.buf = true) := by
      intro s h
      obtain ⟨a, b, c⟩ := hs s (List.mem_cons_of_mem _ h)
      exact ⟨a, b, fun h' => c h'.tail⟩
    have keep : (Stored (x :: r) x → x.seg.startLoc.toNat < x.seg.maxOffset.toNat → False) →
        len ≤ fileLength len r ∧
        (∀ s, Stored (x :: r) s → s.seg.startLoc.toNat < s.seg.maxOffset.toNat → fileEnd s ≤ fileLength len r) ∧
        (fileLength len r = len ∨ ∃ s, Stored (x :: r) s ∧ fileEnd s = fileLength len r) := by
      intro hno
      obtain ⟨h1, h2, h3⟩ := ih len ht
      refine ⟨h1, ?_, ?_⟩
      · intro s h hl
        rcases h.cons with ⟨rfl, p⟩ | h'
        · exact (hno h hl).elim
        · exact h2 s h' hl
      · rcases h3 with h3 | ⟨s, h, e⟩
        · exact .inl h3
        · exact .inr ⟨s, h.tail, e⟩
    unfold fileLength
    by_cases habs : x.seg.segtype = .abs
    · rw [if_pos habs]
      refine keep ?_
      intro h _
      rcases h with ⟨_, _, _, hp, _⟩
      unfold placed at hp
      simp [habs] at hp
    · rw [if_neg habs]
      have hp : placed x = true := by unfold placed; simp [habs, hx.1]
      by_cases hw : (!x.written && !r.any (·.written)) = true
      · rw [if_pos hw]
        rw [if_neg (by simp)]
        refine keep ?_
        intro h _
        simp only [Bool.and_eq_true, Bool.not_eq_true', List.any_eq_false] at hw
        rcases h with ⟨a, b, e, _, w⟩
        have hnone : ∀ t ∈ x :: r, t.written = false := by
          intro t ht'
          rcases List.mem_cons.1 ht' with rfl | ht'
          · exact hw.1
          · have := hw.2 t ht'; simpa using this
        rcases w with w | ⟨t, ht', w⟩
        · have := hnone x (List.mem_cons_self ..); rw [w] at this; cases this
        · have := hnone t (by rw [e]; simp [ht']); rw [w] at this; cases this
      · rw [if_neg hw]
        have hst : Stored (x :: r) x := by
          refine ⟨[], r, rfl, hp, ?_⟩
          cases hxw : x.written with
          | true => exact .inl rfl
          | false =>
            right
            rw [hxw] at hw
            have : r.any (·.written) = true := by
              cases h : r.any (·.written) <;> simp_all
            simpa [List.any_eq_true] using this
        have hsz := size_toNat hx.2.1
        by_cases hz : size x = 0
        · rw [if_neg (by simp [hz])]
          refine keep ?_
          intro _ hl
          rw [hz] at hsz
          have : (0 : W).toNat = 0 := rfl
          omega
        · rw [if_pos ⟨hz, hx.2.2 hst⟩]
          have he : x.seg.fileOffset.toNat + (size x).toNat = fileEnd x := by rw [hsz]; rfl
          rw [he]
          obtain ⟨h1, h2, h3⟩ := ih (max len (fileEnd x)) ht
          refine ⟨by omega, ?_, ?_⟩
          · intro s h hl
            rcases h.cons with ⟨rfl, p⟩ | h'
            · omega
            · exact h2 s h' hl
          · rcases h3 with h3 | ⟨s, h, e⟩
            · by_cases hlt : len < fileEnd x
              · exact .inr ⟨x, hst, by omega⟩
              · left; omega
            · exact .inr ⟨s, h.tail, e⟩

end Verif.MzHdr
