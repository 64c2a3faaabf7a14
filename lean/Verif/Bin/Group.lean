import Verif.Bin.Layout
/-! # Proofs: groups form one consistent image (BIN and MZ) -/
namespace Verif.Bin
open Spec

/-- The members `mem` of group `g` (those that matter here): placed, no uninitialised data in an MZ file. -/
structure Members (fmt : Fmt) (flat : Option Nat) (g : Nat) (mem : List Seg) : Prop where
  placed : ∀ s ∈ mem, placed s = true
  grp : ∀ s ∈ mem, s.group = some g
  bss : ∀ s ∈ mem, fmt = .none ∨ s.segtype ≠ .bss
  org : flat ≠ some g ∨ ∀ s ∈ mem, s.startLoc = 0

theorem Members.tail {fmt flat g s ss} (h : Members fmt flat g (s :: ss)) : Members fmt flat g ss :=
  ⟨fun x hx => h.placed x (List.mem_cons_of_mem _ hx), fun x hx => h.grp x (List.mem_cons_of_mem _ hx),
   fun x hx => h.bss x (List.mem_cons_of_mem _ hx),
   h.org.imp id (fun k x hx => k x (List.mem_cons_of_mem _ hx))⟩

theorem fileSize_nobss {fmt : Fmt} {s : Seg} (h : fmt = .none ∨ s.segtype ≠ .bss) :
    fileSize fmt s = s.maxOffset.toNat - s.startLoc.toNat := by
  unfold fileSize
  rw [if_neg]
  rintro ⟨a, b⟩
  rcases h with h | h
  · exact b h
  · exact h a

theorem members_ok {fmt : Fmt} {flat : Option Nat} {g : Nat} (hpe : isPE fmt = false) :
    ∀ (mem : List Seg) (st : St) (G : Int), Members fmt flat g mem → Sane mem →
    st.cp.alignment = 0 → st.cp.first = false →
    st.cp.fileoffset.toNat + budget 0 mem ≤ 2 ^ 32 →
    (st.grps g).totalSize.toNat + budget 0 mem ≤ 2 ^ 32 →
    (st.grps g).totalSize ≠ 0 →
    (st.cp.fileoffset.toNat : Int) = G + (st.grps g).totalSize.toNat →
    (∀ s ∈ (calcAll fmt flat st mem).2,
      (s.fileOffset.toNat : Int) - s.startLoc.toNat = G + s.startOffset.toNat) ∧
    ((calcAll fmt flat st mem).1.grps g).offset = (st.grps g).offset ∧
    ((calcAll fmt flat st mem).1.grps g).totalSize ≠ 0
  | [], st, G, _, _, _, _, _, _, hz, _ => by
    refine ⟨?_, rfl, hz⟩
    intro s hs; simp [calcAll] at hs
  | s :: ss, st, G, hm, hs, h0, hf, hb1, hb2, hz, hG => by
    rw [budget_cons] at hb1 hb2
    have hsane := hs s List.mem_cons_self
    have hs' : Sane ss := fun x hx => hs x (List.mem_cons_of_mem _ hx)
    have hp := hm.placed s List.mem_cons_self
    have hst := step_ok (fmt := fmt) (flat := flat) (st := st) hp (by omega) hsane.1 hsane.2
      (by rw [h0]; omega)
    have hg := hm.grp s List.mem_cons_self
    obtain ⟨g1, g2⟩ := hst.gn g hg hpe hz
    have hlo := hst.lo
    have hhi := hst.hi
    rw [h0] at hhi
    have hloc : resetLoc flat st.cp.first s = 0 := by
      unfold resetLoc
      rcases hm.org with h | h
      · have : (s.group != flat) = true := by
          rw [bne_iff_ne, hg]; exact fun e => h e.symm
        rw [if_pos]
        simp [hf, hg]
        left; exact fun e => h e.symm
      · rw [h s List.mem_cons_self]; split <;> rfl
    have hloc' := hst.loc
    rw [hloc] at hloc'
    have hmx : (calcOffset fmt flat st s).2.maxOffset = s.maxOffset := by
      show (decl _).maxOffset = (decl _).maxOffset; rw [hst.dec]
    have hty : (calcOffset fmt flat st s).2.segtype = s.segtype := by
      show (decl _).segtype = (decl _).segtype; rw [hst.dec]
    have hfs : fileSize fmt (calcOffset fmt flat st s).2 = s.maxOffset.toNat := by
      rw [fileSize_nobss (by rw [hty]; exact hm.bss s List.mem_cons_self), hmx, hloc']; simp
    have hfo := hst.fo
    rw [hfs] at hfo
    have hpad : ((calcOffset fmt flat st s).2.fileOffset - st.cp.fileoffset).toNat
        = (calcOffset fmt flat st s).2.fileOffset.toNat - st.cp.fileoffset.toNat := sub_toNat hlo
    have hzt : (st.grps g).totalSize.toNat ≠ 0 := by
      intro h; exact hz (BitVec.eq_of_toNat_eq h)
    have hso : (calcOffset fmt flat st s).2.startOffset.toNat = (st.grps g).totalSize.toNat
        + ((calcOffset fmt flat st s).2.fileOffset.toNat - st.cp.fileoffset.toNat) := by
      rw [g1, add_toNat (by omega), hpad]
    have htot : ((calcOffset fmt flat st s).1.grps g).totalSize.toNat
        = (calcOffset fmt flat st s).2.startOffset.toNat + s.maxOffset.toNat := by
      rw [g2]; show ((calcOffset fmt flat st s).2.startOffset + s.maxOffset).toNat = _
      rw [add_toNat (by omega)]
    obtain ⟨i1, i2, i3⟩ := members_ok hpe ss (calcOffset fmt flat st s).1 G hm.tail hs'
      (by rw [hst.alg, h0]) hst.first (by omega) (by omega)
      (by intro h; rw [h] at htot; simp at htot; omega) (by omega)
    refine ⟨?_, ?_, ?_⟩
    · intro x hx
      simp only [calcAll] at hx
      rcases List.mem_cons.1 hx with rfl | hx
      · rw [hloc']; simp; omega
      · exact i1 x hx
    · simp only [calcAll]; rw [i2, g2]
    · simp only [calcAll]; exact i3

theorem group_ok {fmt : Fmt} {flat : Option Nat} {g : Nat} (hpe : isPE fmt = false) :
    ∀ (mem : List Seg) (st : St), Members fmt flat g mem → Sane mem →
    st.cp.alignment = 0 → st.cp.sizehdr.toNat ≤ st.cp.fileoffset.toNat →
    st.cp.fileoffset.toNat + budget 0 mem ≤ 2 ^ 32 →
    (st.grps g).totalSize = 0 →
    ∀ a, (calcAll fmt flat st mem).2.find? (fun s => s.maxOffset ≠ 0) = some a →
      a.startOffset = 0 ∧
      a.fileOffset.toNat = st.cp.sizehdr.toNat + ((calcAll fmt flat st mem).1.grps g).offset.toNat ∧
      ((calcAll fmt flat st mem).1.grps g).totalSize ≠ 0 ∧
      ∀ s ∈ (calcAll fmt flat st mem).2, s.maxOffset ≠ 0 →
        (s.fileOffset.toNat : Int) - s.startLoc.toNat
          = (a.fileOffset.toNat : Int) - a.startLoc.toNat + s.startOffset.toNat
  | [], st, _, _, _, _, _, _ => by intro a ha; simp [calcAll] at ha
  | s :: ss, st, hm, hs, h0, hh, hb1, hz => by
    rw [budget_cons] at hb1
    have hsane := hs s List.mem_cons_self
    have hs' : Sane ss := fun x hx => hs x (List.mem_cons_of_mem _ hx)
    have hp := hm.placed s List.mem_cons_self
    have hst := step_ok (fmt := fmt) (flat := flat) (st := st) hp (by omega) hsane.1 hsane.2
      (by rw [h0]; omega)
    have hg := hm.grp s List.mem_cons_self
    obtain ⟨g1, g2⟩ := hst.gz g hg hpe hz
    have hlo := hst.lo
    have hhi := hst.hi
    rw [h0] at hhi
    have hmx : (calcOffset fmt flat st s).2.maxOffset = s.maxOffset := by
      show (decl _).maxOffset = (decl _).maxOffset; rw [hst.dec]
    have hty : (calcOffset fmt flat st s).2.segtype = s.segtype := by
      show (decl _).segtype = (decl _).segtype; rw [hst.dec]
    have hfs : fileSize fmt (calcOffset fmt flat st s).2
        = s.maxOffset.toNat - (calcOffset fmt flat st s).2.startLoc.toNat := by
      rw [fileSize_nobss (by rw [hty]; exact hm.bss s List.mem_cons_self), hmx]
    have hlc : (calcOffset fmt flat st s).2.startLoc.toNat ≤ s.maxOffset.toNat := by
      rw [hst.loc]; exact Nat.le_trans resetLoc_le hsane.2
    have hfo := hst.fo
    rw [hfs] at hfo
    intro a ha
    simp only [calcAll] at ha ⊢
    by_cases hme : s.maxOffset = 0
    · have hmt : s.maxOffset.toNat = 0 := by rw [hme]; rfl
      rw [List.find?_cons_of_neg (by simp [hmx, hme])] at ha
      obtain ⟨k1, k2, k3, k4⟩ := group_ok hpe ss (calcOffset fmt flat st s).1 hm.tail hs'
        (by rw [hst.alg, h0]) (by rw [hst.hdr]; omega) (by omega) (by rw [g2]; exact hme) a ha
      refine ⟨k1, ?_, k3, ?_⟩
      · rw [hst.hdr] at k2; exact k2
      · intro x hx hxm
        rcases List.mem_cons.1 hx with rfl | hx
        · exact absurd (hmx.trans hme) hxm
        · exact k4 x hx hxm
    · rw [List.find?_cons_of_pos (by rw [decide_eq_true_iff, hmx]; exact hme)] at ha
      injection ha with ha
      subst ha
      have hmt : s.maxOffset.toNat ≠ 0 := by
        intro h; exact hme (BitVec.eq_of_toNat_eq h)
      have htot : ((calcOffset fmt flat st s).1.grps g).totalSize = s.maxOffset := by rw [g2]
      obtain ⟨i1, i2, i3⟩ := members_ok hpe ss (calcOffset fmt flat st s).1
        ((calcOffset fmt flat st s).2.fileOffset.toNat - (calcOffset fmt flat st s).2.startLoc.toNat)
        hm.tail hs' (by rw [hst.alg, h0]) hst.first (by omega) (by rw [htot]; omega)
        (by rw [htot]; exact hme) (by rw [htot]; omega)
      refine ⟨g1, ?_, i3, ?_⟩
      · rw [i2, g2]
        show _ = _ + ((calcOffset fmt flat st s).2.fileOffset - st.cp.sizehdr).toNat
        rw [sub_toNat (by omega)]; omega
      · intro x hx hxm
        rcases List.mem_cons.1 hx with rfl | hx
        · rw [g1]; simp
        · exact i1 x hx

/-- Processing other segments leaves a group alone. -/
theorem calcAll_other {fmt : Fmt} {flat : Option Nat} {g : Nat} : ∀ (segs : List Seg) (st : St),
    Sane segs → st.cp.alignment = 0 → st.cp.fileoffset.toNat + budget 0 segs ≤ 2 ^ 32 →
    (∀ s ∈ segs, placed s = true → s.group ≠ some g) →
    (calcAll fmt flat st segs).1.grps g = st.grps g
  | [], _, _, _, _, _ => rfl
  | s :: ss, st, hs, h0, hb, hn => by
    rw [budget_cons] at hb
    have hpos := two_pow_pos' (max 0 s.alignment)
    have hsane := hs s List.mem_cons_self
    have hs' : Sane ss := fun x hx => hs x (List.mem_cons_of_mem _ hx)
    have hn' : ∀ x ∈ ss, placed x = true → x.group ≠ some g :=
      fun x hx => hn x (List.mem_cons_of_mem _ hx)
    simp only [calcAll]
    cases hp : placed s with
    | false =>
      rw [(skip_ok (fmt := fmt) (flat := flat) (st := st) hp).1]
      exact calcAll_other ss st hs' h0 (by omega) hn'
    | true =>
      have hst := step_ok (fmt := fmt) (flat := flat) (st := st) hp (by omega) hsane.1 hsane.2
        (by rw [h0]; omega)
      have hfs : fileSize fmt (calcOffset fmt flat st s).2 ≤ s.maxOffset.toNat := by
        have : (calcOffset fmt flat st s).2.maxOffset = s.maxOffset := by
          show (decl _).maxOffset = (decl _).maxOffset; rw [hst.dec]
        unfold fileSize; rw [this]; split <;> omega
      have hfo := hst.fo
      have hhi := hst.hi
      rw [h0] at hhi
      rw [calcAll_other ss _ hs' (by rw [hst.alg, h0]) (by omega) hn']
      exact hst.other g (hn s List.mem_cons_self hp)

/-- A group that has a size keeps its base. -/
theorem calcAll_base {fmt : Fmt} {flat : Option Nat} {g : Nat} (hpe : isPE fmt = false) :
    ∀ (segs : List Seg) (st : St),
    Sane segs → st.cp.alignment = 0 → st.cp.fileoffset.toNat + budget 0 segs ≤ 2 ^ 32 →
    (st.grps g).totalSize.toNat + budget 0 segs ≤ 2 ^ 32 →
    (st.grps g).totalSize ≠ 0 →
    ((calcAll fmt flat st segs).1.grps g).offset = (st.grps g).offset
  | [], _, _, _, _, _, _ => rfl
  | s :: ss, st, hs, h0, hb, hb2, hz => by
    rw [budget_cons] at hb hb2
    have hpos := two_pow_pos' (max 0 s.alignment)
    have hsane := hs s List.mem_cons_self
    have hs' : Sane ss := fun x hx => hs x (List.mem_cons_of_mem _ hx)
    simp only [calcAll]
    cases hp : placed s with
    | false =>
      rw [(skip_ok (fmt := fmt) (flat := flat) (st := st) hp).1]
      exact calcAll_base hpe ss st hs' h0 (by omega) (by omega) hz
    | true =>
      have hst := step_ok (fmt := fmt) (flat := flat) (st := st) hp (by omega) hsane.1 hsane.2
        (by rw [h0]; omega)
      have hfs : fileSize fmt (calcOffset fmt flat st s).2 ≤ s.maxOffset.toNat := by
        have : (calcOffset fmt flat st s).2.maxOffset = s.maxOffset := by
          show (decl _).maxOffset = (decl _).maxOffset; rw [hst.dec]
        unfold fileSize; rw [this]; split <;> omega
      have hfo := hst.fo
      have hhi := hst.hi
      have hlo := hst.lo
      rw [h0] at hhi
      by_cases hg : s.group = some g
      · obtain ⟨g1, g2⟩ := hst.gn g hg hpe hz
        have hpad : ((calcOffset fmt flat st s).2.fileOffset - st.cp.fileoffset).toNat
            = (calcOffset fmt flat st s).2.fileOffset.toNat - st.cp.fileoffset.toNat := sub_toNat hlo
        have hzt : (st.grps g).totalSize.toNat ≠ 0 := by
          intro h; exact hz (BitVec.eq_of_toNat_eq h)
        have hso : (calcOffset fmt flat st s).2.startOffset.toNat = (st.grps g).totalSize.toNat
            + ((calcOffset fmt flat st s).2.fileOffset.toNat - st.cp.fileoffset.toNat) := by
          rw [g1, add_toNat (by omega), hpad]
        have htot : ((calcOffset fmt flat st s).1.grps g).totalSize.toNat
            = (calcOffset fmt flat st s).2.startOffset.toNat + s.maxOffset.toNat := by
          rw [g2]; show ((calcOffset fmt flat st s).2.startOffset + s.maxOffset).toNat = _
          rw [add_toNat (by omega)]
        rw [calcAll_base hpe ss _ hs' (by rw [hst.alg, h0]) (by omega) (by omega)
          (by intro h; rw [h] at htot; simp at htot; omega), g2]
      · have ho := hst.other g hg
        rw [calcAll_base hpe ss _ hs' (by rw [hst.alg, h0]) (by omega) (by rw [ho]; omega)
          (by rw [ho]; exact hz), ho]

theorem calcAll_total {fmt : Fmt} {flat : Option Nat} {g : Nat} (hpe : isPE fmt = false) :
    ∀ (segs : List Seg) (st : St),
    Sane segs → st.cp.alignment = 0 → st.cp.fileoffset.toNat + budget 0 segs ≤ 2 ^ 32 →
    (st.grps g).totalSize.toNat + budget 0 segs ≤ 2 ^ 32 →
    ((calcAll fmt flat st segs).1.grps g).totalSize.toNat ≤ (st.grps g).totalSize.toNat + budget 0 segs
  | [], _, _, _, _, _ => by simp [calcAll, budget]
  | s :: ss, st, hs, h0, hb, hb2 => by
    rw [budget_cons] at hb hb2 ⊢
    have hpos := two_pow_pos' (max 0 s.alignment)
    have hsane := hs s List.mem_cons_self
    have hs' : Sane ss := fun x hx => hs x (List.mem_cons_of_mem _ hx)
    simp only [calcAll]
    cases hp : placed s with
    | false =>
      rw [(skip_ok (fmt := fmt) (flat := flat) (st := st) hp).1]
      have := calcAll_total (flat := flat) (g := g) hpe ss st hs' h0 (by omega) (by omega)
      omega
    | true =>
      have hst := step_ok (fmt := fmt) (flat := flat) (st := st) hp (by omega) hsane.1 hsane.2
        (by rw [h0]; omega)
      have hfs : fileSize fmt (calcOffset fmt flat st s).2 ≤ s.maxOffset.toNat := by
        have : (calcOffset fmt flat st s).2.maxOffset = s.maxOffset := by
          show (decl _).maxOffset = (decl _).maxOffset; rw [hst.dec]
        unfold fileSize; rw [this]; split <;> omega
      have hfo := hst.fo
      have hhi := hst.hi
      have hlo := hst.lo
      rw [h0] at hhi
      have key : ((calcOffset fmt flat st s).1.grps g).totalSize.toNat
          ≤ (st.grps g).totalSize.toNat + (2 ^ max 0 s.alignment - 1) + s.maxOffset.toNat := by
        by_cases hg : s.group = some g
        · by_cases hz : (st.grps g).totalSize = 0
          · rw [(hst.gz g hg hpe hz).2]; show s.maxOffset.toNat ≤ _; omega
          · obtain ⟨g1, g2⟩ := hst.gn g hg hpe hz
            have hpad : ((calcOffset fmt flat st s).2.fileOffset - st.cp.fileoffset).toNat
                = (calcOffset fmt flat st s).2.fileOffset.toNat - st.cp.fileoffset.toNat := sub_toNat hlo
            have hso : (calcOffset fmt flat st s).2.startOffset.toNat = (st.grps g).totalSize.toNat
                + ((calcOffset fmt flat st s).2.fileOffset.toNat - st.cp.fileoffset.toNat) := by
              rw [g1, add_toNat (by omega), hpad]
            have htot : ((calcOffset fmt flat st s).1.grps g).totalSize.toNat
                = (calcOffset fmt flat st s).2.startOffset.toNat + s.maxOffset.toNat := by
              rw [g2]; show ((calcOffset fmt flat st s).2.startOffset + s.maxOffset).toNat = _
              rw [add_toNat (by omega)]
            omega
        · rw [hst.other g hg]; omega
      have := calcAll_total (flat := flat) (g := g) hpe ss (calcOffset fmt flat st s).1 hs'
        (by rw [hst.alg, h0]) (by omega) (by omega)
      omega

theorem budget_append (a : Nat) : ∀ l m : List Seg, budget a (l ++ m) = budget a l + budget a m
  | [], m => by simp [budget]
  | s :: l, m => by simp only [List.cons_append, budget, budget_append a l m]; omega

end Verif.Bin
