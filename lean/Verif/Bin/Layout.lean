import Verif.Bin.Spec
import Verif.Struct.Lemmas
/-! # Proofs about the layout -/
namespace Verif.Bin
open Spec

theorem shl_toNat (k : Nat) (hk : k ≤ 31) : ((1 : W) <<< k).toNat = 2 ^ k := by
  rw [BitVec.toNat_shiftLeft]
  have h11 : (1 : W).toNat = 1 := rfl
  rw [h11, Nat.one_shiftLeft]
  exact Nat.mod_eq_of_lt (Nat.pow_lt_pow_right (by omega) (by omega))

theorem two_pow_pos' (k : Nat) : 0 < 2 ^ k := Nat.pow_pos (by omega)

theorem alignUp_nat {x : W} {k : Nat} (hk : k ≤ 31) (hx : x.toNat + 2 ^ k ≤ 2 ^ 32) :
    x.toNat ≤ (alignUp x ((1 : W) <<< k)).toNat ∧ (alignUp x ((1 : W) <<< k)).toNat < x.toNat + 2 ^ k ∧
    2 ^ k ∣ (alignUp x ((1 : W) <<< k)).toNat := by
  have hs := shl_toNat k hk
  have h := Struct.alignUp_spec (x := x) (s := (1 : W) <<< k) (by rw [hs]; exact two_pow_pos' k)
    (by rw [hs]; exact hx)
  rw [hs] at h
  exact ⟨h.1, h.2.1, h.2.2 ⟨k, rfl⟩⟩

theorem alignOf_toNat {cp : CP} {s : Seg} (h1 : cp.alignment ≤ 31) (h2 : s.alignment ≤ 31) :
    alignOf cp s = (1 : W) <<< max cp.alignment s.alignment := by
  unfold alignOf
  split
  · rw [Nat.max_eq_left (by omega)]
  · rw [Nat.max_eq_right (by omega)]

theorem resetLoc_le {flat : Option Nat} {b : Bool} {s : Seg} :
    (resetLoc flat b s).toNat ≤ s.startLoc.toNat := by
  unfold resetLoc
  split
  · exact Nat.zero_le _
  · exact Nat.le_refl _

theorem sub_toNat {a b : W} (h : b.toNat ≤ a.toNat) : (a - b).toNat = a.toNat - b.toNat := by
  rw [BitVec.toNat_sub]; have := a.isLt; have := b.isLt; omega

theorem add_toNat {a b : W} (h : a.toNat + b.toNat < 2 ^ 32) : (a + b).toNat = a.toNat + b.toNat := by
  rw [BitVec.toNat_add]; omega

/-- What one call of CalcOffset does to a placed segment, in natural numbers. -/
structure Step (fmt : Fmt) (flat : Option Nat) (st : St) (s : Seg) (r : St × Seg) : Prop where
  al : 2 ^ max st.cp.alignment s.alignment ∣ r.2.fileOffset.toNat
  lo : st.cp.fileoffset.toNat ≤ r.2.fileOffset.toNat
  hi : r.2.fileOffset.toNat < st.cp.fileoffset.toNat + 2 ^ max st.cp.alignment s.alignment
  loc : r.2.startLoc = resetLoc flat st.cp.first s
  dec : decl r.2 = decl s
  fo : r.1.cp.fileoffset.toNat = r.2.fileOffset.toNat + fileSize fmt r.2
  first : r.1.cp.first = false
  hdr : r.1.cp.sizehdr = st.cp.sizehdr
  alg : r.1.cp.alignment = st.cp.alignment
  nogrp : s.group = Option.none → r.2.startOffset = r.2.fileOffset - st.cp.sizehdr ∧ r.1.grps = st.grps
  other : ∀ g, s.group ≠ some g → r.1.grps g = st.grps g
  gz : ∀ g, s.group = some g → isPE fmt = false → (st.grps g).totalSize = 0 →
    r.2.startOffset = 0 ∧ r.1.grps g = ⟨r.2.fileOffset - st.cp.sizehdr, s.maxOffset⟩
  gn : ∀ g, s.group = some g → isPE fmt = false → (st.grps g).totalSize ≠ 0 →
    r.2.startOffset = (st.grps g).totalSize + (r.2.fileOffset - st.cp.fileoffset) ∧
    r.1.grps g = ⟨(st.grps g).offset, r.2.startOffset + s.maxOffset⟩
  rva : isPE fmt = true → r.1.cp.rva = st.cp.rva + (s.maxOffset - r.2.startLoc)
  pe : ∀ g, s.group = some g → isPE fmt = true → r.2.startOffset = st.cp.rva

theorem step_ok {fmt : Fmt} {flat : Option Nat} {st : St} {s : Seg} (hp : placed s = true)
    (h1 : st.cp.alignment ≤ 31) (h2 : s.alignment ≤ 31) (h3 : s.startLoc.toNat ≤ s.maxOffset.toNat)
    (hb : st.cp.fileoffset.toNat + (2 ^ max st.cp.alignment s.alignment + s.maxOffset.toNat) ≤ 2 ^ 32) :
    Step fmt flat st s (calcOffset fmt flat st s) := by
  have hp' := hp
  simp only [placed, Bool.and_eq_true, decide_eq_true_eq, Bool.not_eq_true'] at hp
  obtain ⟨ha, hi⟩ := hp
  have hk : max st.cp.alignment s.alignment ≤ 31 := by omega
  obtain ⟨a1, a2, a3⟩ := alignUp_nat (x := st.cp.fileoffset) hk (by omega)
  have hal := alignOf_toNat h1 h2
  have hfo : st.cp.fileoffset + (alignUp st.cp.fileoffset (alignOf st.cp s) - st.cp.fileoffset)
      = alignUp st.cp.fileoffset ((1 : W) <<< max st.cp.alignment s.alignment) := by
    rw [hal, BitVec.add_comm, BitVec.sub_add_cancel]
  have hloc := resetLoc_le (flat := flat) (b := st.cp.first) (s := s)
  have hsz : (s.maxOffset - resetLoc flat st.cp.first s).toNat
      = s.maxOffset.toNat - (resetLoc flat st.cp.first s).toNat := sub_toNat (by omega)
  have hadd : (alignUp st.cp.fileoffset ((1 : W) <<< max st.cp.alignment s.alignment)
      + (s.maxOffset - resetLoc flat st.cp.first s)).toNat
      = (alignUp st.cp.fileoffset ((1 : W) <<< max st.cp.alignment s.alignment)).toNat
        + (s.maxOffset.toNat - (resetLoc flat st.cp.first s).toNat) := by
    rw [add_toNat (by omega), hsz]
  unfold calcOffset
  rw [if_neg ha, if_neg (by rw [hi]; simp)]
  simp only [hfo]
  constructor
  · exact a3
  · exact a1
  · exact a2
  · rfl
  · rfl
  · simp only [fileSize]
    by_cases hf : fmt = .none
    · simp only [hf, if_true, ne_eq, not_true_eq_false, and_false, if_false]; exact hadd
    · simp only [hf, if_false, ne_eq, not_false_eq_true, and_true]
      by_cases hbss : s.segtype = .bss
      · simp only [hbss, if_true, Nat.add_zero]
      · simp only [hbss, if_false]; exact hadd
  · rfl
  · by_cases hf : fmt = .none <;> simp [hf]
  · by_cases hf : fmt = .none <;> simp [hf]
  · intro hg; simp only [hg, and_self]
  · intro g hg
    cases hgr : s.group with
    | none => rfl
    | some g' =>
      have hne : ¬ g = g' := by intro h; subst h; exact hg hgr
      simp only [if_neg hne]
      by_cases hpe : isPE fmt = true
      · simp only [hpe, if_true]
      · by_cases hz : (st.grps g').totalSize = 0
        · simp only [hpe, hz, if_true, if_neg hne, Bool.false_eq_true, if_false]
        · simp only [hpe, hz, if_false, Bool.false_eq_true]
  · intro g hg hpe hz
    simp only [hg, hpe, hz, if_true, Bool.false_eq_true, if_false]
    exact ⟨trivial, by simp⟩
  · intro g hg hpe hz
    simp only [hg, hpe, hz, if_true, Bool.false_eq_true, if_false, hal, and_self]
  · intro hpe
    have : fmt ≠ .none := by intro h; subst h; simp [isPE] at hpe
    simp only [if_neg this]
  · intro g hg hpe
    simp only [hg, hpe, if_true]

theorem skip_ok {fmt : Fmt} {flat : Option Nat} {st : St} {s : Seg} (hp : placed s = false) :
    (calcOffset fmt flat st s).1 = st ∧ decl (calcOffset fmt flat st s).2 = decl s ∧
    placed (calcOffset fmt flat st s).2 = false := by
  unfold calcOffset
  by_cases ha : s.segtype = .abs
  · rw [if_pos ha]
    exact ⟨rfl, rfl, by simp [placed, ha]⟩
  · rw [if_neg ha]
    have hi : s.info = true := by
      cases h : s.info with
      | true => rfl
      | false => simp [placed, ha, h] at hp
    rw [if_pos hi]
    exact ⟨rfl, rfl, hp⟩

theorem placed_decl (s : Seg) : placed (decl s) = placed s := rfl

theorem placed_calc {fmt : Fmt} {flat : Option Nat} {st : St} {s : Seg} :
    placed (calcOffset fmt flat st s).2 = placed s := by
  cases hp : placed s with
  | false => exact (skip_ok hp).2.2
  | true =>
    unfold calcOffset
    simp only [placed, Bool.and_eq_true, decide_eq_true_eq, Bool.not_eq_true'] at hp
    rw [if_neg hp.1, if_neg (by rw [hp.2]; simp)]
    simp [placed, hp.1, hp.2]

theorem budget_cons (a : Nat) (s : Seg) (ss : List Seg) :
    budget a (s :: ss) = 2 ^ max a s.alignment + s.maxOffset.toNat + budget a ss := rfl

theorem calcAll_append (fmt : Fmt) (flat : Option Nat) : ∀ (a b : List Seg) (st : St),
    calcAll fmt flat st (a ++ b) =
      ((calcAll fmt flat (calcAll fmt flat st a).1 b).1,
       (calcAll fmt flat st a).2 ++ (calcAll fmt flat (calcAll fmt flat st a).1 b).2)
  | [], b, st => rfl
  | s :: ss, b, st => by
    simp only [List.cons_append, calcAll]
    rw [calcAll_append fmt flat ss b]

theorem calcAll_length (fmt : Fmt) (flat : Option Nat) : ∀ (a : List Seg) (st : St),
    (calcAll fmt flat st a).2.length = a.length
  | [], _ => rfl
  | s :: ss, st => by
    simp only [calcAll, List.length_cons]; rw [calcAll_length fmt flat ss]

/-- Everything that follows starts behind `lo`, is aligned, ordered and tightly packed. -/
structure Packed (fmt : Fmt) (lo : Nat) (out : List Seg) : Prop where
  ge : ∀ s ∈ out, placed s = true → lo ≤ s.fileOffset.toNat
  al : ∀ s ∈ out, placed s = true → 2 ^ s.alignment ∣ s.fileOffset.toNat
  ord : (out.filter placed).Pairwise
    (fun a b => a.fileOffset.toNat + fileSize fmt a ≤ b.fileOffset.toNat)

theorem calcAll_packed (fmt : Fmt) (flat : Option Nat) : ∀ (segs : List Seg) (st : St),
    Sane segs → st.cp.alignment = 0 →
    st.cp.fileoffset.toNat + budget 0 segs ≤ 2 ^ 32 →
    Packed fmt st.cp.fileoffset.toNat (calcAll fmt flat st segs).2 ∧
    (calcAll fmt flat st segs).2.map decl = segs.map decl ∧
    (calcAll fmt flat st segs).1.cp.fileoffset.toNat ≤ st.cp.fileoffset.toNat + budget 0 segs ∧
    (calcAll fmt flat st segs).1.cp.alignment = 0 ∧
    (calcAll fmt flat st segs).1.cp.sizehdr = st.cp.sizehdr
  | [], st, _, h0, _ => by
    refine ⟨⟨?_, ?_, ?_⟩, rfl, ?_, h0, rfl⟩ <;> simp [calcAll, budget]
  | s :: ss, st, hs, h0, hb => by
    have hsane := hs s List.mem_cons_self
    have hs' : Sane ss := fun x hx => hs x (List.mem_cons_of_mem _ hx)
    rw [budget_cons] at hb
    have hpos := two_pow_pos' (max 0 s.alignment)
    simp only [calcAll]
    cases hp : placed s with
    | false =>
      obtain ⟨k1, k2, k3⟩ := skip_ok (fmt := fmt) (flat := flat) (st := st) hp
      rw [k1]
      obtain ⟨i1, i2, i3, i4, i5⟩ := calcAll_packed fmt flat ss st hs' h0 (by omega)
      refine ⟨⟨?_, ?_, ?_⟩, ?_, ?_, i4, i5⟩
      · intro x hx hpx
        rcases List.mem_cons.1 hx with rfl | hx
        · rw [k3] at hpx; exact absurd hpx (by simp)
        · exact i1.ge x hx hpx
      · intro x hx hpx
        rcases List.mem_cons.1 hx with rfl | hx
        · rw [k3] at hpx; exact absurd hpx (by simp)
        · exact i1.al x hx hpx
      · rw [List.filter_cons_of_neg (by rw [k3]; simp)]
        exact i1.ord
      · simp only [List.map_cons, k2, i2]
      · rw [budget_cons]; omega
    | true =>
      have hst := step_ok (fmt := fmt) (flat := flat) (st := st) hp (by omega) hsane.1 hsane.2
        (by rw [h0]; omega)
      have hfs : fileSize fmt (calcOffset fmt flat st s).2 ≤ s.maxOffset.toNat := by
        have : (calcOffset fmt flat st s).2.maxOffset = s.maxOffset := by
          show (decl _).maxOffset = (decl _).maxOffset; rw [hst.dec]
        unfold fileSize; rw [this]; split <;> omega
      have hfo := hst.fo
      have hhi := hst.hi
      rw [h0] at hhi
      obtain ⟨i1, i2, i3, i4, i5⟩ := calcAll_packed fmt flat ss (calcOffset fmt flat st s).1 hs'
        (by rw [hst.alg, h0]) (by omega)
      have hpl : placed (calcOffset fmt flat st s).2 = true := by rw [placed_calc, hp]
      have halg : (calcOffset fmt flat st s).2.alignment = s.alignment := by
        show (decl _).alignment = (decl _).alignment; rw [hst.dec]
      have hlo := hst.lo
      refine ⟨⟨?_, ?_, ?_⟩, ?_, ?_, i4, ?_⟩
      · intro x hx hpx
        rcases List.mem_cons.1 hx with rfl | hx
        · exact hst.lo
        · have := i1.ge x hx hpx; omega
      · intro x hx hpx
        rcases List.mem_cons.1 hx with rfl | hx
        · have := hst.al; rw [h0, Nat.zero_max] at this; rw [halg]; exact this
        · exact i1.al x hx hpx
      · rw [List.filter_cons_of_pos hpl, List.pairwise_cons]
        refine ⟨?_, i1.ord⟩
        intro b hb'
        rw [List.mem_filter] at hb'
        have := i1.ge b hb'.1 hb'.2; omega
      · simp only [List.map_cons, hst.dec, i2]
      · rw [budget_cons]; omega
      · rw [i5, hst.hdr]

end Verif.Bin
