import Verif.Bin.RelocProof
/-! # C25: base relocations (PE) and segment relocations (MZ) -/
namespace Verif.Bin
open Spec

theorem page_toNat {start locofs : W} (h : start.toNat + locofs.toNat < 2 ^ 32) :
    (pageOf start locofs).toNat = start.toNat + locofs.toNat / 4096 * 4096 := by
  have hm : (locofs &&& 0xFFFFF000).toNat = locofs.toNat / 4096 * 4096 := by
    rw [BitVec.toNat_and]
    show locofs.toNat &&& 0xFFFFF000 = _
    have hl := locofs.isLt
    generalize locofs.toNat = x at *
    apply Nat.eq_of_testBit_eq
    intro i
    have e1 : (0xFFFFF000 : Nat) = (2 ^ 20 - 1) * 2 ^ 12 := rfl
    have e2 : (4096 : Nat) = 2 ^ 12 := rfl
    rw [e1, e2, Nat.testBit_and, Nat.testBit_mul_two_pow, Nat.testBit_mul_two_pow, Nat.testBit_two_pow_sub_one,
      Nat.testBit_div_two_pow]
    by_cases h12 : 12 ≤ i
    · by_cases h32 : i < 32
      · have : i - 12 + 12 = i := by omega
        have a : i - 12 < 20 := by omega
        have : i - 12 < 20 := by omega
        simp [h12, this, Nat.sub_add_cancel h12, show i < 20 + 12 by omega]
      · have : x.testBit i = false := Nat.testBit_lt_two_pow (Nat.lt_of_lt_of_le hl (Nat.pow_le_pow_right (by omega) (by omega)))
        simp [this, Nat.sub_add_cancel h12, show 12 + (i - 12) = i by omega]
    · simp [h12]
  unfold pageOf
  rw [BitVec.toNat_add, hm]; omega

theorem pagesOk_of_fits {segs : List RSeg} (hf : Fits segs) :
    PagesOk (fun va => ∃ s ∈ segs, s.hdr = false ∧ va.toNat % 4096 = s.startOffset.toNat % 4096) segs := by
  intro s hs hh f hfm hr
  have h := hf s hs f hfm
  have hp := page_toNat (start := s.startOffset) (locofs := f.locofs) (by omega)
  refine ⟨?_, s, hs, hh, by omega⟩
  intro e
  have : (pageOf s.startOffset f.locofs).toNat = 2 ^ 32 - 1 := by rw [e]; rfl
  omega

/-- **C25 (PE).**  The table that is written consists of well formed blocks which describe exactly the
places holding image addresses, each with its type, in order; each block is for a page (relative to the start
of one of the segments); the table has exactly the size that was computed and allocated for it, and nothing
beyond it is written. -/
theorem C25_base_relocs_partial (mem0 : Nat → BitVec 16) (segs : List RSeg) (hf : Fits segs)
    (hne : allNeeded segs ≠ []) (hlen : (allNeeded segs).length ≤ 2 ^ 27) :
    let st := writeAll mem0 segs
    let bytes := (relocSize segs).toNat
    2 * st.prel = bytes ∧
    Table st.mem (fun va => ∃ s ∈ segs, s.hdr = false ∧ va.toNat % 4096 = s.startOffset.toNat % 4096)
      st.prel 0 (allNeeded segs) ∧
    ∀ i, bytes ≤ 2 * i → st.mem i = mem0 i := by
  intro st bytes
  have h0 : Inv mem0 (fun va => ∃ s ∈ segs, s.hdr = false ∧ va.toNat % 4096 = s.startOffset.toNat % 4096)
      ⟨put32 mem0 0 (-1), 0, 4⟩ ⟨-1, 0, 0⟩ [] := Or.inl ⟨rfl, rfl, rfl⟩
  have h := inv_segs segs _ _ [] h0 (by simpa using hlen) (pagesOk_of_fits hf)
  rw [List.nil_append] at h
  have hst : writeAll mem0 segs = st := rfl
  unfold writeAll at hst
  rw [hst] at h
  have hc : countAll segs = countAll segs := rfl
  conv at hc => lhs; unfold countAll
  rw [hc] at h
  rcases h with ⟨h, _⟩ | ⟨done, es, ho, hl⟩
  · exact absurd h hne
  · have hb1 := ho.b1
    have hb2 := ho.b2
    have hpos := ho.pos
    have hsz : bytes = 8 * (countAll segs).cnt2.toNat + 2 * (countAll segs).cnt1.toNat := by
      show (relocSize segs).toNat = _
      unfold relocSize
      have h8 : (8 : W).toNat = 8 := rfl
      have h2 : (2 : W).toNat = 2 := rfl
      rw [BitVec.toNat_add, BitVec.toNat_mul, BitVec.toNat_mul, h8, h2]; omega
    have ht := opn_table ho hlen
    rw [← hl] at ht
    exact ⟨by omega, ht, fun i hi => ho.frame i (by omega)⟩

/-- If all segments start on page boundaries, every block is for a page-aligned address. -/
theorem C25_page_aligned (mem0 : Nat → BitVec 16) (segs : List RSeg) (hf : Fits segs)
    (hne : allNeeded segs ≠ []) (hlen : (allNeeded segs).length ≤ 2 ^ 27)
    (hal : ∀ s ∈ segs, s.startOffset.toNat % 4096 = 0) :
    let st := writeAll mem0 segs
    Table st.mem (fun va => va.toNat % 4096 = 0) st.prel 0 (allNeeded segs) := by
  intro st
  have h := (C25_base_relocs_partial mem0 segs hf hne hlen).2.1
  have mono : ∀ {P Q : W → Prop} {mem : Nat → BitVec 16} {e p : Nat} {l : List Reloc}, (∀ v, P v → Q v) →
      Table mem P e p l → Table mem Q e p l := by
    intro P Q mem e p l hPQ ht
    induction ht with
    | done => exact .done
    | block pos n rest a1 a2 a3 a4 _ ih => exact .block pos n rest a1 a2 a3 (hPQ _ a4) ih
  refine mono ?_ h
  rintro v ⟨s, hs, _, hv⟩
  rw [hv]; exact hal s hs

/-- A concrete image: two sections, three blocks, one of them padded. -/
def sampleSegs : List RSeg :=
  [⟨true, 0, []⟩,
   ⟨false, 0x1000, [⟨.off32, 0x10⟩, ⟨.relOff32, 0x20⟩, ⟨.off64, 0x30⟩, ⟨.off32, 0xFF8⟩, ⟨.off32, 0x1004⟩]⟩,
   ⟨false, 0x3000, [⟨.off64, 0⟩]⟩]

example : Fits sampleSegs ∧ allNeeded sampleSegs =
      [(0x1010, 3), (0x1030, 10), (0x1FF8, 3), (0x2004, 3), (0x3000, 10)] ∧
    relocSize sampleSegs = 38 := by
  refine ⟨?_, by decide, by decide⟩
  intro s hs f hf
  simp only [sampleSegs, List.mem_cons, List.not_mem_nil, or_false] at hs
  rcases hs with rfl | rfl | rfl <;> simp at hf
  · rcases hf with rfl | rfl | rfl | rfl | rfl <;> decide
  · subst hf; decide

/-- Finding: without any place to relocate, the size is 0 but four bytes of the (empty) buffer are written
(bin.c:1164-1166). -/
theorem C25_empty_table_overrun (mem0 : Nat → BitVec 16) (segs : List RSeg) (h : allNeeded segs = []) :
    relocSize segs = 0 ∧ (writeAll mem0 segs).mem 0 = 0xFFFF ∧ (writeAll mem0 segs).mem 1 = 0xFFFF := by
  have hskip : ∀ (start : W) (fs : List RFix),
      fs.filterMap (fun f => (kind f.type).map (fun t => (start + f.locofs, t))) = [] →
      (∀ c, fs.foldl (countFix start) c = c) ∧ (∀ st, fs.foldl (writeFix start) st = st) := by
    intro start fs
    induction fs with
    | nil => intro _; exact ⟨fun _ => rfl, fun _ => rfl⟩
    | cons f fs ih =>
      intro hfs
      have hf : relType f.type = 0 := by
        have : (kind f.type).map (fun t => (start + f.locofs, t)) = none := by
          rw [List.filterMap_eq_nil_iff] at hfs
          exact hfs f List.mem_cons_self
        revert this
        cases f.type <;> simp [kind, relType]
      have htl := ih (by
        rw [List.filterMap_eq_nil_iff] at hfs ⊢
        exact fun a ha => hfs a (List.mem_cons_of_mem _ ha))
      refine ⟨fun c => ?_, fun st => ?_⟩
      · rw [List.foldl_cons, count_skip hf]; exact htl.1 c
      · rw [List.foldl_cons]
        have : writeFix start st f = st := by unfold writeFix; simp only [if_pos hf]
        rw [this]; exact htl.2 st
  have hall : ∀ (segs : List RSeg), allNeeded segs = [] →
      (∀ c, segs.foldl (fun c s => if s.hdr then c else s.fixups.foldl (countFix s.startOffset) c) c = c) ∧
      (∀ st, segs.foldl (fun c s => if s.hdr then c else s.fixups.foldl (writeFix s.startOffset) c) st = st) := by
    intro segs
    induction segs with
    | nil => intro _; exact ⟨fun _ => rfl, fun _ => rfl⟩
    | cons s ss ih =>
      intro hs
      have e : allNeeded (s :: ss) = needed s ++ allNeeded ss := rfl
      rw [e, List.append_eq_nil_iff] at hs
      have htl := ih hs.2
      cases hh : s.hdr with
      | true => exact ⟨fun c => by simp only [List.foldl_cons, hh, if_true]; exact htl.1 c,
          fun st => by simp only [List.foldl_cons, hh, if_true]; exact htl.2 st⟩
      | false =>
        have h1 := hs.1
        unfold needed at h1
        rw [hh, if_neg (by simp)] at h1
        have hk := hskip _ _ h1
        refine ⟨fun c => ?_, fun st => ?_⟩
        · rw [List.foldl_cons, hh, if_neg (by simp), hk.1]; exact htl.1 c
        · rw [List.foldl_cons, hh, if_neg (by simp), hk.2]; exact htl.2 st
  have hs := hall segs h
  refine ⟨?_, ?_, ?_⟩
  · unfold relocSize countAll; rw [hs.1]; rfl
  · unfold writeAll; rw [hs.2]; rfl
  · unfold writeAll; rw [hs.2]; rfl

/-- Finding: the padding is written only before a following block; the last block's size need not be a
multiple of 4, and a segment in the middle of a section gives a block whose address is not a page. -/
theorem C25_last_block_unpadded :
    relocSize [⟨false, 0x1000, [⟨.off32, 4⟩]⟩] = 10 ∧
    get32 (writeAll (fun _ => 0) [⟨false, 0x1000, [⟨.off32, 4⟩]⟩]).mem 2 = 10 ∧
    get32 (writeAll (fun _ => 0) [⟨false, 0x1230, [⟨.off32, 4⟩]⟩]).mem 0 = 0x1230 := by decide

/-! ## MZ -/

theorem mzLoop_spec (loc : W) (seg : BitVec 16) (h : seg.toNat + loc.toNat / 16 < 2 ^ 16) :
    (mzLoop loc seg).1.toNat < 0x10000 ∧
    16 * (mzLoop loc seg).2.toNat + (mzLoop loc seg).1.toNat = 16 * seg.toNat + loc.toNat := by
  fun_induction mzLoop loc seg with
  | case1 loc seg hge ih =>
    have h16 : (16 : W).toNat = 16 := rfl
    have h1 : (1 : BitVec 16).toNat = 1 := rfl
    have hl := loc.isLt
    have e1 : (loc - 16).toNat = loc.toNat - 16 := by rw [BitVec.toNat_sub, h16]; omega
    have e2 : (seg + 1).toNat = seg.toNat + 1 := by rw [BitVec.toNat_add, h1]; omega
    have := ih (by omega)
    omega
  | case2 loc seg hlt => exact ⟨by show loc.toNat < _; omega, rfl⟩

/-- **C25 (MZ).**  A segment relocation of the MZ header, read as `segment:offset`, is the position in the
load image of the 16-bit selector: the segment's start (group start included), plus the fixup's location, plus 2
or 4 for the selector part of a far pointer - provided that lies in the first megabyte. -/
theorem C25_mz_reloc (start locofs : W) (group : Option W) (t : FixType)
    (h : start.toNat + (group.getD 0).toNat + locofs.toNat + 36 < 2 ^ 20) :
    let r := mzReloc start group t locofs
    16 * r.2.toNat + r.1.toNat = start.toNat + (group.getD 0).toNat + locofs.toNat
      + (match t with | .ptr16 => 2 | .ptr32 => 4 | _ => 0) := by
  have hand : ∀ x : W, (x &&& 0xf).toNat = x.toNat % 16 := by
    intro x
    rw [BitVec.toNat_and]
    show x.toNat &&& (2 ^ 4 - 1) = _
    rw [Nat.and_two_pow_sub_one_eq_mod]
  have hshr : ∀ x : W, x.toNat < 2 ^ 20 → ((x >>> 4).setWidth 16 : BitVec 16).toNat = x.toNat / 16 := by
    intro x hx
    rw [BitVec.toNat_setWidth, BitVec.toNat_ushiftRight, Nat.shiftRight_eq_div_pow]; omega
  have h2 : (2 : W).toNat = 2 := rfl
  have h4 : (4 : W).toNat = 4 := rfl
  intro r
  have key : ∀ (loc : W) (seg : BitVec 16) (A : Nat), 16 * seg.toNat + loc.toNat = A → A < 2 ^ 20 →
      16 * (mzLoop loc seg).2.toNat + ((mzLoop loc seg).1.setWidth 16 : BitVec 16).toNat = A := by
    intro loc seg A hA hlt
    have hs := mzLoop_spec loc seg (by omega)
    rw [BitVec.toNat_setWidth, Nat.mod_eq_of_lt (by omega)]
    omega
  have a1 := hand start
  have a2 := hshr start
  cases group with
  | none =>
    have hz : ((none : Option W).getD 0).toNat = 0 := rfl
    rw [hz] at h ⊢
    have a2 := a2 (by omega)
    have b1 : (locofs + (start &&& 0xf)).toNat = locofs.toNat + start.toNat % 16 := by
      rw [BitVec.toNat_add, a1]; omega
    cases t <;> refine key _ _ _ ?_ (by simp only; omega) <;>
      simp only [BitVec.toNat_add, h2, h4, b1, a1, a2] <;> omega
  | some g =>
    have hz : ((some g : Option W).getD 0) = g := rfl
    rw [hz] at h ⊢
    have a2 := a2 (by omega)
    have a3 := hand g
    have a4 := hshr g (by omega)
    cases t <;> refine key _ _ _ ?_ (by simp only; omega) <;>
      simp only [BitVec.toNat_add, h2, h4, a1, a2, a3, a4] <;> omega

example : mzReloc 0x12345 (some 0x20010) .ptr16 0x7 = (0x000e, 0x3235) := by decide +kernel

/-- **C25 (MZ).**  Exactly the selector and far-pointer fixups whose symbol is not in an absolute segment
get a relocation, in order. -/
theorem C25_mz_complete (start : W) (group : Option W) (fs : List (RFix × Bool)) :
    mzRelocs start group fs =
      (fs.filter (fun f => (f.1.type == .seg || f.1.type == .ptr16 || f.1.type == .ptr32) && !f.2)).map
        (fun f => mzReloc start group f.1.type f.1.locofs) := by
  induction fs with
  | nil => rfl
  | cons f fs ih =>
    obtain ⟨f, b⟩ := f
    unfold mzRelocs
    rw [ih]
    cases hf : f.type <;> cases b <;> simp [hf]

end Verif.Bin
