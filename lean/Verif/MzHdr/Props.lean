import Verif.MzHdr.Image
import Verif.Bin.Props
/-! # Property theorems: the header of DOS MZ files (C81) -/
namespace Verif.MzHdr
open Verif.Bin Verif.MzHdr.Spec

theorem hdr_toNat {d : MzData} {n k : Nat} (hn : n < 65536) (hk : 4 ≤ k) (ha : d.alignment.toNat = 2 ^ k)
    (hh : n * 4 + d.ofsFixups.toNat + 2 ^ k < 2 ^ 20) :
    let z := mzSizeHdr (BitVec.ofNat 16 n) d.ofsFixups d.alignment
    16 ∣ z.toNat ∧ z.toNat < 2 ^ 20 ∧ n * 4 + d.ofsFixups.toNat ≤ z.toNat ∧
      z.toNat < n * 4 + d.ofsFixups.toNat + 2 ^ k := by
  have hk16 : k < 16 := by
    have := d.alignment.isLt
    rw [ha] at this
    exact (Nat.pow_lt_pow_iff_right (by omega)).1 this
  have haw : (d.alignment.setWidth 32 : W) = (1 : W) <<< k := by
    apply BitVec.eq_of_toNat_eq
    rw [BitVec.toNat_setWidth, shl_toNat k (by omega), ha]
    exact Nat.mod_eq_of_lt (Nat.pow_lt_pow_right (by omega) (by omega))
  have hcw : ((BitVec.ofNat 16 n).setWidth 32 * 4 + d.ofsFixups.setWidth 32 : W).toNat
      = n * 4 + d.ofsFixups.toNat := by
    have h4 : (4 : W).toNat = 4 := rfl
    have := d.ofsFixups.isLt
    rw [BitVec.toNat_add, BitVec.toNat_mul, BitVec.toNat_setWidth, BitVec.toNat_setWidth, BitVec.toNat_ofNat, h4]
    omega
  have heq : mzSizeHdr (BitVec.ofNat 16 n) d.ofsFixups d.alignment
      = alignUp ((BitVec.ofNat 16 n).setWidth 32 * 4 + d.ofsFixups.setWidth 32) ((1 : W) <<< k) := by
    unfold mzSizeHdr alignUp
    rw [haw, show (1 : W) = 1#32 from rfl, BitVec.not_sub_one_eq_not_add_one, ← BitVec.neg_eq_not_add]
  intro z
  have h := alignUp_nat (x := (BitVec.ofNat 16 n).setWidth 32 * 4 + d.ofsFixups.setWidth 32) (k := k)
    (by omega) (by rw [hcw]; omega)
  rw [hcw, ← heq] at h
  refine ⟨Nat.dvd_trans (Nat.pow_dvd_pow 2 hk) h.2.2, ?_, h.1, h.2.1⟩
  show (mzSizeHdr (BitVec.ofNat 16 n) d.ofsFixups d.alignment).toNat < 2 ^ 20
  omega

/-- The three conditions under which the header is well defined: fewer than 65536 relocations, the alignment is a
power of two of at least a paragraph, and the header stays below 1 MB. -/
structure Params (d : MzData) (n k : Nat) : Prop where
  hn : n < 65536
  hk : 4 ≤ k
  hal : d.alignment.toNat = 2 ^ k
  small : n * 4 + d.ofsFixups.toNat + 2 ^ k < 2 ^ 20

theorem cparhdr_eq {d : MzData} {n k : Nat} (hp : Params d n k) (segs : List MSeg) (start : Option (MSeg × W)) :
    hdrLen (mzHeader d n segs start) = (mzSizeHdr (BitVec.ofNat 16 n) d.ofsFixups d.alignment).toNat := by
  have hz := hdr_toNat hp.hn hp.hk hp.hal hp.small
  unfold hdrLen mzHeader
  simp only at hz ⊢
  rw [BitVec.toNat_setWidth, BitVec.toNat_ushiftRight, Nat.shiftRight_eq_div_pow]
  omega

theorem pages_eq (x : W) (hx : x.toNat ≤ 0xFFFF * 512) (d : MzData) (n : Nat) (segs : List MSeg)
    (start : Option (MSeg × W)) (he : imageSize false segs = x) :
    fileLen (mzHeader d n segs start) = x.toNat := by
  unfold fileLen mzHeader
  simp only [he]
  have h512 : (512 : W).toNat = 512 := rfl
  have h1 : (1 : W).toNat = 1 := rfl
  have hm : ((x % 512).setWidth 16 : BitVec 16).toNat = x.toNat % 512 := by
    rw [BitVec.toNat_setWidth, BitVec.toNat_umod, h512]; omega
  have hd : ((x / 512 + (if x % 512 ≠ 0 then 1 else 0)).setWidth 16 : BitVec 16).toNat
      = x.toNat / 512 + (if x.toNat % 512 = 0 then 0 else 1) := by
    have hz : (x % 512 = 0) ↔ x.toNat % 512 = 0 := by
      rw [← BitVec.toNat_inj, BitVec.toNat_umod, h512]; rfl
    by_cases h : x.toNat % 512 = 0
    · rw [if_neg (fun hc => hc (hz.2 h)), if_pos h]
      rw [BitVec.toNat_setWidth, BitVec.toNat_add, BitVec.toNat_udiv, h512]
      show ((x.toNat / 512 + 0) % 2 ^ 32) % 2 ^ 16 = _
      omega
    · rw [if_pos (fun hc => h (hz.1 hc)), if_neg h]
      rw [BitVec.toNat_setWidth, BitVec.toNat_add, BitVec.toNat_udiv, h512, h1]
      omega
  rw [hm, hd]
  by_cases h : x.toNat % 512 = 0
  · rw [if_pos h, if_pos h]; omega
  · rw [if_neg h, if_neg h]; omega

theorem image_small {segs : List MSeg} (hs : Sane segs) (hb : ∀ s ∈ segs, fileEnd s ≤ 0xFFFF * 512) :
    (imageSize false segs).toNat ≤ 0xFFFF * 512 := by
  obtain ⟨_, _, h⟩ := image_false segs true 0 0 hs
  rcases h with h | ⟨s, h, e⟩
  · unfold imageSize; rw [h]; decide
  · unfold imageSize; rw [← e]; exact hb s h.mem

/-- **C81 (load image).**  The header DOS reads: it is counted in paragraphs exactly, the relocation table lies
in it, every segment with initialised bytes, or in front of one, lies within the size of the file as it is told
there, and this size is not larger than needed. -/
theorem C81_load_image (d : MzData) (n k : Nat) (hp : Params d n k) (segs : List MSeg)
    (start : Option (MSeg × W)) (hs : Sane segs) (hb : ∀ s ∈ segs, fileEnd s ≤ 0xFFFF * 512) :
    let h := mzHeader d n segs start
    h.crlc.toNat = n ∧ h.lfarlc.toNat + 4 * n ≤ hdrLen h ∧
    hdrLen h < h.lfarlc.toNat + 4 * n + d.alignment.toNat ∧
    (∀ s, Stored segs s → fileEnd s ≤ fileLen h) ∧
    (fileLen h = 0 ∨ ∃ s, Stored segs s ∧ fileEnd s = fileLen h) := by
  intro h
  have hz := hdr_toNat hp.hn hp.hk hp.hal hp.small
  have hl : hdrLen h = _ := cparhdr_eq hp segs start
  have hf : fileLen h = (imageSize false segs).toNat := pages_eq _ (image_small hs hb) d n segs start rfl
  obtain ⟨_, h2, h3⟩ := image_false segs true 0 0 hs
  rw [hf, hl, hp.hal]
  simp only at hz
  have hlf : h.lfarlc = d.ofsFixups := rfl
  have hcr : h.crlc.toNat = n := by
    show (BitVec.ofNat 16 n).toNat = n
    rw [BitVec.toNat_ofNat]; exact Nat.mod_eq_of_lt hp.hn
  rw [hlf]
  refine ⟨hcr, by omega, by omega, h2, ?_⟩
  rcases h3 with h3 | h3
  · left; unfold imageSize; rw [h3]; rfl
  · exact .inr h3

/-- **C81 (file).**  With segments laid out by the assembler (C23), at least one of them with initialised bytes,
the file has exactly the length told in the header. -/
theorem C81_file (d : MzData) (n k : Nat) (hp : Params d n k) (flat : Option Nat) (decls : List Seg)
    (hd : Bin.Spec.Sane decls)
    (hb : (mzSizeHdr (BitVec.ofNat 16 n) d.ofsFixups d.alignment).toNat + Bin.Spec.budget 0 decls ≤ 2 ^ 32)
    (segs : List MSeg) (start : Option (MSeg × W))
    (hl : segs.map (·.seg) =
      (calcAll .mz flat (initSt (mzSizeHdr (BitVec.ofNat 16 n) d.ofsFixups d.alignment)) decls).2)
    (hs : Sane segs) (hsz : ∀ s ∈ segs, fileEnd s ≤ 0xFFFF * 512) (hf : Filled segs)
    (hw : ∃ s ∈ segs, s.written = true) :
    fileLength (hdrLen (mzHeader d n segs start)) segs = fileLen (mzHeader d n segs start) := by
  rw [cparhdr_eq hp, pages_eq _ (image_small hs hsz) d n segs start rfl]
  generalize mzSizeHdr (BitVec.ofNat 16 n) d.ofsFixups d.alignment = z at *
  obtain ⟨_, g1, g2⟩ := C23_file_layout .mz flat z decls hd hb
  rw [← hl] at g1 g2
  have ord : Ordered z.toNat segs := by
    constructor
    · intro s h p
      exact (g1 s.seg (List.mem_map_of_mem h) p).1
    · rw [List.pairwise_filter, List.pairwise_map] at g2
      refine g2.imp ?_
      intro a b h pa pb
      have := h pa pb
      omega
  obtain ⟨f1, f2, f3⟩ := fileLength_spec segs z.toNat (fun s h => ⟨(hf s h).1, (hs s h).1, (hf s h).2.2⟩)
  obtain ⟨_, i2, i3⟩ := image_false segs true 0 0 hs
  obtain ⟨w, hwm, hww⟩ := hw
  have hwp := (hf w hwm).2.1 hww
  obtain ⟨wa, wb, we⟩ := List.append_of_mem hwm
  have hwst : Stored segs w := ⟨wa, wb, we, hwp.1, .inl hww⟩
  apply Nat.le_antisymm
  · rcases f3 with f3 | ⟨s, h, e⟩
    · rw [f3]
      have h1 := ord.1 w hwm hwp.1
      have h2 := i2 w hwst
      unfold fileEnd at h2
      unfold imageSize
      omega
    · rw [← e]; exact i2 s h
  · unfold imageSize
    rcases i3 with i3 | ⟨s, h, e⟩
    · rw [i3]; exact Nat.zero_le _
    · rw [← e]
      by_cases hlt : s.seg.startLoc.toNat < s.seg.maxOffset.toNat
      · exact f2 s h hlt
      · obtain ⟨a, b, he, pl, q⟩ := h
        rcases q with q | ⟨t, htb, q⟩
        · exact absurd ((hf s (by rw [he]; simp)).2.1 q).2 hlt
        · have htm : t ∈ segs := by rw [he]; simp [htb]
          have htp := (hf t htm).2.1 q
          obtain ⟨ta, tb, te⟩ := List.append_of_mem htm
          have hts : Stored segs t := ⟨ta, tb, te, htp.1, .inl q⟩
          have := f2 t hts htp.2
          have ho := ord.2
          rw [he, List.pairwise_append] at ho
          have ho := (List.pairwise_cons.1 ho.2.1).1 t htb pl htp.1
          unfold fileEnd at *
          omega

theorem image_true_le : ∀ (segs : List MSeg) (first : Bool) (v sz : W) (B : Nat), B < 2 ^ 32 → sz.toNat ≤ B →
    (∀ s ∈ segs, s.seg.startLoc.toNat ≤ s.seg.maxOffset.toNat ∧
      fileEnd s + (v.toNat + (segs.map (fun t => t.seg.startLoc.toNat)).sum) ≤ B) →
    (imageLoop true first v sz segs).toNat ≤ B := by
  intro segs
  induction segs with
  | nil => intro _ _ _ _ _ h _; exact h
  | cons x r ih =>
    intro first v sz B hB hsz hs
    have hx := hs x (List.mem_cons_self ..)
    simp only [List.map_cons, List.sum_cons] at hs hx
    unfold imageLoop
    rw [skip_iff]
    cases hp : placed x with
    | false =>
      simp only [Bool.not_false, if_true]
      exact ih first v sz B hB hsz (fun s h => by
        have := hs s (List.mem_cons_of_mem _ h); exact ⟨this.1, by omega⟩)
    | true =>
      simp only [Bool.not_true, Bool.false_eq_true, if_false, if_true, Bool.false_and]
      have he := end_toNat hx.1 (by omega)
      have hv : (if first = true then v else v + x.seg.startLoc).toNat ≤ v.toNat + x.seg.startLoc.toNat := by
        split
        · omega
        · rw [BitVec.toNat_add]; exact Nat.mod_le ..
      generalize (if first = true then v else v + x.seg.startLoc) = w at *
      refine ih false _ _ B hB ?_ (fun s h => by
          have := hs s (List.mem_cons_of_mem _ h); exact ⟨this.1, by omega⟩)
      split
      · rw [BitVec.toNat_add, he]
        exact Nat.le_trans (Nat.mod_le ..) (by omega)
      · exact hsz

theorem paras_eq (x : W) (hx : x.toNat < 2 ^ 20 - 16) : (paras x).toNat = (x.toNat + 15) / 16 := by
  unfold paras
  have h16 : (16 : W).toNat = 16 := rfl
  have h1 : (1 : W).toNat = 1 := rfl
  have hz : (x % 16 = 0) ↔ x.toNat % 16 = 0 := by
    rw [← BitVec.toNat_inj, BitVec.toNat_umod, h16]; rfl
  by_cases h : x.toNat % 16 = 0
  · rw [if_neg (fun hc => hc (hz.2 h))]
    rw [BitVec.toNat_setWidth, BitVec.toNat_add, BitVec.toNat_udiv, h16]
    show ((x.toNat / 16 + 0) % 2 ^ 32) % 2 ^ 16 = _
    omega
  · rw [if_pos (fun hc => h (hz.1 hc))]
    rw [BitVec.toNat_setWidth, BitVec.toNat_add, BitVec.toNat_udiv, h16, h1]
    omega

/-- **C81 (memory).**  The memory DOS reserves for the program holds every segment, uninitialised ones included;
the heap sizes of OPTION MZ are minima: at least `heapmin` paragraphs are demanded, up to `heapmax` asked for. -/
theorem C81_memory (d : MzData) (n k : Nat) (hp : Params d n k) (segs : List MSeg)
    (start : Option (MSeg × W)) (hs : Sane segs)
    (hb : ∀ s ∈ segs, fileEnd s + (segs.map (fun t => t.seg.startLoc.toNat)).sum ≤ 0xFFF00) :
    let h := mzHeader d n segs start
    (∀ s ∈ segs, placed s = true → fileEnd s ≤ hdrLen h + memory h) ∧
    d.heapmin ≤ h.minalloc ∧ h.minalloc ≤ h.maxalloc ∧ d.heapmax ≤ h.maxalloc ∧
    (h.maxalloc = d.heapmax ∨ h.maxalloc = h.minalloc) := by
  intro h
  have hf : fileLen h = (imageSize false segs).toNat :=
    pages_eq _ (image_small hs (fun s m => by have := hb s m; omega)) d n segs start rfl
  obtain ⟨_, ht⟩ := image_true segs true 0 0 (fun s m => by
    have := hs s m; refine ⟨this.1, ?_⟩; show fileEnd s + (0 + _) < _; omega)
  have htu := image_true_le segs true 0 0 0xFFF00 (by decide) (Nat.zero_le _) (fun s m => by
    have := hs s m; have := hb s m; refine ⟨(hs s m).1, ?_⟩; show fileEnd s + (0 + _) ≤ _; omega)
  obtain ⟨_, _, i3⟩ := image_false segs true 0 0 hs
  have hft : (imageSize false segs).toNat ≤ (imageSize true segs).toNat := by
    unfold imageSize
    rcases i3 with i3 | ⟨s, m, e⟩
    · rw [i3]; exact Nat.zero_le _
    · rw [← e]
      refine ht s m.mem ?_
      obtain ⟨_, _, _, q, _⟩ := m
      exact q
  have hsub : (imageSize true segs - imageSize false segs).toNat
      = (imageSize true segs).toNat - (imageSize false segs).toNat := sub_toNat hft
  have hpa := paras_eq (imageSize true segs - imageSize false segs) (by
    rw [hsub]; unfold imageSize; omega)
  rw [hsub] at hpa
  have hmin : (paras (imageSize true segs - imageSize false segs)) ≤ h.minalloc ∧ d.heapmin ≤ h.minalloc := by
    show _ ≤ (if paras (imageSize true segs - imageSize false segs) < d.heapmin then d.heapmin else _) ∧
      _ ≤ (if paras (imageSize true segs - imageSize false segs) < d.heapmin then d.heapmin else _)
    split
    · rename_i hlt
      exact ⟨BitVec.le_of_lt hlt, BitVec.le_refl _⟩
    · rename_i hge
      exact ⟨BitVec.le_refl _, by rw [BitVec.le_def]; rw [BitVec.lt_def] at hge; omega⟩
  have hmax : h.maxalloc = if d.heapmax < h.minalloc then h.minalloc else d.heapmax := rfl
  refine ⟨?_, hmin.2, ?_, ?_, ?_⟩
  · intro s m p
    have h1 := ht s m p
    have h2 : _ ≤ h.minalloc.toNat := hmin.1
    rw [hpa] at h2
    unfold memory
    rw [hf]
    unfold imageSize at *
    omega
  · rw [hmax]; split
    · exact BitVec.le_refl _
    · rename_i hge; rw [BitVec.le_def]; rw [BitVec.lt_def] at hge; omega
  · rw [hmax]; split
    · rename_i hlt; exact BitVec.le_of_lt hlt
    · exact BitVec.le_refl _
  · rw [hmax]; split
    · exact .inr rfl
    · exact .inl rfl

theorem and_f (x : W) : (x &&& 0xF).toNat = x.toNat % 16 := by
  rw [BitVec.toNat_and]
  show x.toNat &&& (2 ^ 4 - 1) = _
  rw [Nat.and_two_pow_sub_one_eq_mod]

/-- **C81 (entry point).**  CS:IP is the address of the start label: its group, its segment and its offset, as long
as the offset behind the selector fits into 16 bits and the address into the first megabyte. -/
theorem C81_entry (d : MzData) (n : Nat) (segs : List MSeg) (s : MSeg) (ofs : W)
    (h1 : (s.group.getD s.seg.startOffset).toNat < 2 ^ 20)
    (h2 : (match s.group with | none => 0 | some _ => s.seg.startOffset.toNat) + ofs.toNat + 15 < 2 ^ 16) :
    let h := mzHeader d n segs (some (s, ofs))
    linear h.cs h.ip = (s.group.getD 0).toNat + s.seg.startOffset.toNat + ofs.toNat := by
  intro h
  show linear (entryRegs s ofs).1 (entryRegs s ofs).2 = _
  unfold entryRegs linear
  cases hg : s.group with
  | none =>
    rw [hg] at h1 h2
    simp only [Option.getD_none] at h1 h2 ⊢
    have h0 : (0 : W).toNat = 0 := rfl
    rw [BitVec.toNat_setWidth, BitVec.toNat_setWidth, BitVec.toNat_add, and_f, BitVec.toNat_ushiftRight,
      Nat.shiftRight_eq_div_pow, h0]
    omega
  | some g =>
    rw [hg] at h1 h2
    simp only [Option.getD_some] at h1 h2 ⊢
    rw [BitVec.toNat_setWidth, BitVec.toNat_setWidth, BitVec.toNat_add, BitVec.toNat_add, and_f,
      BitVec.toNat_ushiftRight, Nat.shiftRight_eq_div_pow]
    omega

theorem stack_lin (s : MSeg) (h1 : s.seg.startOffset.toNat + (s.group.getD 0).toNat < 2 ^ 20 - 16)
    (h2 : s.seg.maxOffset.toNat < 2 ^ 16) :
    linear (stackRegs s).1 (stackRegs s).2 =
      (s.seg.startOffset.toNat + (s.group.getD 0).toNat + 15) / 16 * 16 + s.seg.maxOffset.toNat := by
  have key : ∀ addr : W, addr.toNat < 2 ^ 20 - 16 →
      (((addr >>> 4) + (if addr &&& 0xF ≠ 0 then 1 else 0)).setWidth 16 : BitVec 16).toNat
        = (addr.toNat + 15) / 16 := by
    intro addr ha
    have h1 : (1 : W).toNat = 1 := rfl
    have hz : (addr &&& 0xF = 0) ↔ addr.toNat % 16 = 0 := by
      rw [← BitVec.toNat_inj, and_f]; rfl
    by_cases h : addr.toNat % 16 = 0
    · rw [if_neg (fun hc => hc (hz.2 h))]
      rw [BitVec.toNat_setWidth, BitVec.toNat_add, BitVec.toNat_ushiftRight, Nat.shiftRight_eq_div_pow]
      show ((addr.toNat / 2 ^ 4 + 0) % 2 ^ 32) % 2 ^ 16 = _
      omega
    · rw [if_pos (fun hc => h (hz.1 hc))]
      rw [BitVec.toNat_setWidth, BitVec.toNat_add, BitVec.toNat_ushiftRight, Nat.shiftRight_eq_div_pow, h1]
      omega
  have hm : (s.seg.maxOffset.setWidth 16 : BitVec 16).toNat = s.seg.maxOffset.toNat := by
    rw [BitVec.toNat_setWidth, Nat.mod_eq_of_lt h2]
  have h0 : (0 : W).toNat = 0 := rfl
  unfold stackRegs linear
  simp only
  rw [hm]
  cases hg : s.group with
  | none =>
    rw [hg] at h1
    simp only [Option.getD_none, h0] at h1 ⊢
    rw [key _ (by omega)]; omega
  | some g =>
    rw [hg] at h1
    simp only [Option.getD_some] at h1 ⊢
    have ha : (s.seg.startOffset + g).toNat = s.seg.startOffset.toNat + g.toNat := by
      rw [BitVec.toNat_add]; omega
    rw [key _ (by rw [ha]; omega), ha]; omega

theorem find_first {segs a b : List MSeg} {s : MSeg} (e : segs = a ++ s :: b) (ha : ∀ t ∈ a, t.stack = false)
    (hs : s.stack = true) : segs.find? MSeg.stack = some s := by
  subst e
  rw [List.find?_append, List.find?_eq_none.2 (fun t ht => by simp [ha t ht])]
  simp [hs]

/-- **C81 (stack).**  SS:SP is the end of the first STACK segment, if this starts at a paragraph; without such a
segment both are 0.  Missing: other segments (C81_defect_stack). -/
theorem C81_stack_partial (d : MzData) (n : Nat) (segs : List MSeg) (start : Option (MSeg × W)) :
    let h := mzHeader d n segs start
    (∀ a s b, segs = a ++ s :: b → (∀ t ∈ a, t.stack = false) → s.stack = true →
      s.seg.startOffset.toNat + (s.group.getD 0).toNat < 2 ^ 20 - 16 → s.seg.maxOffset.toNat < 2 ^ 16 →
      16 ∣ s.seg.startOffset.toNat + (s.group.getD 0).toNat →
      linear h.ss h.sp = s.seg.startOffset.toNat + (s.group.getD 0).toNat + s.seg.maxOffset.toNat) ∧
    ((∀ s ∈ segs, s.stack = false) → h.ss = 0 ∧ h.sp = 0) := by
  intro h
  constructor
  · intro a s b e ha hs h1 h2 h3
    have hf := find_first e ha hs
    have hl := stack_lin s h1 h2
    show linear (match segs.find? MSeg.stack with | none => (0, 0) | some s => stackRegs s).1
      (match segs.find? MSeg.stack with | none => (0, 0) | some s => stackRegs s).2 = _
    rw [hf]
    rw [hl]
    omega
  · intro hn
    have hf : segs.find? MSeg.stack = none := List.find?_eq_none.2 (fun t ht => by simp [hn t ht])
    show (match segs.find? MSeg.stack with | none => (0, 0) | some s => stackRegs s).1 = _ ∧
      (match segs.find? MSeg.stack with | none => (0, 0) | some s => stackRegs s).2 = _
    rw [hf]
    exact ⟨rfl, rfl⟩

/-- **C81 (defect).**  A STACK segment that does not start at a paragraph gets a stack that ends behind it: SS is
rounded up, SP is not reduced.  What the program pushes first lands in the segment behind. -/
theorem C81_defect_stack (d : MzData) (n : Nat) (a b : List MSeg) (s : MSeg) (start : Option (MSeg × W))
    (ha : ∀ t ∈ a, t.stack = false) (hs : s.stack = true)
    (h1 : s.seg.startOffset.toNat + (s.group.getD 0).toNat < 2 ^ 20 - 16) (h2 : s.seg.maxOffset.toNat < 2 ^ 16)
    (h3 : ¬ 16 ∣ s.seg.startOffset.toNat + (s.group.getD 0).toNat) :
    let h := mzHeader d n (a ++ s :: b) start
    s.seg.startOffset.toNat + (s.group.getD 0).toNat + s.seg.maxOffset.toNat < linear h.ss h.sp := by
  intro h
  have hf := find_first (segs := a ++ s :: b) rfl ha hs
  have hl := stack_lin s h1 h2
  show _ < linear (match (a ++ s :: b).find? MSeg.stack with | none => (0, 0) | some s => stackRegs s).1
    (match (a ++ s :: b).find? MSeg.stack with | none => (0, 0) | some s => stackRegs s).2
  rw [hf]
  rw [hl]
  omega

/-- **C81 (defect).**  With 65536 relocations or more the count is taken modulo 65536: the header is too small for
the table, which is nevertheless written, over the end of the buffer. -/
theorem C81_defect_relocs (d : MzData) (n k : Nat) (hn : 65536 ≤ n) (hk : 4 ≤ k) (ha : d.alignment.toNat = 2 ^ k)
    (hh : n % 65536 * 4 + d.ofsFixups.toNat + 2 ^ k < 2 ^ 20) (segs : List MSeg) (start : Option (MSeg × W)) :
    let h := mzHeader d n segs start
    hdrLen h < h.lfarlc.toNat + 4 * n := by
  intro h
  have hmod : (BitVec.ofNat 16 n) = BitVec.ofNat 16 (n % 65536) := by
    apply BitVec.eq_of_toNat_eq
    rw [BitVec.toNat_ofNat, BitVec.toNat_ofNat]; omega
  have hp : Params d (n % 65536) k := ⟨by omega, hk, ha, hh⟩
  have e : hdrLen h = hdrLen (mzHeader d (n % 65536) segs start) := by
    show hdrLen (mzHeader d n segs start) = _
    unfold hdrLen mzHeader
    rw [hmod]
  have hz := (hdr_toNat hp.hn hp.hk hp.hal hp.small).2.2.2
  rw [e, cparhdr_eq hp]
  have hal := d.alignment.isLt
  show _ < d.ofsFixups.toNat + 4 * n
  omega

theorem pow2Loop_spec (a : Nat) (ha : a ≤ 16 * 2 ^ 13) : ∀ (n i : Nat), n + i = 13 →
    (∀ j, j < i → 16 * 2 ^ j ≠ a) → (i = 0 ∨ 16 * 2 ^ (i - 1) < a) →
    (pow2Loop a n (16 * 2 ^ i) = a ↔ ∃ j, a = 16 * 2 ^ j) := by
  intro n
  induction n with
  | zero =>
    intro i hi hne _
    have : i = 13 := by omega
    subst this
    unfold pow2Loop
    constructor
    · intro h; exact ⟨13, h.symm⟩
    · rintro ⟨j, hj⟩
      by_cases h13 : j < 13
      · exact absurd hj.symm (hne j h13)
      · have := Nat.pow_le_pow_right (n := 2) (by omega) (show 13 ≤ j by omega)
        omega
  | succ n ih =>
    intro i hi hne hlo
    unfold pow2Loop
    by_cases hlt : 16 * 2 ^ i < a
    · rw [if_pos hlt]
      have := ih (i + 1) (by omega) (fun j hj => by
        by_cases hji : j < i
        · exact hne j hji
        · have : j = i := by omega
          subst this; omega) (.inr (by simpa using hlt))
      rw [Nat.pow_succ, ← Nat.mul_assoc] at this
      exact this
    · rw [if_neg hlt]
      constructor
      · intro h; exact ⟨i, h.symm⟩
      · rintro ⟨j, hj⟩
        by_cases hji : j < i
        · exact absurd hj.symm (hne j hji)
        · have := Nat.pow_le_pow_right (n := 2) (by omega) (show i ≤ j by omega)
          omega

/-- **C81 (OPTION MZ).**  The alignment is accepted exactly if it is a power of two of at least 16; the relocation
table does not start inside of the header fields, and the maximum of the heap is not below its minimum.  Valid
parameters are not changed. -/
theorem C81_option (d : MzData) :
    ((setMZ d).2 = false ↔ ∃ j, d.alignment.toNat = 16 * 2 ^ j) ∧
    0x1E ≤ (setMZ d).1.ofsFixups ∧ (setMZ d).1.heapmin ≤ (setMZ d).1.heapmax ∧
    (setMZ d).1.alignment = d.alignment ∧ (setMZ d).1.heapmin = d.heapmin ∧
    (0x1E ≤ d.ofsFixups → d.heapmin ≤ d.heapmax → (setMZ d).1 = d) ∧
    (setMZ mzdata = (mzdata, false)) := by
  have hal : (if d.ofsFixups < 0x1E then { d with ofsFixups := 0x1E } else d : MzData).alignment = d.alignment := by
    split <;> rfl
  refine ⟨?_, ?_, ?_, ?_, ?_, ?_, by decide +kernel⟩
  · have h := pow2Loop_spec d.alignment.toNat (by have := d.alignment.isLt; omega) 13 0 rfl
      (fun j hj => by omega) (.inl rfl)
    unfold setMZ
    simp only [hal]
    rw [← h]
    simp
  · unfold setMZ
    have : (0x1E : BitVec 16) ≤ (if d.ofsFixups < 0x1E then { d with ofsFixups := 0x1E } else d : MzData).ofsFixups := by
      split
      · exact BitVec.le_refl _
      · rename_i h; rw [BitVec.le_def]; rw [BitVec.lt_def] at h; omega
    simp only
    generalize (if d.ofsFixups < 0x1E then { d with ofsFixups := 0x1E } else d : MzData) = d1 at *
    split <;> exact this
  · unfold setMZ
    simp only
    generalize (if d.ofsFixups < 0x1E then { d with ofsFixups := 0x1E } else d : MzData) = d1 at *
    split
    · exact BitVec.le_refl _
    · rename_i h; rw [BitVec.le_def]; rw [BitVec.lt_def] at h; omega
  · unfold setMZ
    simp only
    refine Eq.trans ?_ hal
    generalize (if d.ofsFixups < 0x1E then { d with ofsFixups := 0x1E } else d : MzData) = d1 at *
    split <;> rfl
  · unfold setMZ
    simp only
    have : (if d.ofsFixups < 0x1E then { d with ofsFixups := 0x1E } else d : MzData).heapmin = d.heapmin := by
      split <;> rfl
    refine Eq.trans ?_ this
    generalize (if d.ofsFixups < 0x1E then { d with ofsFixups := 0x1E } else d : MzData) = d1 at *
    split <;> rfl
  · intro h1 h2
    unfold setMZ
    have e1 : ¬ d.ofsFixups < 0x1E := by rw [BitVec.lt_def]; rw [BitVec.le_def] at h1; omega
    have e2 : ¬ d.heapmax < d.heapmin := by rw [BitVec.lt_def]; rw [BitVec.le_def] at h2; omega
    simp only [if_neg e1, if_neg e2]

/-! ## A program: code, data in a group of its own, uninitialised data, a stack -/

def sample : List MSeg :=
  [⟨⟨"CODE".toList, .code, false, none, 4, 0, 0x123, 0, 0x30, 0, 0⟩, true, true, false, none⟩,
   ⟨⟨"DATA".toList, .data, false, some 1, 4, 0, 0x55, 0, 0x160, 0, 0⟩, true, true, false, some 0x130⟩,
   ⟨⟨"STACK".toList, .stack, false, some 1, 4, 0, 0x100, 0, 0x1C0, 0x60, 0⟩, false, true, true, some 0x130⟩]

def sampleDecls : List Seg :=
  sample.map (fun s => { s.seg with fileOffset := 0, startOffset := 0 })

def sampleStart : Option (MSeg × W) := sample.head?.map (fun s => (s, 0x10))

def sampleHdr : Hdr := mzHeader mzdata 3 sample sampleStart

example : sampleHdr = ⟨0x1B5, 1, 3, 3, 0x11, 0xFFFF, 0x19, 0x100, 0x10, 0, 0x1E⟩ := by decide +kernel

example : Params mzdata 3 4 := ⟨by decide, by decide, by decide, by decide⟩

theorem sample_sane : Sane sample ∧ (∀ s ∈ sample, fileEnd s ≤ 0xFFFF * 512) := by
  unfold Sane sample fileEnd
  decide +kernel

theorem sample_filled : Filled sample := by
  intro s h
  have h2 : ∀ s ∈ sample, s.seg.info = false ∧
      (s.written = true → placed s = true ∧ s.seg.startLoc.toNat < s.seg.maxOffset.toNat) ∧ s.buf = true := by
    decide +kernel
  exact ⟨(h2 s h).1, (h2 s h).2.1, fun _ => (h2 s h).2.2⟩

example : sample.map (·.seg) = (calcAll .mz none (initSt (mzSizeHdr (BitVec.ofNat 16 3) mzdata.ofsFixups
    mzdata.alignment)) sampleDecls).2 := by decide +kernel

/-- The file of the program is 0x1B5 bytes long. -/
example : fileLength (hdrLen sampleHdr) sample = 0x1B5 := by
  have hd : Bin.Spec.Sane sampleDecls := by unfold Bin.Spec.Sane; decide +kernel
  have := C81_file mzdata 3 4 ⟨by decide, by decide, by decide, by decide⟩ none sampleDecls hd
    (by decide +kernel) sample sampleStart (by decide +kernel) sample_sane.1 sample_sane.2 sample_filled
    ⟨_, List.mem_cons_self .., rfl⟩
  show fileLength (hdrLen (mzHeader mzdata 3 sample sampleStart)) sample = _
  rw [this]
  decide +kernel

example : linear sampleHdr.ss sampleHdr.sp = 0x60 + 0x130 + 0x100 := by decide +kernel

/-- Memory: the stack is not in the file, but within the memory that is reserved. -/
example : ∀ s ∈ sample, fileEnd s + (sample.map (fun t => t.seg.startLoc.toNat)).sum ≤ 0xFFF00 := by
  unfold fileEnd
  decide +kernel

/-- An ALIGN(2) stack behind two bytes of data: the stack ends 14 bytes behind the segment. -/
example : let s : MSeg := ⟨⟨"STACK".toList, .stack, false, none, 1, 0, 0x100, 0, 0x22, 2, 0⟩, false, true, true, none⟩
    linear (mzHeader mzdata 0 [s] none).ss (mzHeader mzdata 0 [s] none).sp = 2 + 0x100 + 14 := by decide +kernel

end Verif.MzHdr
