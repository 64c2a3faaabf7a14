import Verif.Bin.Layout
/-! # Proofs: PE layout -/
namespace Verif.Bin
open Spec

/-- Upper bound of the file / memory space of a PE image. -/
def peBudget (falign m : Nat) : List Seg → Nat
  | [] => 0
  | s :: ss => 2 ^ max falign s.alignment + 2 ^ m + s.maxOffset.toNat + peBudget falign m ss

theorem roundUp_eq (x : W) (a : W) : (x + (a - 1)) &&& ~~~(a - 1) = alignUp x a := by
  unfold alignUp; rw [Struct.neg_eq_not]

structure PeAl (falign m : Nat) (i : Option Nat) (st : St) (s : Seg) (st1 : St) : Prop where
  fo : st1.cp.fileoffset = st.cp.fileoffset
  hdr : st1.cp.sizehdr = st.cp.sizehdr
  fst : st1.cp.first = st.cp.first
  alg : st1.cp.alignment ≤ falign
  new : (s.lname = 10 ∨ i ≠ some s.lname) → st1.cp.alignment = falign ∧ 2 ^ m ∣ st1.cp.rva.toNat
  old : ¬ (s.lname = 10 ∨ i ≠ some s.lname) → st1.cp.alignment = 0 ∧ 2 ^ s.alignment ∣ st1.cp.rva.toNat ∧
    st1.cp.rva.toNat < st.cp.rva.toNat + 2 ^ s.alignment
  lo : st.cp.rva.toNat ≤ st1.cp.rva.toNat
  hi : st1.cp.rva.toNat < st.cp.rva.toNat + 2 ^ max falign s.alignment + 2 ^ m

theorem peAlign_ok {falign m : Nat} {i : Option Nat} {st : St} {s : Seg} (hm : m ≤ 31)
    (hs : s.alignment ≤ 31) (hb : st.cp.rva.toNat + 2 ^ max falign s.alignment + 2 ^ m ≤ 2 ^ 32) :
    PeAl falign m i st s (peAlign falign ((1 : W) <<< m) i st s) := by
  have hp1 := two_pow_pos' m
  have hp2 : 2 ^ s.alignment ≤ 2 ^ max falign s.alignment :=
    Nat.pow_le_pow_right (by omega) (by omega)
  have hp3 := two_pow_pos' s.alignment
  obtain ⟨a1, a2, a3⟩ := alignUp_nat (x := st.cp.rva) hm (by omega)
  obtain ⟨b1, b2, b3⟩ := alignUp_nat (x := st.cp.rva) hs (by omega)
  unfold peAlign
  by_cases h : s.lname = 10 ∨ i ≠ some s.lname
  · rw [if_pos h, roundUp_eq]
    exact ⟨rfl, rfl, rfl, Nat.le_refl _, fun _ => ⟨rfl, a3⟩, fun k => absurd h k, a1,
      by show (alignUp _ _).toNat < _; omega⟩
  · rw [if_neg h, roundUp_eq]
    exact ⟨rfl, rfl, rfl, Nat.zero_le _, fun k => absurd k h, fun _ => ⟨rfl, b3, b2⟩, b1,
      by show (alignUp _ _).toNat < _; omega⟩

theorem pe_packed {fmt : Fmt} {flat : Option Nat} {falign m : Nat} (hpe : isPE fmt = true)
    (hfa : falign ≤ 31) (hm : m ≤ 31) : ∀ (segs : List Seg) (i : Option Nat) (st : St),
    Sane segs → (∀ s ∈ segs, placed s = true → s.group.isSome = true) →
    st.cp.fileoffset.toNat + peBudget falign m segs ≤ 2 ^ 32 →
    st.cp.rva.toNat + peBudget falign m segs < 2 ^ 32 →
    Packed fmt st.cp.fileoffset.toNat (peAssign fmt flat falign ((1 : W) <<< m) i st segs).2 ∧
    (peAssign fmt flat falign ((1 : W) <<< m) i st segs).2.map decl = segs.map decl ∧
    (∀ s ∈ (peAssign fmt flat falign ((1 : W) <<< m) i st segs).2, placed s = true →
      st.cp.rva.toNat ≤ s.startOffset.toNat ∧ 2 ^ min s.alignment m ∣ s.startOffset.toNat ∧
      s.startOffset.toNat + memSize s ≤ (peAssign fmt flat falign ((1 : W) <<< m) i st segs).1.cp.rva.toNat) ∧
    ((peAssign fmt flat falign ((1 : W) <<< m) i st segs).2.filter placed).Pairwise
      (fun a b => a.startOffset.toNat + memSize a ≤ b.startOffset.toNat) ∧
    st.cp.rva.toNat ≤ (peAssign fmt flat falign ((1 : W) <<< m) i st segs).1.cp.rva.toNat
  | [], i, st, _, _, _, _ => by
    refine ⟨⟨?_, ?_, ?_⟩, rfl, ?_, ?_, ?_⟩ <;> simp [peAssign]
  | s :: ss, i, st, hs, hgr, hb1, hb2 => by
    have hsane := hs s List.mem_cons_self
    have hs' : Sane ss := fun x hx => hs x (List.mem_cons_of_mem _ hx)
    have hgr' : ∀ x ∈ ss, placed x = true → x.group.isSome = true :=
      fun x hx => hgr x (List.mem_cons_of_mem _ hx)
    simp only [peBudget] at hb1 hb2
    have hp1 := two_pow_pos' m
    have hal := peAlign_ok (falign := falign) (i := i) (st := st) (s := s) hm hsane.1 (by omega)
    simp only [peAssign]
    generalize hst1 : peAlign falign ((1 : W) <<< m) i st s = st1 at hal ⊢
    have f1 := hal.fo
    have f2 := hal.lo
    have f3 := hal.hi
    cases hp : placed s with
    | false =>
      obtain ⟨k1, k2, k3⟩ := skip_ok (fmt := fmt) (flat := flat) (st := st1) hp
      rw [k1]
      obtain ⟨i1, i2, i3, i4, i5⟩ := pe_packed (flat := flat) hpe hfa hm ss (some s.lname) st1 hs' hgr'
        (by rw [f1]; omega) (by omega)
      rw [f1] at i1
      refine ⟨⟨?_, ?_, ?_⟩, ?_, ?_, ?_, by omega⟩
      · intro x hx hpx
        rcases List.mem_cons.1 hx with rfl | hx
        · rw [k3] at hpx; exact absurd hpx (by simp)
        · exact i1.ge x hx hpx
      · intro x hx hpx
        rcases List.mem_cons.1 hx with rfl | hx
        · rw [k3] at hpx; exact absurd hpx (by simp)
        · exact i1.al x hx hpx
      · rw [List.filter_cons_of_neg (by rw [k3]; simp)]; exact i1.ord
      · simp only [List.map_cons, k2, i2]
      · intro x hx hpx
        rcases List.mem_cons.1 hx with rfl | hx
        · rw [k3] at hpx; exact absurd hpx (by simp)
        · obtain ⟨j1, j2, j3⟩ := i3 x hx hpx
          exact ⟨by omega, j2, j3⟩
      · rw [List.filter_cons_of_neg (by rw [k3]; simp)]; exact i4
    | true =>
      have hmaxle : 2 ^ max st1.cp.alignment s.alignment ≤ 2 ^ max falign s.alignment :=
        Nat.pow_le_pow_right (by omega) (by have := hal.alg; omega)
      have hst := step_ok (fmt := fmt) (flat := flat) (st := st1) hp (by have := hal.alg; omega)
        hsane.1 hsane.2 (by rw [f1]; omega)
      have hmx : (calcOffset fmt flat st1 s).2.maxOffset = s.maxOffset := by
        show (decl _).maxOffset = (decl _).maxOffset; rw [hst.dec]
      have hfs : fileSize fmt (calcOffset fmt flat st1 s).2 ≤ s.maxOffset.toNat := by
        unfold fileSize; rw [hmx]; split <;> omega
      have hlc : (calcOffset fmt flat st1 s).2.startLoc.toNat ≤ s.maxOffset.toNat := by
        rw [hst.loc]; exact Nat.le_trans resetLoc_le hsane.2
      have hms : memSize (calcOffset fmt flat st1 s).2
          = s.maxOffset.toNat - (calcOffset fmt flat st1 s).2.startLoc.toNat := by
        unfold memSize; rw [hmx]
      have hfo := hst.fo
      have hhi := hst.hi
      have hlo := hst.lo
      rw [f1] at hhi hlo
      have hrva : (calcOffset fmt flat st1 s).1.cp.rva.toNat
          = st1.cp.rva.toNat + memSize (calcOffset fmt flat st1 s).2 := by
        rw [hst.rva hpe, add_toNat (by rw [sub_toNat hlc]; omega), sub_toNat hlc, hms]
      obtain ⟨g, hg⟩ := Option.isSome_iff_exists.1 (hgr s List.mem_cons_self hp)
      have hso := hst.pe g hg hpe
      obtain ⟨i1, i2, i3, i4, i5⟩ := pe_packed (flat := flat) hpe hfa hm ss (some s.lname)
        (calcOffset fmt flat st1 s).1 hs' hgr' (by omega) (by omega)
      have hpl : placed (calcOffset fmt flat st1 s).2 = true := by rw [placed_calc, hp]
      have halg : (calcOffset fmt flat st1 s).2.alignment = s.alignment := by
        show (decl _).alignment = (decl _).alignment; rw [hst.dec]
      refine ⟨⟨?_, ?_, ?_⟩, ?_, ?_, ?_, by omega⟩
      · intro x hx hpx
        rcases List.mem_cons.1 hx with rfl | hx
        · exact hlo
        · have := i1.ge x hx hpx; omega
      · intro x hx hpx
        rcases List.mem_cons.1 hx with rfl | hx
        · rw [halg]
          exact Nat.dvd_trans (Nat.pow_dvd_pow 2 (Nat.le_max_right _ _)) hst.al
        · exact i1.al x hx hpx
      · rw [List.filter_cons_of_pos hpl, List.pairwise_cons]
        refine ⟨?_, i1.ord⟩
        intro b hb'
        rw [List.mem_filter] at hb'
        have := i1.ge b hb'.1 hb'.2; omega
      · simp only [List.map_cons, hst.dec, i2]
      · intro x hx hpx
        rcases List.mem_cons.1 hx with rfl | hx
        · rw [hso, halg]
          refine ⟨f2, ?_, ?_⟩
          · by_cases hnew : s.lname = 10 ∨ i ≠ some s.lname
            · exact Nat.dvd_trans (Nat.pow_dvd_pow 2 (Nat.min_le_right _ _)) (hal.new hnew).2
            · exact Nat.dvd_trans (Nat.pow_dvd_pow 2 (Nat.min_le_left _ _)) (hal.old hnew).2.1
          · omega
        · obtain ⟨j1, j2, j3⟩ := i3 x hx hpx
          exact ⟨by omega, j2, j3⟩
      · rw [List.filter_cons_of_pos hpl, List.pairwise_cons]
        refine ⟨?_, i4⟩
        intro b hb'
        rw [List.mem_filter] at hb'
        have := (i3 b hb'.1 hb'.2).1
        rw [hso]; omega

theorem multiple_unique {n d a b : Nat} (ha : n ∣ a) (hb : n ∣ b) (h1 : d ≤ a) (h2 : a < d + n)
    (h3 : d ≤ b) (h4 : b < d + n) : a = b := by
  rcases Nat.le_total a b with h | h
  · have := Nat.eq_zero_of_dvd_of_lt (Nat.dvd_sub hb ha) (by omega); omega
  · have := Nat.eq_zero_of_dvd_of_lt (Nat.dvd_sub ha hb) (by omega); omega

/-- Further segments of a section: they have the section's index, hold data, are in a group and need no
more than the file alignment. -/
structure Further (falign L : Nat) (mem : List Seg) : Prop where
  placed : ∀ s ∈ mem, placed s = true
  grp : ∀ s ∈ mem, s.group.isSome = true
  bss : ∀ s ∈ mem, s.segtype ≠ .bss
  idx : ∀ s ∈ mem, s.lname = L
  al : ∀ s ∈ mem, s.alignment ≤ falign

theorem Further.tail {falign L s ss} (h : Further falign L (s :: ss)) : Further falign L ss :=
  ⟨fun x hx => h.placed x (List.mem_cons_of_mem _ hx), fun x hx => h.grp x (List.mem_cons_of_mem _ hx),
   fun x hx => h.bss x (List.mem_cons_of_mem _ hx), fun x hx => h.idx x (List.mem_cons_of_mem _ hx),
   fun x hx => h.al x (List.mem_cons_of_mem _ hx)⟩

theorem further_ok {fmt : Fmt} {flat : Option Nat} {falign m L : Nat} (hpe : isPE fmt = true)
    (hfa : falign ≤ 31) (hm : m ≤ 31) (hL : L ≠ 10) (F R : Nat)
    (hF : 2 ^ falign ∣ F) (hR : 2 ^ falign ∣ R) : ∀ (mem : List Seg) (st : St),
    Sane mem → Further falign L mem →
    st.cp.fileoffset.toNat + peBudget falign m mem ≤ 2 ^ 32 →
    st.cp.rva.toNat + peBudget falign m mem < 2 ^ 32 →
    F ≤ st.cp.fileoffset.toNat → R ≤ st.cp.rva.toNat →
    st.cp.fileoffset.toNat - F = st.cp.rva.toNat - R →
    ∀ s ∈ (peAssign fmt flat falign ((1 : W) <<< m) (some L) st mem).2,
      F ≤ s.fileOffset.toNat ∧ R ≤ s.startOffset.toNat ∧
      s.fileOffset.toNat - F = s.startOffset.toNat - R
  | [], st, _, _, _, _, _, _, _ => by intro s hs; simp [peAssign] at hs
  | s :: ss, st, hs, hmem, hb1, hb2, h1, h2, h3 => by
    have hsane := hs s List.mem_cons_self
    have hs' : Sane ss := fun x hx => hs x (List.mem_cons_of_mem _ hx)
    simp only [peBudget] at hb1 hb2
    have hp1 := two_pow_pos' m
    have hal := peAlign_ok (falign := falign) (i := some L) (st := st) (s := s) hm hsane.1 (by omega)
    have hidx := hmem.idx s List.mem_cons_self
    have hold : ¬ (s.lname = 10 ∨ some L ≠ some s.lname) := by rw [hidx]; simp [hL]
    obtain ⟨o1, o2, o3⟩ := hal.old hold
    simp only [peAssign]
    generalize hst1 : peAlign falign ((1 : W) <<< m) (some L) st s = st1 at hal o1 o2 o3 ⊢
    have f1 := hal.fo
    have f2 := hal.lo
    have f3 := hal.hi
    have hp := hmem.placed s List.mem_cons_self
    have hmaxle : 2 ^ max 0 s.alignment ≤ 2 ^ max falign s.alignment :=
      Nat.pow_le_pow_right (by omega) (by omega)
    have hst := step_ok (fmt := fmt) (flat := flat) (st := st1) hp (by omega)
      hsane.1 hsane.2 (by rw [f1, o1]; omega)
    have hmx : (calcOffset fmt flat st1 s).2.maxOffset = s.maxOffset := by
      show (decl _).maxOffset = (decl _).maxOffset; rw [hst.dec]
    have hty : (calcOffset fmt flat st1 s).2.segtype = s.segtype := by
      show (decl _).segtype = (decl _).segtype; rw [hst.dec]
    have hlc : (calcOffset fmt flat st1 s).2.startLoc.toNat ≤ s.maxOffset.toNat := by
      rw [hst.loc]; exact Nat.le_trans resetLoc_le hsane.2
    have hfs : fileSize fmt (calcOffset fmt flat st1 s).2
        = s.maxOffset.toNat - (calcOffset fmt flat st1 s).2.startLoc.toNat := by
      unfold fileSize
      rw [if_neg (by rw [hty]; exact fun h => hmem.bss s List.mem_cons_self h.1), hmx]
    have hfo := hst.fo
    rw [hfs] at hfo
    have hhi := hst.hi
    have hlo := hst.lo
    have hdv := hst.al
    rw [o1, Nat.zero_max] at hdv hhi
    rw [f1] at hhi hlo
    have hrva : (calcOffset fmt flat st1 s).1.cp.rva.toNat
        = st1.cp.rva.toNat + (s.maxOffset.toNat - (calcOffset fmt flat st1 s).2.startLoc.toNat) := by
      rw [hst.rva hpe, add_toNat (by rw [sub_toNat hlc]; omega), sub_toNat hlc]
    obtain ⟨g, hg⟩ := Option.isSome_iff_exists.1 (hmem.grp s List.mem_cons_self)
    have hso := hst.pe g hg hpe
    have hpw : 2 ^ s.alignment ∣ 2 ^ falign := Nat.pow_dvd_pow 2 (hmem.al s List.mem_cons_self)
    have hkey : (calcOffset fmt flat st1 s).2.fileOffset.toNat - F = st1.cp.rva.toNat - R := by
      refine multiple_unique (n := 2 ^ s.alignment) (d := st.cp.fileoffset.toNat - F)
        (Nat.dvd_sub hdv (Nat.dvd_trans hpw hF)) (Nat.dvd_sub o2 (Nat.dvd_trans hpw hR)) ?_ ?_ ?_ ?_
        <;> omega
    have hmaxle' : 2 ^ s.alignment ≤ 2 ^ max falign s.alignment :=
      Nat.pow_le_pow_right (by omega) (by omega)
    intro x hx
    rcases List.mem_cons.1 hx with rfl | hx
    · rw [hso]; exact ⟨by omega, by omega, hkey⟩
    · rw [hidx] at hx
      exact further_ok hpe hfa hm hL F R hF hR ss _ hs' hmem.tail (by omega) (by omega) (by omega)
        (by omega) (by omega) x hx

/-- A whole section, starting with its first segment `a`. -/
theorem section_ok {fmt : Fmt} {flat : Option Nat} {falign m : Nat} (hpe : isPE fmt = true)
    (hfm : falign ≤ m) (hm : m ≤ 31) (a : Seg) (mem : List Seg) (i : Option Nat) (st : St)
    (hs : Sane (a :: mem)) (hL : a.lname ≠ 10) (hi : i ≠ some a.lname)
    (hap : placed a = true) (hag : a.group.isSome = true) (hab : a.segtype ≠ .bss)
    (hmem : Further falign a.lname mem)
    (hb1 : st.cp.fileoffset.toNat + peBudget falign m (a :: mem) ≤ 2 ^ 32)
    (hb2 : st.cp.rva.toNat + peBudget falign m (a :: mem) < 2 ^ 32) :
    ∃ a' mem', (peAssign fmt flat falign ((1 : W) <<< m) i st (a :: mem)).2 = a' :: mem' ∧
      2 ^ falign ∣ a'.fileOffset.toNat ∧ 2 ^ m ∣ a'.startOffset.toNat ∧
      ∀ s ∈ a' :: mem', a'.fileOffset.toNat ≤ s.fileOffset.toNat ∧
        a'.startOffset.toNat ≤ s.startOffset.toNat ∧
        s.fileOffset.toNat - a'.fileOffset.toNat = s.startOffset.toNat - a'.startOffset.toNat := by
  have hsane := hs a List.mem_cons_self
  have hs' : Sane mem := fun x hx => hs x (List.mem_cons_of_mem _ hx)
  simp only [peBudget] at hb1 hb2
  have hp1 := two_pow_pos' m
  have hal := peAlign_ok (falign := falign) (i := i) (st := st) (s := a) hm hsane.1 (by omega)
  obtain ⟨o1, o2⟩ := hal.new (Or.inr hi)
  simp only [peAssign]
  generalize hst1 : peAlign falign ((1 : W) <<< m) i st a = st1 at hal o1 o2 ⊢
  have f1 := hal.fo
  have f2 := hal.lo
  have f3 := hal.hi
  have hst := step_ok (fmt := fmt) (flat := flat) (st := st1) hap (by omega)
    hsane.1 hsane.2 (by rw [f1, o1]; omega)
  have hmx : (calcOffset fmt flat st1 a).2.maxOffset = a.maxOffset := by
    show (decl _).maxOffset = (decl _).maxOffset; rw [hst.dec]
  have hty : (calcOffset fmt flat st1 a).2.segtype = a.segtype := by
    show (decl _).segtype = (decl _).segtype; rw [hst.dec]
  have hlc : (calcOffset fmt flat st1 a).2.startLoc.toNat ≤ a.maxOffset.toNat := by
    rw [hst.loc]; exact Nat.le_trans resetLoc_le hsane.2
  have hfs : fileSize fmt (calcOffset fmt flat st1 a).2
      = a.maxOffset.toNat - (calcOffset fmt flat st1 a).2.startLoc.toNat := by
    unfold fileSize
    rw [if_neg (by rw [hty]; exact fun h => hab h.1), hmx]
  have hfo := hst.fo
  rw [hfs] at hfo
  have hhi := hst.hi
  have hlo := hst.lo
  have hdv := hst.al
  rw [o1] at hdv hhi
  rw [f1] at hhi hlo
  have hrva : (calcOffset fmt flat st1 a).1.cp.rva.toNat
      = st1.cp.rva.toNat + (a.maxOffset.toNat - (calcOffset fmt flat st1 a).2.startLoc.toNat) := by
    rw [hst.rva hpe, add_toNat (by rw [sub_toNat hlc]; omega), sub_toNat hlc]
  obtain ⟨g, hg⟩ := Option.isSome_iff_exists.1 hag
  have hso := hst.pe g hg hpe
  have hF : 2 ^ falign ∣ (calcOffset fmt flat st1 a).2.fileOffset.toNat :=
    Nat.dvd_trans (Nat.pow_dvd_pow 2 (Nat.le_max_left _ _)) hdv
  have hR : 2 ^ falign ∣ (calcOffset fmt flat st1 a).2.startOffset.toNat := by
    rw [hso]; exact Nat.dvd_trans (Nat.pow_dvd_pow 2 hfm) o2
  have hso' : (calcOffset fmt flat st1 a).2.startOffset.toNat = st1.cp.rva.toNat := by rw [hso]
  refine ⟨_, _, rfl, hF, by rw [hso]; exact o2, ?_⟩
  intro x hx
  rcases List.mem_cons.1 hx with rfl | hx
  · exact ⟨Nat.le_refl _, Nat.le_refl _, by omega⟩
  · exact further_ok hpe (by omega) hm hL _ _ hF hR mem _ hs' hmem (by omega) (by omega) (by omega)
      (by omega) (by omega) x hx

end Verif.Bin
