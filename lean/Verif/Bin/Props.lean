import Verif.Bin.Group
import Verif.Bin.Table
import Verif.Bin.Sort
/-! # Property theorems: layout of BIN / MZ / PE images (C23) -/
namespace Verif.Bin
open Spec

/-- **C23 (file layout, BIN and MZ).**  For every list of segments that fits into 4 GB: every segment is
placed behind the header, at a multiple of its alignment, and segments do not overlap and keep their
order; nothing but the computed offsets is changed. -/
theorem C23_file_layout (fmt : Fmt) (flat : Option Nat) (sizehdr : W) (segs : List Seg)
    (hs : Sane segs) (hb : sizehdr.toNat + budget 0 segs ≤ 2 ^ 32) :
    let out := (calcAll fmt flat (initSt sizehdr) segs).2
    out.map decl = segs.map decl ∧
    (∀ s ∈ out, placed s = true →
      sizehdr.toNat ≤ s.fileOffset.toNat ∧ 2 ^ s.alignment ∣ s.fileOffset.toNat) ∧
    (out.filter placed).Pairwise
      (fun a b => a.fileOffset.toNat + fileSize fmt a ≤ b.fileOffset.toNat) := by
  obtain ⟨h1, h2, _⟩ := calcAll_packed fmt flat segs (initSt sizehdr) hs rfl hb
  exact ⟨h2, fun s hs hp => ⟨h1.ge s hs hp, h1.al s hs hp⟩, h1.ord⟩

def seg (name : String) (ty : SegType) (g : Option Nat) (al : Nat) (size start : W) : Seg :=
  ⟨name.toList, ty, false, g, al, 0, size, start, 0, 0, 0⟩

example : (calcAll .mz none (initSt 0x200) [seg "A" .code none 4 5 0, seg "B" .data none 4 0x21 0]).2.map
    (fun s => (s.fileOffset, s.startOffset)) = [(0x200, 0), (0x210, 0x10)] ∧
    Sane [seg "A" .code none 4 5 0, seg "B" .data none 4 0x21 0] ∧
    (0x200 : W).toNat + budget 0 [seg "A" .code none 4 5 0, seg "B" .data none 4 0x21 0] ≤ 2 ^ 32 := by
  refine ⟨by decide +kernel, ?_, by decide +kernel⟩
  intro s hs
  simp only [List.mem_cons, List.not_mem_nil, or_false] at hs
  rcases hs with rfl | rfl <;> decide

/-- **C23 (segments outside groups).**  The address of a segment that is in no group is its position
behind the header. -/
theorem C23_ungrouped (fmt : Fmt) (flat : Option Nat) (sizehdr : W) : ∀ (segs : List Seg),
    ∀ s ∈ (calcAll fmt flat (initSt sizehdr) segs).2, placed s = true → s.group = none →
      s.startOffset = s.fileOffset - sizehdr := by
  have key : ∀ (segs : List Seg) (st : St), ∀ s ∈ (calcAll fmt flat st segs).2, placed s = true →
      s.group = none → s.startOffset = s.fileOffset - st.cp.sizehdr := by
    intro segs
    induction segs with
    | nil => intro st s hs; simp [calcAll] at hs
    | cons a ss ih =>
      intro st s hs hp hg
      simp only [calcAll] at hs
      have hh : (calcOffset fmt flat st a).1.cp.sizehdr = st.cp.sizehdr := by
        unfold calcOffset
        split
        · rfl
        · split
          · rfl
          · by_cases hf : fmt = .none <;> simp [hf]
      rcases List.mem_cons.1 hs with rfl | hs
      · rw [placed_calc] at hp
        simp only [placed, Bool.and_eq_true, decide_eq_true_eq, Bool.not_eq_true'] at hp
        unfold calcOffset at hg ⊢
        rw [if_neg hp.1, if_neg (by rw [hp.2]; simp)] at hg ⊢
        simp only at hg
        simp only [hg]
      · rw [← hh]; exact ih _ s hs hp hg
  intro segs s hs hp hg
  exact key segs (initSt sizehdr) s hs hp hg

/-- **C23 (groups, BIN and MZ).**  Let the members `mem` of group `g` be adjacent (nothing else between
them; nothing of the group before them) and let them hold no uninitialised data in an MZ file.  Then the
group is one consistent image: its base is the position of its first non-empty segment `a`, and the byte
at offset `o` of a member `s` lies exactly where offset `startOffset s + o` of `a` would lie — so the
group-relative address `startOffset s + o` used by the fixups is right. -/
theorem C23_group_image (fmt : Fmt) (flat : Option Nat) (sizehdr : W) (g : Nat)
    (pre mem post : List Seg) (hpe : isPE fmt = false)
    (hs : Sane (pre ++ mem ++ post)) (hb : sizehdr.toNat + budget 0 (pre ++ mem ++ post) ≤ 2 ^ 32)
    (hpre : ∀ s ∈ pre, placed s = true → s.group ≠ some g) (hm : Members fmt flat g mem) :
    let r := calcAll fmt flat (initSt sizehdr) (pre ++ mem ++ post)
    let out := (r.2.drop pre.length).take mem.length
    ∀ a, out.find? (fun s => s.maxOffset ≠ 0) = some a →
      a.fileOffset.toNat = sizehdr.toNat + (r.1.grps g).offset.toNat ∧
      ∀ s ∈ out, s.maxOffset ≠ 0 → ∀ o : Nat, filePos s o = filePos a (s.startOffset.toNat + o) := by
  intro r out a ha
  have hs1 : Sane pre := fun x hx => hs x (by simp [hx])
  have hs2 : Sane mem := fun x hx => hs x (by simp [hx])
  have hs3 : Sane post := fun x hx => hs x (by simp [hx])
  rw [budget_append, budget_append] at hb
  have hr : r = ((calcAll fmt flat (calcAll fmt flat (calcAll fmt flat (initSt sizehdr) pre).1 mem).1 post).1,
      (calcAll fmt flat (initSt sizehdr) pre).2 ++
      (calcAll fmt flat (calcAll fmt flat (initSt sizehdr) pre).1 mem).2 ++
      (calcAll fmt flat (calcAll fmt flat (calcAll fmt flat (initSt sizehdr) pre).1 mem).1 post).2) := by
    show calcAll _ _ _ _ = _
    rw [calcAll_append, calcAll_append]
  have hout : out = (calcAll fmt flat (calcAll fmt flat (initSt sizehdr) pre).1 mem).2 := by
    show (r.2.drop _).take _ = _
    rw [hr]
    simp only [List.append_assoc]
    rw [List.drop_append_of_le_length (by rw [calcAll_length]; exact Nat.le_refl _),
      List.drop_of_length_le (by rw [calcAll_length]; exact Nat.le_refl _), List.nil_append,
      List.take_append_of_le_length (by rw [calcAll_length]; exact Nat.le_refl _),
      List.take_of_length_le (by rw [calcAll_length]; exact Nat.le_refl _)]
  obtain ⟨p1, _, p3, p4, p5⟩ := calcAll_packed fmt flat pre (initSt sizehdr) hs1 rfl
    (by show sizehdr.toNat + _ ≤ _; omega)
  have p0 : (initSt sizehdr).cp.fileoffset.toNat = sizehdr.toNat := rfl
  have hz : ((calcAll fmt flat (initSt sizehdr) pre).1.grps g).totalSize = 0 := by
    rw [calcAll_other pre (initSt sizehdr) hs1 rfl (by rw [p0]; omega) hpre]; rfl
  have hge : sizehdr.toNat ≤ (calcAll fmt flat (initSt sizehdr) pre).1.cp.fileoffset.toNat := by
    have : ∀ (l : List Seg) (st : St), Sane l → st.cp.alignment = 0 →
        st.cp.fileoffset.toNat + budget 0 l ≤ 2 ^ 32 →
        st.cp.fileoffset.toNat ≤ (calcAll fmt flat st l).1.cp.fileoffset.toNat := by
      intro l
      induction l with
      | nil => intro st _ _ _; exact Nat.le_refl _
      | cons s ss ih =>
        intro st hl h0 hbb
        rw [budget_cons] at hbb
        have hpos := two_pow_pos' (max 0 s.alignment)
        have hsane := hl s List.mem_cons_self
        simp only [calcAll]
        cases hp : placed s with
        | false =>
          rw [(skip_ok (fmt := fmt) (flat := flat) (st := st) hp).1]
          exact ih st (fun x hx => hl x (List.mem_cons_of_mem _ hx)) h0 (by omega)
        | true =>
          have hst := step_ok (fmt := fmt) (flat := flat) (st := st) hp (by omega) hsane.1 hsane.2
            (by rw [h0]; omega)
          have hfs : fileSize fmt (calcOffset fmt flat st s).2 ≤ s.maxOffset.toNat := by
            have : (calcOffset fmt flat st s).2.maxOffset = s.maxOffset := by
              show (decl _).maxOffset = (decl _).maxOffset; rw [hst.dec]
            unfold fileSize; rw [this]; split <;> omega
          have hfo := hst.fo
          have hhi := hst.hi
          have hlo := hst.lo
          rw [h0] at hhi
          have := ih (calcOffset fmt flat st s).1 (fun x hx => hl x (List.mem_cons_of_mem _ hx))
            (by rw [hst.alg, h0]) (by omega)
          omega
    exact this pre (initSt sizehdr) hs1 rfl (by rw [p0]; omega)
  rw [hout] at ha
  have p5' : (calcAll fmt flat (initSt sizehdr) pre).1.cp.sizehdr = sizehdr := p5
  obtain ⟨k1, k2, k3, k4⟩ := group_ok hpe mem (calcAll fmt flat (initSt sizehdr) pre).1 hm hs2 p4
    (by rw [p5']; exact hge) (by omega) hz a ha
  obtain ⟨_, _, q3, q4, _⟩ := calcAll_packed fmt flat mem (calcAll fmt flat (initSt sizehdr) pre).1 hs2 p4
    (by omega)
  have htot := calcAll_total (flat := flat) (g := g) hpe mem (calcAll fmt flat (initSt sizehdr) pre).1 hs2 p4
    (by omega) (by rw [hz]; show 0 + _ ≤ _; omega)
  rw [hz] at htot
  have hbase := calcAll_base (flat := flat) (g := g) hpe post
    (calcAll fmt flat (calcAll fmt flat (initSt sizehdr) pre).1 mem).1 hs3 q4 (by omega)
    (by have : (0 : W).toNat = 0 := rfl
        omega) k3
  have hrg : (r.1.grps g).offset
      = ((calcAll fmt flat (calcAll fmt flat (initSt sizehdr) pre).1 mem).1.grps g).offset := by
    rw [hr]; exact hbase
  refine ⟨by rw [hrg, k2, p5'], ?_⟩
  intro s hsm hne o
  rw [hout] at hsm
  have := k4 s hsm hne
  unfold filePos
  omega

/-- Non-vacuity: a COM program (ORG 100h) with code and data in one group. -/
example : Members .none none 0 [seg "_TEXT" .code (some 0) 0 0x105 0x100, seg "_DATA" .data (some 0) 1 7 0] ∧
    (calcAll .none none (initSt 0)
      [seg "_TEXT" .code (some 0) 0 0x105 0x100, seg "_DATA" .data (some 0) 1 7 0]).2.map
      (fun s => (s.fileOffset, s.startOffset, s.startLoc)) = [(0, 0, 0x100), (6, 0x106, 0)] := by
  refine ⟨⟨?_, ?_, ?_, .inl (by simp)⟩, by decide +kernel⟩ <;>
  · intro s hs
    simp only [List.mem_cons, List.not_mem_nil, or_false] at hs
    rcases hs with rfl | rfl <;> decide

/-- **Finding (C23).**  The members of a group must be adjacent: with an ungrouped segment between them,
the group-relative offset given to the third segment (5) is not its distance from the group base (0x10). -/
theorem C23_interleaved_group_wrong :
    let r := calcAll .mz none (initSt 0x200)
      [seg "A" .code (some 0) 0 5 0, seg "B" .data none 0 11 0, seg "C" .data (some 0) 0 3 0]
    (r.2.map (fun s => (s.fileOffset - 0x200, s.startOffset)) = [(0, 0), (5, 5), (0x10, 5)]) ∧
    (r.1.grps 0).offset = 0 := by decide +kernel

/-- **Finding (C23).**  In MZ files an uninitialised segment takes no file space, but segments that
follow it are placed by file position: the two segments get the same address and overlap in memory. -/
theorem C23_mz_bss_overlaps :
    (calcAll .mz none (initSt 0x200) [seg "U" .bss none 4 0x100 0, seg "D" .data none 4 3 0]).2.map
      (fun s => (s.startOffset, memSize s)) = [(0, 0x100), (0, 3)] := by decide +kernel

/-- **Finding (C23).**  Inside a group the members behind uninitialised data get an address that is not
their place in the loaded image (file position 0, address 0x100). -/
theorem C23_mz_group_bss_wrong :
    (calcAll .mz none (initSt 0x200) [seg "U" .bss (some 0) 4 0x100 0, seg "D" .data (some 0) 4 3 0]).2.map
      (fun s => (s.fileOffset - 0x200, s.startOffset)) = [(0, 0), (0, 0x100)] := by decide +kernel

/-- **Finding (C23).**  ORG in the first of two ungrouped segments of a plain binary: addresses of the
first segment start at 100h, the second one is addressed by file position, i.e. 100h too low. -/
theorem C23_org_ungrouped_inconsistent :
    (calcAll .none none (initSt 0) [seg "A" .code none 0 0x105 0x100, seg "B" .data none 0 3 0]).2.map
      (fun s => (filePos s (s.startLoc.toNat), s.startOffset + s.startLoc)) = [(0, 0x100), (5, 5)] := by
  decide +kernel

/-- **C23 (PE layout).**  For every list of grouped segments that fits into 4 GB: file positions are
aligned to the segment's alignment, ordered and disjoint; virtual addresses are aligned to the segment's
alignment (at most the section alignment `2^m`), ordered, disjoint and inside the final image size. -/
theorem C23_pe_layout (flat : Option Nat) (falign m : Nat) (hfa : falign ≤ 31) (hm : m ≤ 31)
    (segs : List Seg) (hs : Sane segs) (hg : ∀ s ∈ segs, placed s = true → s.group.isSome = true)
    (hb : peBudget falign m segs < 2 ^ 32) :
    let r := peAssign .pe flat falign ((1 : W) <<< m) none (initSt 0) segs
    r.2.map decl = segs.map decl ∧
    (∀ s ∈ r.2, placed s = true → 2 ^ s.alignment ∣ s.fileOffset.toNat ∧
      2 ^ min s.alignment m ∣ s.startOffset.toNat ∧
      s.startOffset.toNat + memSize s ≤ r.1.cp.rva.toNat) ∧
    (r.2.filter placed).Pairwise (fun a b => a.fileOffset.toNat + fileSize .pe a ≤ b.fileOffset.toNat) ∧
    (r.2.filter placed).Pairwise (fun a b => a.startOffset.toNat + memSize a ≤ b.startOffset.toNat) := by
  obtain ⟨h1, h2, h3, h4, _⟩ := pe_packed (fmt := .pe) (flat := flat) rfl hfa hm segs none (initSt 0) hs hg
    (by show 0 + _ ≤ _; omega) (by show 0 + _ < _; omega)
  exact ⟨h2, fun s hs hp => ⟨h1.al s hs hp, (h3 s hs hp).2.1, (h3 s hs hp).2.2⟩, h1.ord, h4⟩

/-- **C23 (PE sections).**  Inside a section of initialised data whose segments need no more than the file
alignment, the file image and the memory image agree: every segment lies at the same distance from the
section start in the file (`PointerToRawData`) and in memory (`VirtualAddress`); the section starts on a
file alignment and a section alignment boundary. -/
theorem C23_pe_section (flat : Option Nat) (falign m : Nat) (hfm : falign ≤ m) (hm : m ≤ 31)
    (pre : List Seg) (a : Seg) (mem : List Seg) (hs : Sane (pre ++ a :: mem))
    (hg : ∀ s ∈ pre ++ a :: mem, placed s = true → s.group.isSome = true)
    (hL : a.lname ≠ 10) (hpre : ∀ s ∈ pre.getLast?, s.lname ≠ a.lname)
    (hap : placed a = true) (hab : a.segtype ≠ .bss) (hmem : Further falign a.lname mem)
    (hb : peBudget falign m (pre ++ a :: mem) < 2 ^ 32) :
    ∃ a' mem', (peAssign .pe flat falign ((1 : W) <<< m) none (initSt 0) (pre ++ a :: mem)).2.drop pre.length
        = a' :: mem' ∧
      2 ^ falign ∣ a'.fileOffset.toNat ∧ 2 ^ m ∣ a'.startOffset.toNat ∧
      ∀ s ∈ a' :: mem', a'.fileOffset.toNat ≤ s.fileOffset.toNat ∧
        a'.startOffset.toNat ≤ s.startOffset.toNat ∧
        s.fileOffset.toNat - a'.fileOffset.toNat = s.startOffset.toNat - a'.startOffset.toNat := by
  have gen : ∀ (pre : List Seg) (i : Option Nat) (st : St), Sane (pre ++ a :: mem) →
      (∀ s ∈ pre ++ a :: mem, placed s = true → s.group.isSome = true) →
      (∀ s ∈ pre.getLast?, s.lname ≠ a.lname) → (pre = [] → i ≠ some a.lname) →
      st.cp.fileoffset.toNat + peBudget falign m (pre ++ a :: mem) ≤ 2 ^ 32 →
      st.cp.rva.toNat + peBudget falign m (pre ++ a :: mem) < 2 ^ 32 →
      ∃ a' mem', (peAssign .pe flat falign ((1 : W) <<< m) i st (pre ++ a :: mem)).2.drop pre.length
          = a' :: mem' ∧
        2 ^ falign ∣ a'.fileOffset.toNat ∧ 2 ^ m ∣ a'.startOffset.toNat ∧
        ∀ s ∈ a' :: mem', a'.fileOffset.toNat ≤ s.fileOffset.toNat ∧
          a'.startOffset.toNat ≤ s.startOffset.toNat ∧
          s.fileOffset.toNat - a'.fileOffset.toNat = s.startOffset.toNat - a'.startOffset.toNat := by
    intro pre
    induction pre with
    | nil =>
      intro i st hs hg _ hi hb1 hb2
      simp only [List.nil_append, List.length_nil, List.drop_zero] at *
      exact section_ok rfl hfm hm a mem i st hs hL (hi trivial) hap
        (hg a List.mem_cons_self hap) hab hmem hb1 hb2
    | cons s ss ih =>
      intro i st hs hg hl _ hb1 hb2
      simp only [List.cons_append, peBudget] at hb1 hb2
      have hsane := hs s List.mem_cons_self
      have hs' : Sane (ss ++ a :: mem) := fun x hx => hs x (List.mem_cons_of_mem _ hx)
      have hg' : ∀ x ∈ ss ++ a :: mem, placed x = true → x.group.isSome = true :=
        fun x hx => hg x (List.mem_cons_of_mem _ hx)
      have hp1 := two_pow_pos' m
      have hp2 := two_pow_pos' (max falign s.alignment)
      have hal := peAlign_ok (falign := falign) (i := i) (st := st) (s := s) hm hsane.1 (by omega)
      simp only [List.cons_append, peAssign, List.length_cons, List.drop_succ_cons]
      generalize hst1 : peAlign falign ((1 : W) <<< m) i st s = st1 at hal ⊢
      have f1 := hal.fo
      have f3 := hal.hi
      have hl' : ∀ x ∈ ss.getLast?, x.lname ≠ a.lname := by
        intro x hx
        apply hl
        cases ss with
        | nil => simp at hx
        | cons t ts => rw [List.getLast?_cons_cons]; exact hx
      have hi' : ss = [] → some s.lname ≠ some a.lname := by
        intro he
        subst he
        have := hl s (by simp)
        simpa using this
      cases hp : placed s with
      | false =>
        rw [(skip_ok (fmt := .pe) (flat := flat) (st := st1) hp).1]
        exact ih (some s.lname) st1 hs' hg' hl' hi' (by rw [f1]; omega) (by omega)
      | true =>
        have hmaxle : 2 ^ max st1.cp.alignment s.alignment ≤ 2 ^ max falign s.alignment :=
          Nat.pow_le_pow_right (by omega) (by have := hal.alg; omega)
        have hst := step_ok (fmt := .pe) (flat := flat) (st := st1) hp (by have := hal.alg; omega)
          hsane.1 hsane.2 (by rw [f1]; omega)
        have hmx : (calcOffset .pe flat st1 s).2.maxOffset = s.maxOffset := by
          show (decl _).maxOffset = (decl _).maxOffset; rw [hst.dec]
        have hfs : fileSize .pe (calcOffset .pe flat st1 s).2 ≤ s.maxOffset.toNat := by
          unfold fileSize; rw [hmx]; split <;> omega
        have hlc : (calcOffset .pe flat st1 s).2.startLoc.toNat ≤ s.maxOffset.toNat := by
          rw [hst.loc]; exact Nat.le_trans resetLoc_le hsane.2
        have hfo := hst.fo
        have hhi := hst.hi
        rw [f1] at hhi
        have hrva : (calcOffset .pe flat st1 s).1.cp.rva.toNat
            = st1.cp.rva.toNat + (s.maxOffset.toNat - (calcOffset .pe flat st1 s).2.startLoc.toNat) := by
          rw [hst.rva rfl, add_toNat (by rw [sub_toNat hlc]; omega), sub_toNat hlc]
        exact ih (some s.lname) _ hs' hg' hl' hi' (by omega) (by omega)
  exact gen pre none (initSt 0) hs hg hpre (fun _ => by simp) (by show 0 + _ ≤ _; omega)
    (by show 0 + _ < _; omega)

def pseg (name : String) (ty : SegType) (al : Nat) (size : W) (idx : Nat) : Seg :=
  ⟨name.toList, ty, false, some 0, al, 0, size, 0, 0, 0, idx⟩

/-- Non-vacuity: headers, two code segments, data. -/
def peDemo : List Seg :=
  [pseg ".hdr$1" .hdr 2 0x80 0, pseg ".text" .code 4 5 1, pseg ".text$x" .code 4 7 1, pseg ".data" .data 4 3 3]

example : (peAssign .pe (some 0) 9 0x1000 none (initSt 0) peDemo).2.map
      (fun s => (s.fileOffset, s.startOffset))
    = [(0, 0), (0x200, 0x1000), (0x210, 0x1010), (0x400, 0x2000)] ∧
    peBudget 9 12 peDemo < 2 ^ 32 := by decide +kernel

/-- **C23 (section table).**  For a list of non-empty segments sorted into sections, behind the header
segments, the section table has exactly one entry per section, with the name, address, file position of
its first segment, the virtual size up to the end of its last segment, and the rounded sum of the sizes
of its initialised segments as raw size. -/
theorem C23_section_table (rps : W) (hdrs : List Seg) (hh : ∀ s ∈ hdrs, s.segtype = .hdr)
    (sec : Seg × List Seg) (secs : List (Seg × List Seg)) (hs : Sections (sec :: secs)) :
    fillTable rps [] emptyHdr none (hdrs ++ (sec :: secs).flatMap (fun p => p.1 :: p.2)) =
      (sec :: secs).map (fun p => header rps p.1 p.2) := by
  rw [fill_hdrs rps [] emptyHdr none _ hdrs hh]
  obtain ⟨a, mem⟩ := sec
  rw [fill_sections rps secs a mem none [] hs (by simp)]
  simp

example : (fillTable 0x200 [] emptyHdr none (peAssign .pe (some 0) 9 0x1000 none (initSt 0) peDemo).2).map
      (fun h => (h.virtualAddress, h.virtualSize, h.pointerToRawData, h.sizeOfRawData))
    = [(0x1000, 0x17, 0x200, 0x200), (0x2000, 3, 0x400, 0x200)] := by decide +kernel

/-- **Finding (C23).**  SizeOfRawData is the rounded sum of the segment sizes and ignores the padding
between them: here the section's contents end at raw offset 0x208 but only 0x200 bytes are declared, so
the last 8 bytes of code are not loaded. -/
theorem C23_raw_size_too_small :
    let segs := (peAssign .pe (some 0) 9 0x1000 none (initSt 0)
      [pseg ".text" .code 4 1 1, pseg ".text$x" .code 4 0x1f8 1]).2
    (fillTable 0x200 [] emptyHdr none segs).map (fun h => (h.virtualSize, h.sizeOfRawData)) = [(0x208, 0x200)] ∧
    segs.map (fun s => s.fileOffset + s.maxOffset) = [1, 0x208] := by decide +kernel

/-- **Finding (C23).**  An empty segment at the end of a section prevents the advance to the next table
entry: the next section's data overwrites the header of the previous one and adds to its raw size. -/
theorem C23_empty_segment_merges_sections :
    (fillTable 0x200 [] emptyHdr none (peAssign .pe (some 0) 9 0x1000 none (initSt 0)
      [pseg ".text" .code 4 5 1, pseg ".text$z" .code 4 0 1, pseg ".data" .data 4 3 3]).2).map
      (fun h => (h.name, h.virtualAddress, h.sizeOfRawData)) = [(".data".toList, 0x1000, 0x200)] ∧
    (fillTable 0x200 [] emptyHdr none (peAssign .pe (some 0) 9 0x1000 none (initSt 0)
      [pseg ".text" .code 4 5 1, pseg ".data" .data 4 3 3]).2).map
      (fun h => (h.name, h.virtualAddress, h.sizeOfRawData))
      = [(".text".toList, 0, 0x200), (".data".toList, 0x1000, 0x200)] := by decide +kernel

/-- **Finding (C23).**  A segment whose alignment exceeds FileAlignment, behind another one of the same
section: file distance 0x1000-0x200 but memory distance 0x1000 — the loader maps it to the wrong address. -/
theorem C23_pe_large_alignment_mismatch :
    (peAssign .pe (some 0) 9 0x1000 none (initSt 0)
      [pseg ".hdr$1" .hdr 2 0x80 0, pseg ".text" .code 4 5 1, pseg ".text$x" .code 12 7 1]).2.map
      (fun s => (s.fileOffset, s.startOffset)) = [(0, 0), (0x200, 0x1000), (0x1000, 0x2000)] := by
  decide +kernel

/-- **Finding (C23).**  A first segment aligned more than SectionAlignment does not get its alignment. -/
theorem C23_pe_alignment_lost :
    (peAssign .pe (some 0) 9 0x1000 none (initSt 0)
      [pseg ".hdr$1" .hdr 2 0x80 0, pseg ".text" .code 13 5 1]).2.map
      (fun s => (s.alignment, s.startOffset)) = [(2, 0), (13, 0x1000)] := by decide +kernel

/-- **C23 (sorting).**  SortSegments terminates for each of its three orders; the result is a permutation of
the segment list, sorted, and segments that compare equal keep their relative order. -/
theorem C23_sort (gt : Seg → Seg → Bool) (hgt : gt = gtFile ∨ gt = gtName ∨ gt = gtSect) (l : List Seg) :
    ∃ out, sortSegments gt l = some out ∧ out.Perm l ∧ out.Pairwise (fun a b => gt a b = false) ∧
      ∀ a, out.filter (equiv gt a) = l.filter (equiv gt a) := by
  have hw : WeakOrder gt := by
    rcases hgt with rfl | rfl | rfl
    · exact gtFile_order
    · exact gtName_order
    · exact gtSect_order
  exact sort_ok hw _ l (Nat.le_refl _)

example : sortPass gtSect [pseg "b" .code 0 1 2, pseg "A" .code 0 1 2, pseg "c" .code 0 1 1]
    = (true, [pseg "A" .code 0 1 2, pseg "b" .code 0 1 2, pseg "c" .code 0 1 1]) := by decide +kernel

end Verif.Bin
