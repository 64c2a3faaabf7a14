import Verif.Macho.Main
import Mathlib.Data.List.Perm.Subperm
/-! # Properties C72 (sections) and C73 (symbols and relocations) of Mach-O objects -/
namespace Verif.Macho
open Coff (Byte le ascii u8 u16 u32 slice cstr u16_le u32_le slice_flatten le_length)
open Elf (u64)

/-! ## C72: header, load commands, sections -/

/-- C72: every file written is a 64-bit x86 Mach-O object whose load commands — walked by their sizes — are the segment,
the minimum version, the symbol table and its partition, and fill exactly the space the header says. -/
theorem C72_header (m : Mod) (F : List Byte) (h : writeModule m = some F) (hs : Small m F) :
    isMacho64 F ∧ cpuType F = 0x01000007 ∧ fileType F = 1 ∧ (commands F).map (·.1) = [0x19, 0x24, 2, 0xb] ∧
    commandsEnd F = 32 + sizeOfCmds F ∧ commandsEnd F = fileOff F ∧ fileOff F ≤ F.length := by
  obtain ⟨a1, a2, a3, a4, a5⟩ := header_read m F h
  obtain ⟨b1, b2, b3⟩ := bounds m F h hs
  have hl := (read m F h).len
  obtain ⟨c1, c2⟩ := commands_eq m F h hs
  refine ⟨a1, a2, a3, by rw [c1]; rfl, ?_, ?_, ?_⟩
  · rw [c2, sizeOfCmds, a5, Nat.mod_eq_of_lt (by omega)]; omega
  · rw [c2, (seg_fields m F h hs).2.1]; omega
  · rw [(seg_fields m F h hs).2.1]; omega

theorem kept_dense (m : Mod) (hd : Dense m) : kept m = m.secs := by
  rw [kept, List.filter_eq_self]; exact hd.known

theorem sumW_dense (m : Mod) (hd : Dense m) (l : List Sec) (h : ∀ s ∈ l, s ∈ m.secs) : sumW l = (l.map (·.size)).sum := by
  rw [sumW]; congr 1
  apply List.map_congr_left
  intro s hs; exact (hd.full s (h s hs)).1

theorem number_get : ∀ (l : List Sec), l.Pairwise (fun a b => a.name ≠ b.name) → ∀ (j : Nat) s, l[j]? = some s →
    numberOf l s.name = j + 1 ∧ addrOf l s.name = ((l.take j).map (·.size)).sum
  | [], _, j, s, h => by simp at h
  | x :: l, hp, 0, s, h => by simp at h; subst h; simp [numberOf, addrOf]
  | x :: l, hp, j + 1, s, h => by
    rw [List.pairwise_cons] at hp
    have hj : l[j]? = some s := by simpa using h
    have hne : x.name ≠ s.name := hp.1 s (List.mem_of_getElem? hj)
    obtain ⟨a, b⟩ := number_get l hp.2 j s hj
    simp only [numberOf, addrOf, if_neg hne, a, b, List.take_succ_cons, List.map_cons, List.sum_cons, and_self]

theorem pairwise_dense (m : Mod) (hl : Laid m) (hd : Dense m) : m.secs.Pairwise (fun a b => a.name ≠ b.name) := by
  have := hl.secNames
  rwa [List.filter_eq_self.2 hd.known] at this

theorem contents_dense (m : Mod) (hd : Dense m) (s : Sec) (hs : s ∈ m.secs) : (List.range s.written).map s.buf = contents s := by
  obtain ⟨h1, h2⟩ := hd.full s hs
  rw [contents, h1, h2]; simp

/-- C72: the sections of the file are the segments of the program in their order: each with the names and attributes of its
kind, placed one behind the other from address 0 without gap, with the assembled bytes as contents. -/
theorem C72_sections_partial (m : Mod) (hl : Laid m) (hd : Dense m) (F : List Byte) (h : writeModule m = some F) (hs : Small m F) :
    nSects F = m.secs.length ∧ ∀ (j : Nat) s, m.secs[j]? = some s →
      placeOf s.name = some ((secAt F j).sectname, (secAt F j).segname, (secAt F j).flags) ∧
      (secAt F j).addr = addrOf m.secs s.name ∧ (secAt F j).size = s.size ∧ (secAt F j).nreloc = s.fixups.length ∧
      slice F (secAt F j).offset (secAt F j).size = contents s ∧ fileOff F ≤ (secAt F j).offset ∧
      (secAt F j).offset + (secAt F j).size ≤ F.length := by
  have hk := kept_dense m hd
  refine ⟨by rw [(seg_fields m F h hs).2.2.2, ents_length, hk], ?_⟩
  intro j s hj
  have hmem := List.mem_of_getElem? hj
  rw [← hk] at hj
  obtain ⟨k, h1, h2, h3, h4, h5⟩ := sec_read m hl F h hs j s hj
  have hdr := data_read m F h j s hj (by omega)
  have hlen := (read m F h).len
  rw [contents_dense m hd s hmem] at hdr
  rw [h5]
  simp only
  rw [(seg_fields m F h hs).2.1]
  refine ⟨by rw [h1], ?_, (hd.full s hmem).1, trivial, hdr, by omega, by omega⟩
  rw [hk] at hj ⊢
  rw [(number_get _ (pairwise_dense m hl hd) j s hj).2]
  exact sumW_dense m hd _ (fun x hx => List.mem_of_mem_take hx)

theorem ents_filter : ∀ (l : List Sec) (a i : Nat), (∀ s ∈ l, known s = true) → (∀ s ∈ l, s.name = ascii "_BSS" → s.written = 0) →
    (((entries a i l).filter (fun e => e.kind.2.2 ≠ 1)).map (·.size)).sum = sumW l
  | [], _, _, _, _ => rfl
  | s :: r, a, i, h, hb => by
    have hs := h s (by simp)
    rw [known, ← kind_place] at hs
    obtain ⟨k, hk⟩ := Option.isSome_iff_exists.1 hs
    have ih := ents_filter r (a + s.written) (i + 1) (fun x hx => h x (by simp [hx])) (fun x hx => hb x (by simp [hx]))
    simp only [entries, hk, List.filter_cons]
    simp only [sumW, List.map_cons, List.sum_cons] at ih ⊢
    by_cases hz : k.2.2 = 1
    · have : s.name = ascii "_BSS" := by
        simp only [kind] at hk
        repeat' split at hk
        all_goals first | assumption | (cases hk; exact absurd hz (by decide)) | cases hk
      have hw := hb s (by simp) this
      simp only [hz, ne_eq, not_true_eq_false, decide_false, Bool.false_eq_true, if_false]
      rw [hw] at ih ⊢
      rw [Nat.zero_add]
      exact ih
    · simp only [ne_eq, hz, not_false_eq_true, decide_true, if_true, List.map_cons, List.sum_cons]
      rw [← ih]

/-- C72: the segment command covers the sections: its memory size is the sum of their sizes, and its file range holds their
contents one behind the other. -/
theorem C72_segment (m : Mod) (hd : Dense m) (F : List Byte) (h : writeModule m = some F) (hs : Small m F) :
    vmSize F = (m.secs.map (·.size)).sum ∧ slice F (fileOff F) (fileSize F) = m.secs.flatMap contents ∧
    fileOff F + fileSize F ≤ F.length := by
  have hk := kept_dense m hd
  obtain ⟨a1, a2, a3, a4⟩ := seg_fields m F h hs
  obtain ⟨b1, b2, b3⟩ := bounds m F h hs
  have hlen := (read m F h).len
  have e : dataSize m = (m.secs.map (·.size)).sum := by rw [dataSize_eq, hk]; exact sumW_dense m hd _ (fun _ h => h)
  have ef : fileSize F = dataSize m := by
    rw [a3, ents_eq, ents_filter _ _ _ (kept_known m) ?_, ← dataSize_eq, Nat.mod_eq_of_lt (by omega)]
    intro s hs hn
    rw [hk] at hs
    rw [(hd.full s hs).1]; exact hd.bss s hs hn
  refine ⟨by rw [a1, e], ?_, by omega⟩
  rw [a2, ef, (read m F h).data, secData, ents_eq, ents_data _ _ _ (kept_known m), hk, List.flatMap_def]
  congr 1
  apply List.map_congr_left
  intro s hs; exact contents_dense m hd s hs

/-- C72 (defect): a segment with any other name disappears: the file is the one of the program without it. -/
theorem C72_defect_other_segment (m : Mod) : writeModule m = writeModule { m with secs := m.secs.filter (fun s => (placeOf s.name).isSome) } := by
  have hk : ({ m with secs := m.secs.filter (fun s => (placeOf s.name).isSome) } : Mod) = { m with secs := m.secs.filter known } := rfl
  rw [hk]
  generalize hm : ({ m with secs := m.secs.filter known } : Mod) = m'
  have he : ents m' = ents m := by rw [← hm]; exact (entries_kept _ _ _).symm
  have hsy : m'.syms = m.syms := by rw [← hm]
  have hu : m'.use64 = m.use64 := by rw [← hm]
  have hc : secCount m' = secCount m := by rw [secCount_eq, secCount_eq, he]
  have hst : strings m' = strings m := by simp only [strings, hsy]
  have hsrc : ∀ e ∈ ents m, (placeOf e.src).isSome := by
    intro e hem
    have h1 : e.src ∈ (ents m).map (·.src) := List.mem_map.2 ⟨e, hem, rfl⟩
    rw [ents_eq, ents_srcs _ _ _ (kept_known m)] at h1
    obtain ⟨s, hs, hn⟩ := List.mem_map.1 h1
    rw [← hn]; exact kept_known m s hs
  have hf : ∀ e ∈ ents m, fixupsOf m' e = fixupsOf m e := by
    intro e hem
    have hp := hsrc e hem
    have hfi : (m.secs.filter known).find? (fun s => decide (s.name = e.src)) = m.secs.find? (fun s => decide (s.name = e.src)) := by
      rw [List.find?_filter]
      congr 1
      funext s
      by_cases hn : s.name = e.src
      · have : known s = true := by rw [known, hn]; exact hp
        simp [this]
      · simp [hn]
    have hs' : m'.secs = m.secs.filter known := by rw [← hm]
    unfold fixupsOf
    rw [hs', hfi]
  have hr : ∀ e f, reloc m' e f = reloc m e f := by
    intro e f
    simp only [reloc, symbolIndex, hst]
  have hrel : relocs m' = relocs m := by
    simp only [relocs, he]
    rw [List.flatMap_def, List.flatMap_def]
    refine congrArg List.flatten (List.map_congr_left ?_)
    intro e hem
    rw [hf e hem]
    apply List.map_congr_left
    intro f _
    exact hr e f
  have hrc : relocCount m' = relocCount m := by
    simp only [relocCount, he]
    congr 1
    apply List.map_congr_left
    intro e hem
    rw [hf e hem]
  have hss : ∀ (l : List Ent), (∀ e ∈ l, e ∈ ents m) → ∀ o r, section64s m' o r l = section64s m o r l := by
    intro l
    induction l with
    | nil => intro _ o r; rfl
    | cons e l ih =>
      intro hl o r
      have h1 := hf e (hl e (by simp))
      simp only [section64s, section64, h1]
      rw [ih (fun x hx => hl x (by simp [hx]))]
  have hd : dataOfs m' = dataOfs m := by simp only [dataOfs, he]
  have hds : dataSize m' = dataSize m := by simp only [dataSize, he]
  have hn : nSyms m' = nSyms m := by simp only [nSyms, nLocal, nPub, nUndef, hsy]
  have hl : nLocal m' = nLocal m := by simp only [nLocal, hsy]
  have hp : nPub m' = nPub m := by simp only [nPub, hsy]
  have hun : nUndef m' = nUndef m := by simp only [nUndef, hsy]
  have hsz : strSize m' = strSize m := by simp only [strSize, hsy]
  have hnl : nlists m' = nlists m := by
    simp only [nlists, hst]
    apply List.map_congr_left
    intro s _
    have h1 : ∀ x, sectionIdx m' x = sectionIdx m x := by intro x; unfold sectionIdx; rw [he]
    have h2 : ∀ x, ofsAdj m' x = ofsAdj m x := by intro x; simp only [ofsAdj, he]
    simp only [nlist, h1, h2]
  simp only [writeModule, hu, he, header, segCmd, symCmd, dysymCmd, strData, hss _ (fun _ h => h), hd, hds, hrel, hrc, hn, hl, hp, hun, hsz,
    hnl, hst, hc]

/-- C72 (defect): a section is as long as the number of bytes written into the segment, not as its size: uninitialised data
(`?`, in particular everything in _BSS), ORG and gaps make it too short, and with a gap the last bytes are missing. -/
theorem C72_defect_size (m : Mod) (hl : Laid m) (F : List Byte) (h : writeModule m = some F) (hs : Small m F) (s : Sec)
    (hmem : s ∈ m.secs) (hk : (placeOf s.name).isSome) : ∃ j, j < nSects F ∧
      placeOf s.name = some ((secAt F j).sectname, (secAt F j).segname, (secAt F j).flags) ∧ (secAt F j).size = s.written ∧
      (s.written < s.size → (slice F (secAt F j).offset (secAt F j).size).length < (contents s).length) := by
  have hmk : s ∈ kept m := List.mem_filter.2 ⟨hmem, hk⟩
  obtain ⟨j, hj⟩ := List.mem_iff_getElem?.1 hmk
  obtain ⟨k, h1, h2, h3, h4, h5⟩ := sec_read m hl F h hs j s hj
  have hdr := data_read m F h j s hj (by omega)
  refine ⟨j, ?_, by rw [h5, h1], by rw [h5], ?_⟩
  · rw [(seg_fields m F h hs).2.2.2, ents_length]
    exact (List.getElem?_eq_some_iff.1 hj).1
  · intro hlt
    rw [h5]
    simp only
    rw [hdr]
    simpa [contents] using hlt

/-- C72 (defect): without any of the four segments the assembler dereferences a null pointer. -/
theorem C72_defect_no_section (m : Mod) (h : ∀ s ∈ m.secs, placeOf s.name = none) : writeModule m = none := by
  have : kept m = [] := by
    rw [kept, List.filter_eq_nil_iff]
    intro s hs; rw [known, h s hs]; simp
  simp only [writeModule, ents_eq, this, entries]
  split <;> rfl

/-! ## C73: symbols and relocations -/

theorem nlists_eq (m : Mod) (ho : ∀ y ∈ listed m, y.used = true ∨ y.isPublic = true) : nlists m = (strings m).map (nlist m) := by
  rw [nlists]
  congr 1
  rw [List.filter_eq_self]
  intro s hs
  have : s.sym ∈ (strings m).map (·.sym) := List.mem_map.2 ⟨s, hs, rfl⟩
  rw [strings_eq, numbered_syms] at this
  rcases ho _ this with h | h <;> simp [h]

theorem listed_used (m : Mod) (hy : SymsOk m) : ∀ y ∈ listed m, y.used = true ∨ y.isPublic = true := by
  intro y h
  simp only [listed, List.mem_append] at h
  rcases h with (h | h) | h
  · left
    have := (List.mem_filter.1 h).2
    simp only [Bool.and_eq_true] at this
    exact this.1.2
  · right
    have := (List.mem_filter.1 h).2
    simp only [Bool.and_eq_true] at this
    exact this.2
  · left; exact (hy.ext y h).1

theorem listed_sub (m : Mod) (y : Sym) (h : y ∈ listed m) : y ∈ m.syms := by
  simp only [listed, List.mem_append] at h
  rcases h with (h | h) | h <;> exact (List.mem_filter.1 h).1

theorem entries_find : ∀ (l : List Sec), l.Pairwise (fun a b => a.name ≠ b.name) → ∀ (a i j : Nat) s (p : Ent → Bool),
    (∀ s ∈ l, known s = true) → (∀ e, p e = true ↔ s.name = e.src) → l[j]? = some s → ∃ e, (entries a i l).find? p = some e ∧ e.idx = i + j
  | [], _, _, _, j, s, _, _, _, h => by simp at h
  | x :: l, hp, a, i, j, s, p, hk, hpe, h => by
    rw [List.pairwise_cons] at hp
    have hs := hk x (by simp)
    rw [known, ← kind_place] at hs
    obtain ⟨k, hkk⟩ := Option.isSome_iff_exists.1 hs
    simp only [entries, hkk]
    cases j with
    | zero =>
      simp at h; subst h
      exact ⟨_, List.find?_cons_of_pos ((hpe _).2 rfl), rfl⟩
    | succ j =>
      have hj : l[j]? = some s := by simpa using h
      have hne : s.name ≠ x.name := (hp.1 s (List.mem_of_getElem? hj)).symm
      obtain ⟨e, h1, h2⟩ := entries_find l hp.2 (a + x.written) (i + 1) j s p (fun y hy => hk y (by simp [hy])) hpe hj
      refine ⟨e, ?_, by omega⟩
      rw [List.find?_cons_of_neg (fun hc => hne ((hpe _).1 hc))]
      exact h1

theorem entries_take : ∀ (l : List Sec) (a i j : Nat), (∀ s ∈ l, known s = true) →
    (entries a i l).takeWhile (fun e => decide (e.idx < i + j)) = (entries a i l).take j
  | [], _, _, _, _ => by simp [entries]
  | x :: l, a, i, j, hk => by
    have hs := hk x (by simp)
    rw [known, ← kind_place] at hs
    obtain ⟨k, hkk⟩ := Option.isSome_iff_exists.1 hs
    simp only [entries, hkk]
    cases j with
    | zero => rw [List.takeWhile_cons_of_neg (by simp)]; simp
    | succ j =>
      rw [List.takeWhile_cons_of_pos (by simp), List.take_succ_cons]
      have := entries_take l (a + x.written) (i + 1) j (fun y hy => hk y (by simp [hy]))
      rw [← this]
      congr 2
      funext e
      rw [show i + 1 + j = i + (j + 1) by omega]

theorem seg_of (m : Mod) (hl : Laid m) (hd : Dense m) (s : Sec) (hs : s ∈ m.secs) :
    sectionIdx m (some s.name) = numberOf m.secs s.name ∧ ofsAdj m (numberOf m.secs s.name) = addrOf m.secs s.name ∧
    numberOf m.secs s.name ≤ (ents m).length := by
  obtain ⟨j, hj⟩ := List.mem_iff_getElem?.1 hs
  have hp := pairwise_dense m hl hd
  have hk := kept_dense m hd
  obtain ⟨n1, n2⟩ := number_get _ hp j s hj
  have hkn : ∀ s ∈ m.secs, known s = true := hd.known
  obtain ⟨e, h1, h2⟩ := entries_find m.secs hp 0 1 j s (fun e => decide (s.name = e.src)) hkn (by intro e; exact decide_eq_true_iff) hj
  refine ⟨?_, ?_, ?_⟩
  · simp only [sectionIdx, ents, h1, h2, n1]; omega
  · rw [n1, n2, ofsAdj, ents, show j + 1 = 1 + j by omega, entries_take _ _ _ _ hkn]
    have := ents_size_take m j
    rw [ents, hk] at this
    rw [this]
    exact sumW_dense m hd _ (fun x hx => List.mem_of_mem_take hx)
  · rw [n1, ents_length, hk]
    exact (List.getElem?_eq_some_iff.1 hj).1

theorem addrOf_le (m : Mod) (hl : Laid m) (hd : Dense m) (s : Sec) (hs : s ∈ m.secs) : addrOf m.secs s.name ≤ dataSize m := by
  obtain ⟨j, hj⟩ := List.mem_iff_getElem?.1 hs
  rw [(number_get _ (pairwise_dense m hl hd) j s hj).2]
  have := take_sum_le (·.size) m.secs j s hj
  have e : dataSize m = (m.secs.map (·.size)).sum := by rw [dataSize_eq, kept_dense m hd]; exact sumW_dense m hd _ (fun _ h => h)
  omega

/-- At most four sections. -/
theorem ents_le (m : Mod) (hl : Laid m) : (ents m).length ≤ 4 := by
  rw [ents_length]
  have hn : ((kept m).map (·.name)).Nodup := by
    rw [List.Nodup, List.pairwise_map]; exact hl.secNames
  have hsub : (kept m).map (·.name) ⊆ [ascii "_BSS", ascii "CONST", ascii "_TEXT", ascii "_DATA"] := by
    intro n h
    obtain ⟨s, hs, rfl⟩ := List.mem_map.1 h
    have := kept_known m s hs
    rw [known_iff, decide_eq_true_iff] at this
    simpa using this
  have := (hn.subperm hsub).length_le
  simpa using this

theorem decode_nlist (m : Mod) (hl : Laid m) (hd : Dense m) (hy : SymsOk m) (F : List Byte) (h : writeModule m = some F) (hs : Small m F)
    (k : Nat) (y : Sym) (hk : (listed m)[k]? = some y) (i : Nat) :
    decodeSym (strData m) (nlist m ⟨y, i, 1 + lenSum ((listed m).take k)⟩) = entryOf m y := by
  obtain ⟨b1, b2, b3⟩ := bounds m F h hs
  have hmem : y ∈ listed m := List.mem_of_getElem? hk
  have hname := string_at m (fun y hy => hl.names y (listed_sub m y hy)) k y hk
  have ho : 1 + lenSum ((listed m).take k) < 2 ^ 32 := by
    have h1 := take_sum_le (fun y : Sym => y.name.length + 1) (listed m) k y hk
    have h2 := strSize_eq m
    rw [strData_eq, List.length_cons, lenSum_flat] at h2
    simp only [lenSum] at h2 ⊢
    omega
  have hw : (if y.weak then 0x80 else 0) % 65536 = if y.weak then 0x80 else 0 := by split <;> rfl
  simp only [nlist, entryOf]
  by_cases he : y.state = .external
  · have hext : y ∈ externals m := by
      simp only [externals, List.mem_filter]
      have hr : real y = true := by
        simp only [listed, locals, publics, externals, List.mem_append, List.mem_filter, Bool.and_eq_true] at hmem
        rcases hmem with (hh | hh) | hh
        · exact hh.2.1.1.1.1
        · exact hh.2.1
        · exact hh.2.1
      exact ⟨listed_sub m y hmem, by simp [hr, he]⟩
    have hts := (hy.ext y hext).2.2
    obtain ⟨q1, q2, q3, q4, q5⟩ := nlist_fields (1 + lenSum ((listed m).take k)) 1 0 (if y.weak then 0x80 else 0) y.totalSize
    simp only [he, if_true, decodeSym, List.append_assoc, q1, q2, q3, q4, q5]
    rw [Nat.mod_eq_of_lt ho, hname, hw, Nat.mod_eq_of_lt (show y.totalSize < 2 ^ 64 by omega)]
  · have hdef : y ∈ locals m ++ publics m := by
      simp only [listed, List.mem_append] at hmem ⊢
      rcases hmem with hh | hh
      · exact hh
      · exfalso
        have := (List.mem_filter.1 hh).2
        simp only [Bool.and_eq_true, decide_eq_true_eq] at this
        exact he this.2
    obtain ⟨hof, s, hsm, hseg⟩ := hy.defd y hdef
    obtain ⟨g1, g2, g3⟩ := seg_of m hl hd s hsm
    have h4 := ents_le m hl
    have ha := addrOf_le m hl hd s hsm
    simp only [he, if_false, hseg, Option.getD_some, g1, g2]
    obtain ⟨q1, q2, q3, q4, q5⟩ := nlist_fields (1 + lenSum ((listed m).take k)) (if y.isPublic then 0xf else 0xe) (numberOf m.secs s.name)
      (if y.weak then 0x80 else 0) (y.offset + addrOf m.secs s.name)
    simp only [decodeSym, List.append_assoc, q1, q2, q3, q4, q5]
    rw [Nat.mod_eq_of_lt ho, hname, hw, Nat.mod_eq_of_lt (show numberOf m.secs s.name < 256 by omega),
      Nat.mod_eq_of_lt (show y.offset + addrOf m.secs s.name < 2 ^ 64 by omega)]
    congr 1
    · split <;> rfl
    · omega

/-- C73: the symbol table is exactly the list of used local symbols, publics and externals, in this order, each with its
name, kind, section number and address; the partition says where each group starts; tables fill the file to its end. -/
theorem C73_symbols_partial (m : Mod) (hl : Laid m) (hd : Dense m) (hy : SymsOk m) (F : List Byte) (h : writeModule m = some F) (hs : Small m F) :
    symbols F = (listed m).map (entryOf m) ∧
    partition F = ((0, (locals m).length), ((locals m).length, (publics m).length),
      ((locals m).length + (publics m).length, (externals m).length)) ∧
    symOff F + 16 * symCount F = strOff F ∧ strOff F + strLen F = F.length := by
  obtain ⟨a1, a2, a3, a4⟩ := sym_fields m F h hs
  have R := read m F h
  have hn := nlists_eq m (listed_used m hy)
  have hnl : (nlists m).length = nSyms m := by rw [hn, List.length_map, strings_eq, numbered_length, nSyms_eq]
  refine ⟨?_, dysym_fields m F h hs, by omega, ?_⟩
  · have htab : slice F (strOff F) (strLen F) = strData m := by
      have := R.strs
      rw [hnl] at this
      rw [slice, a3, a4, this, strSize_eq, List.take_length]
    rw [symbols, htab, a1, a2]
    apply List.ext_getElem?
    intro k
    rw [List.getElem?_map, List.getElem?_map]
    by_cases hk : k < nSyms m
    · have hk' : k < (listed m).length := by rw [← nSyms_eq]; exact hk
      rw [List.getElem?_range hk, List.getElem?_eq_getElem hk']
      simp only [Option.map_some]
      congr 1
      have hg := numbered_get (listed m) 1 1 k _ (List.getElem?_eq_getElem hk')
      have hx : (nlists m)[k]? = some (nlist m ⟨(listed m)[k], 1 + k, 1 + lenSum ((listed m).take k)⟩) := by
        rw [hn, strings_eq, List.getElem?_map, hg]; rfl
      obtain ⟨hlt, hx⟩ := List.getElem?_eq_some_iff.1 hx
      have hsf := slice_flatten 16 _ (nlists_recs m) k hlt
      rw [hx] at hsf
      rw [← slice_slice F _ (16 * (nlists m).length) (16 * k) 16 (by omega), R.syms, hsf]
      exact decode_nlist m hl hd hy F h hs k _ (List.getElem?_eq_getElem hk') _
    · rw [List.getElem?_eq_none (by simpa using hk), List.getElem?_eq_none (by rw [← nSyms_eq]; omega)]
      rfl
  · have := R.len
    have := strSize_eq m
    omega

/-- C73: a relocation for a field of 4 bytes at the end of its instruction is complete: its address, program-counter
relative, 4 bytes long, for the symbol table entry with the name of the target; branch instructions are marked as such. -/
theorem C73_relocs_partial (m : Mod) (hl : Laid m) (hd : Dense m) (hy : SymsOk m) (F : List Byte) (h : writeModule m = some F) (hs : Small m F)
    (j : Nat) (s : Sec) (hj : m.secs[j]? = some s) : (relocsAt F j).length = s.fixups.length ∧
    ∀ (k : Nat) f, s.fixups[k]? = some f → FixOk m f → ∃ num, (relocsAt F j)[k]? = some ⟨f.locofs, num, 1, 2, 1,
        if f.option = .explicit ∨ f.option = .call ∨ f.option = .jxx then 2 else 1⟩ ∧ ((symbols F)[num]?).map (·.name) = f.sym := by
  have hk := kept_dense m hd
  have hmem := List.mem_of_getElem? hj
  rw [← hk] at hj
  obtain ⟨e, he, hr⟩ := rel_read m hl F h hs j s hj
  refine ⟨by rw [hr, List.length_map], ?_⟩
  intro k f hf hok
  have hfm := List.mem_of_getElem? hf
  obtain ⟨y, hym, hyn⟩ := hok.sym
  obtain ⟨i, hi⟩ := List.mem_iff_getElem?.1 hym
  have hidx := symbolIndex_get m hy.nodup i y hi
  have hjl : j < (ents m).length := by rw [ents_length]; exact (List.getElem?_eq_some_iff.1 hj).1
  have h4 := ents_le m hl
  have hil : i < (listed m).length := (List.getElem?_eq_some_iff.1 hi).1
  have h24 := hs.2
  refine ⟨i, ?_, ?_⟩
  · rw [hr, List.getElem?_map, hf, Option.map_some, decode_reloc m e f (hl.fixLoc s hmem f hfm) (by omega), hyn]
    simp only [hidx]
    rw [show (i + 1 + (2 ^ 24 - 1)) % 2 ^ 24 = i by omega]
    have hlen : lengthOf f.addbytes = 2 := by rw [hok.last]; rfl
    have hty : machoType f = if f.option = .explicit ∨ f.option = .call ∨ f.option = .jxx then 2 else 1 := by
      simp only [machoType, hok.rel, hok.last, true_and]
      cases f.option <;> simp
    rw [hlen, hty]
  · rw [(C73_symbols_partial m hl hd hy F h hs).1, List.getElem?_map, hi, hyn]
    rfl

/-! ### Defects -/

/-- The relocation of any fixup. -/
theorem reloc_any (m : Mod) (hl : Laid m) (F : List Byte) (h : writeModule m = some F) (hs : Small m F) (s : Sec)
    (hmem : s ∈ m.secs) (hk : (placeOf s.name).isSome) (f : Fix) (hf : f ∈ s.fixups) : ∃ j e, e.idx = j + 1 ∧ j < nSects F ∧
      decodeRel (reloc m e f) ∈ relocsAt F j ∧ decodeRel (reloc m e f) = ⟨f.locofs,
        match f.sym with | some n => (symbolIndex m n + (2 ^ 24 - 1)) % 2 ^ 24 | none => j + 1, 1,
        lengthOf f.addbytes, match f.sym with | some _ => 1 | none => 0, machoType f⟩ := by
  have hmk : s ∈ kept m := List.mem_filter.2 ⟨hmem, hk⟩
  obtain ⟨j, hj⟩ := List.mem_iff_getElem?.1 hmk
  obtain ⟨e, he, hr⟩ := rel_read m hl F h hs j s hj
  have hjl : j < (ents m).length := by rw [ents_length]; exact (List.getElem?_eq_some_iff.1 hj).1
  have h4 := ents_le m hl
  refine ⟨j, e, he, by rw [(seg_fields m F h hs).2.2.2]; exact hjl, ?_, ?_⟩
  · rw [hr]; exact List.mem_map.2 ⟨f, hf, rfl⟩
  · rw [decode_reloc m e f (hl.fixLoc s hmem f hf) (by omega), he]
    cases f.sym <;> rfl

/-- C73 (defect): all relocations are program-counter relative, also those for absolute addresses such as `dq label`, for
which the length is one byte (`addbytes` is 0) and the type is that of a displacement. -/
theorem C73_defect_absolute (m : Mod) (hl : Laid m) (F : List Byte) (h : writeModule m = some F) (hs : Small m F) (s : Sec)
    (hmem : s ∈ m.secs) (hk : (placeOf s.name).isSome) (f : Fix) (hf : f ∈ s.fixups) (ht : f.type = .other) (ha : f.addbytes = 0) :
    ∃ j, j < nSects F ∧ ∃ r ∈ relocsAt F j, r.addr = f.locofs ∧ r.pcrel = 1 ∧ r.length = 0 ∧ r.type = 1 := by
  obtain ⟨j, e, _, hj, hm, hd⟩ := reloc_any m hl F h hs s hmem hk f hf
  refine ⟨j, hj, _, hm, ?_⟩
  rw [hd]
  refine ⟨rfl, rfl, by rw [ha]; rfl, ?_⟩
  simp [machoType, ht]

/-- C73 (defect): when an immediate follows the displacement, the relocation's length is derived from the distance to the end
of the instruction: 8 bytes for a 4-byte immediate, 1 byte otherwise; never the 4 bytes of the field. -/
theorem C73_defect_immediate (m : Mod) (hl : Laid m) (F : List Byte) (h : writeModule m = some F) (hs : Small m F) (s : Sec)
    (hmem : s ∈ m.secs) (hk : (placeOf s.name).isSome) (f : Fix) (hf : f ∈ s.fixups) (ha : 4 < f.addbytes) :
    ∃ j, j < nSects F ∧ ∃ r ∈ relocsAt F j, r.addr = f.locofs ∧ r.length = if f.addbytes = 8 then 3 else 0 := by
  obtain ⟨j, e, _, hj, hm, hd⟩ := reloc_any m hl F h hs s hmem hk f hf
  refine ⟨j, hj, _, hm, ?_⟩
  rw [hd]
  refine ⟨rfl, ?_⟩
  show lengthOf f.addbytes = _
  rw [lengthOf, if_neg (show ¬ f.addbytes = 4 by omega), if_neg (show ¬ f.addbytes = 2 by omega)]

/-- C73 (defect): a fixup for a symbol that is not in the symbol table refers to the non-existing entry 0FFFFFFh. -/
theorem C73_defect_missing (m : Mod) (hl : Laid m) (F : List Byte) (h : writeModule m = some F) (hs : Small m F) (s : Sec)
    (hmem : s ∈ m.secs) (hk : (placeOf s.name).isSome) (f : Fix) (hf : f ∈ s.fixups) (n : List Byte) (hn : f.sym = some n)
    (hno : n ∉ (listed m).map (·.name)) :
    ∃ j, j < nSects F ∧ ∃ r ∈ relocsAt F j, r.addr = f.locofs ∧ r.ext = 1 ∧ r.num = 0xFFFFFF ∧ symCount F ≤ r.num := by
  obtain ⟨j, e, _, hj, hm, hd⟩ := reloc_any m hl F h hs s hmem hk f hf
  refine ⟨j, hj, _, hm, ?_⟩
  rw [hd, hn]
  have h0 : (symbolIndex m n + (2 ^ 24 - 1)) % 2 ^ 24 = 0xFFFFFF := by rw [symbolIndex_none m n hno]
  refine ⟨rfl, rfl, h0, ?_⟩
  show _ ≤ (symbolIndex m n + (2 ^ 24 - 1)) % 2 ^ 24
  have := hs.2
  rw [(sym_fields m F h hs).2.1, nSyms_eq, h0]
  omega

/-- C73 (defect): an external that is declared but not used is counted, and named in the string table, but its symbol table
entry is not written: the string table is announced 16 bytes behind its place for each, and reaches beyond the end of the file. -/
theorem C73_defect_unused_extern (m : Mod) (F : List Byte) (h : writeModule m = some F) (hs : Small m F) (y : Sym)
    (hy : y ∈ externals m) (hu : y.used = false) (hp : y.isPublic = false) :
    symCount F = (listed m).length ∧ F.length < strOff F + strLen F ∧
    strOff F + strLen F = F.length + 16 * ((listed m).filter (fun y => !y.used && !y.isPublic)).length := by
  obtain ⟨a1, a2, a3, a4⟩ := sym_fields m F h hs
  have R := (read m F h).len
  have hz := strSize_eq m
  have hsplit : (nlists m).length + ((listed m).filter (fun y => !y.used && !y.isPublic)).length = nSyms m := by
    rw [nlists, List.length_map, nSyms_eq]
    have e1 : ((strings m).filter (fun s => !(!s.sym.used && !s.sym.isPublic))).length
        = ((listed m).filter (fun y => !(!y.used && !y.isPublic))).length := by
      have : listed m = (strings m).map (·.sym) := by rw [strings_eq, numbered_syms]
      rw [this, List.filter_map, List.length_map]; rfl
    rw [e1, Nat.add_comm]
    rw [← List.countP_eq_length_filter, ← List.countP_eq_length_filter, List.length_eq_countP_add_countP (p := fun y : Sym => !y.used && !y.isPublic) (l := listed m)]
    congr 1
    congr 1
    funext y
    cases y.used <;> cases y.isPublic <;> rfl
  have hpos : 0 < ((listed m).filter (fun y => !y.used && !y.isPublic)).length := by
    apply List.length_pos_of_mem (a := y)
    rw [List.mem_filter]
    exact ⟨List.mem_append.2 (Or.inr hy), by simp [hu, hp]⟩
  refine ⟨by rw [a2, nSyms_eq], by omega, by omega⟩

end Verif.Macho
