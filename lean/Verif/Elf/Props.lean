import Mathlib.Data.List.Forall2
import Mathlib.Data.List.Perm.Subperm
import Verif.Elf.File
/-! # ELF object files: C27 (symbol table), C43 (sections), C44 (relocations)

For every well-formed module, 32- or 64-bit, the independent reader of `Spec.lean` finds in the bytes written by
elf_write_module what the program says. -/
namespace Verif.Elf
open Coff (Byte le ascii u8 u16 u32 slice cstr slice_full)

theorem type_eq (s : Sec) : shType s = sectionType s := by
  simp only [shType, sectionType]; cases s.info <;> cases s.segtype <;> simp

theorem flags_eq (s : Sec) : shFlags s = sectionFlags s := by
  simp only [shFlags, sectionFlags]
  cases s.info <;> cases s.segtype <;> cases s.readonly <;> cases s.constClass <;> simp

theorem align_eq (s : Sec) : alignOf s = sectionAlign s := by
  simp only [alignOf, sectionAlign]; cases s.alignment <;> rfl

/-! ## Where the internal sections are -/

theorem hdrs_at (m : Mod) (sh rh : List (List Byte)) (z a b c : List Byte) (hs : sh.length = m.secs.length) :
    (z :: (sh ++ ([a, b, c] ++ rh)))[m.secs.length + 1]? = some a ∧
    (z :: (sh ++ ([a, b, c] ++ rh)))[m.secs.length + 2]? = some b ∧
    (z :: (sh ++ ([a, b, c] ++ rh)))[m.secs.length + 3]? = some c ∧
    (∀ i : Nat, i < m.secs.length → (z :: (sh ++ ([a, b, c] ++ rh)))[i + 1]? = sh[i]?) ∧
    (∀ k : Nat, (z :: (sh ++ ([a, b, c] ++ rh)))[m.secs.length + 4 + k]? = rh[k]?) := by
  rw [← hs]
  refine ⟨?_, ?_, ?_, ?_, ?_⟩
  · simp
  · rw [List.getElem?_cons_succ, List.getElem?_append_right (by omega)]; simp
  · rw [List.getElem?_cons_succ, List.getElem?_append_right (by omega)]; simp
  · intro i hi
    rw [List.getElem?_cons_succ, List.getElem?_append_left hi]
  · intro k
    rw [show sh.length + 4 + k = (sh.length + (3 + k)) + 1 by omega, List.getElem?_cons_succ, List.getElem?_append_right (by omega),
      List.getElem?_append_right (by simp)]
    congr 1
    simp

theorem internals_sub (m : Mod) : ∀ w ∈ internals m, w ∈ pieces m := by
  intro w hw; simp only [pieces, List.mem_append]; exact Or.inr (Or.inl hw)

/-- Name table, symbol table and string table as the reader sees them. -/
theorem internal_read (m : Mod) (hm : ModOk m) (F : List Byte) (h : writeModule m = some F) :
    eShstrndx F = m.secs.length + 1 ∧ is64 F = m.b64 ∧ eShnum F = shNum m ∧
    contents F (m.secs.length + 1) = shstrData m ∧
    contents F (m.secs.length + 2) = symData m ∧
    contents F (m.secs.length + 3) = strData m (localSt m).locals ∧
    shstrSize m < 2 ^ 32 ∧ strSize m < 2 ^ 32 ∧
    (∃ q, cstr (shstrData m) q = ascii ".shstrtab" ∧ shdrAt F (m.secs.length + 1) = ⟨q, 3, 0, 0, o1 m, shstrSize m, 0, 0, 1, 0⟩) ∧
    (∃ q, cstr (shstrData m) q = ascii ".symtab" ∧ shdrAt F (m.secs.length + 2) = ⟨q, 2, 0, 0, o2 m, nSyms m * symSize m.b64,
      m.secs.length + 3, (localSt m).index, 4, symSize m.b64⟩) ∧
    (∃ q, cstr (shstrData m) q = ascii ".strtab" ∧ shdrAt F (m.secs.length + 3) = ⟨q, 3, 0, 0, o3 m, strSize m, 0, 0, 1, 0⟩) := by
  obtain ⟨hL, hc, hF⟩ := file_eq m hm F h
  obtain ⟨-, hb, -, -, -, -, hn, hx⟩ := header_read m ((output m).hdrs.flatten ++ lay (ehSize m.b64 + shNum m * shSize m.b64) (pieces m))
  rw [← hF] at hb hn hx
  have hsn := shnum_lt m hm
  have hsmall := hm.small F h
  have hW := W_ge m.b64
  rw [Nat.mod_eq_of_lt (by omega)] at hn
  rw [Nat.mod_eq_of_lt (by simp only [shNum] at hsn; omega)] at hx
  obtain ⟨sh, rh, q1, q2, q3, e1, -, n1, n2, n3, h1, -, -, -, -, -⟩ := out_spec m hm
  obtain ⟨g1, g2, g3, -, -⟩ := hdrs_at m sh rh (List.replicate (shSize m.b64) 0) (hShstr m q1) (hSym m q2) (hStr m q3) h1
  rw [← e1] at g1 g2 g3
  have p1 := piece_read m hm F h (o1 m, shstrData m) (internals_sub m _ (by simp [internals]))
  have p2 := piece_read m hm F h (o2 m, symData m) (internals_sub m _ (by simp [internals]))
  have p3 := piece_read m hm F h (o3 m, strData m (localSt m).locals) (internals_sub m _ (by simp [internals]))
  have l1 := shstr_size m
  have l2 := symData_length m (symtab_recs m _)
  have l3 : strSize m = (strData m (localSt m).locals).length := rfl
  have r1 := shdr_read m hm F h _ _ g1
  have r2 := shdr_read m hm F h _ _ g2
  have r3 := shdr_read m hm F h _ _ g3
  have hli : (localSt m).index ≤ nSyms m := by
    have := (local_inv m).index
    rw [nSyms, symtab_count, this]; omega
  have hns : nSyms m ≤ nSyms m * symSize m.b64 := Nat.le_mul_of_pos_right _ (by simp only [symSize]; split <;> omega)
  have he : symSize m.b64 < 2 ^ 32 := by simp only [symSize]; split <;> omega
  have b1 := p1.2
  have b2 := p2.2
  have b3 := p3.2
  simp only [] at b1 b2 b3
  simp only [shNum] at hsn
  have s1 : shdrAt F (m.secs.length + 1) = ⟨q1, 3, 0, 0, o1 m, shstrSize m, 0, 0, 1, 0⟩ := by
    rw [r1, hShstr, decode_shdr]
    simp only [Nat.zero_mod]
    rw [Nat.mod_eq_of_lt (show q1 < 2 ^ 32 by omega), Nat.mod_eq_of_lt (show o1 m < W m.b64 by omega),
      Nat.mod_eq_of_lt (show shstrSize m < W m.b64 by omega), Nat.mod_eq_of_lt (show 1 < W m.b64 by omega)]
  have s2 : shdrAt F (m.secs.length + 2) = ⟨q2, 2, 0, 0, o2 m, nSyms m * symSize m.b64,
      m.secs.length + 3, (localSt m).index, 4, symSize m.b64⟩ := by
    rw [r2, hSym, decode_shdr]
    simp only [Nat.zero_mod]
    rw [Nat.mod_eq_of_lt (show q2 < 2 ^ 32 by omega), Nat.mod_eq_of_lt (show o2 m < W m.b64 by omega),
      Nat.mod_eq_of_lt (show nSyms m * symSize m.b64 < W m.b64 by omega), Nat.mod_eq_of_lt (show 4 < W m.b64 by omega),
      Nat.mod_eq_of_lt (show 1 + m.secs.length + 2 < 2 ^ 32 by omega), Nat.mod_eq_of_lt (show (localSt m).index < 2 ^ 32 by omega),
      Nat.mod_eq_of_lt (show symSize m.b64 < W m.b64 by omega), show 1 + m.secs.length + 2 = m.secs.length + 3 by omega]
  have s3 : shdrAt F (m.secs.length + 3) = ⟨q3, 3, 0, 0, o3 m, strSize m, 0, 0, 1, 0⟩ := by
    rw [r3, hStr, decode_shdr]
    simp only [Nat.zero_mod]
    rw [Nat.mod_eq_of_lt (show q3 < 2 ^ 32 by omega), Nat.mod_eq_of_lt (show o3 m < W m.b64 by omega),
      Nat.mod_eq_of_lt (show strSize m < W m.b64 by omega), Nat.mod_eq_of_lt (show 1 < W m.b64 by omega)]
  refine ⟨by rw [hx, Nat.add_comm], hb, hn, ?_, ?_, ?_, by omega, by omega, ⟨q1, n1.1, s1⟩, ⟨q2, n2.1, s2⟩, ⟨q3, n3.1, s3⟩⟩
  · rw [contents, s1]; simp only []; rw [l1]; exact p1.1
  · rw [contents, s2]; simp only []; rw [← l2]; exact p2.1
  · rw [contents, s3]; simp only []; rw [l3]; exact p3.1

theorem nameOf_eq (m : Mod) (hm : ModOk m) (F : List Byte) (h : writeModule m = some F) (i : Nat) :
    nameOf F i = cstr (shstrData m) (shdrAt F i).name := by
  obtain ⟨a, -, -, b, -⟩ := internal_read m hm F h
  rw [nameOf, a, b]

/-- For a well-formed module a file is written. -/
theorem elf_written (m : Mod) (hm : ModOk m) : ∃ F, writeModule m = some F := by
  simp only [writeModule]
  rw [if_neg]
  · exact ⟨_, rfl⟩
  · simp only [List.any_eq_true, not_exists, not_and]
    intro s hs f hf
    obtain ⟨id, h, -⟩ := hm.fixSym s hs f hf
    simp [h]

/-! ## C27: the symbol table -/

/-- **C27.** The symbol table section (the one the reader finds behind the program's sections) lists exactly: the null entry,
the source file, one entry per section, the local symbols, the externals in use and the publics, each with its full name, binding,
type, section and value. The local symbols are, without duplicates, exactly the internal symbols that are neither public nor
assembly-time variables and that some relocation refers to. sh_info separates local from global entries, sh_link names
the string table. -/
theorem C27_elf_symbols (m : Mod) (hm : ModOk m) (F : List Byte) (h : writeModule m = some F) :
    ∃ locals : List Nat,
      symbolsOf F (m.secs.length + 2) = expected m locals ∧ locals.Nodup ∧
      (∀ id, m.included id = false → (id ∈ locals ↔ (m.env id).isVar = false ∧ (m.env id).state = .internal ∧ (m.env id).isPublic = false ∧
        ∃ s ∈ m.secs, ∃ f ∈ s.fixups, f.sym = some id)) ∧
      nameOf F (m.secs.length + 2) = ascii ".symtab" ∧ (shdrAt F (m.secs.length + 2)).type = 2 ∧
      (shdrAt F (m.secs.length + 2)).link = m.secs.length + 3 ∧ nameOf F (m.secs.length + 3) = ascii ".strtab" ∧
      (shdrAt F (m.secs.length + 3)).type = 3 ∧
      (shdrAt F (m.secs.length + 2)).info = 2 + m.secs.length + locals.length ∧
      ∀ (k : Nat) (e : ESym), (symbolsOf F (m.secs.length + 2))[k]? = some e →
        (k < (shdrAt F (m.secs.length + 2)).info ↔ e.bind = 0) := by
  obtain ⟨-, hb, -, -, c2, c3, -, hst, -, ⟨q2, n2, s2⟩, ⟨q3, n3, s3⟩⟩ := internal_read m hm F h
  obtain ⟨hr, hrec⟩ := symtab_read m hm (localSt m).locals hst
  have inv := local_inv m
  have hsy : symbolsOf F (m.secs.length + 2) = expected m (localSt m).locals := by
    rw [symbolsOf, c2, s2, hb]
    simp only []
    rw [c3, symData, chunks_flatten _ (by simp only [symSize]; split <;> omega) _ hrec, hr]
  refine ⟨(localSt m).locals, hsy, inv.nodup, ?_, ?_, ?_, ?_, ?_, ?_, ?_, ?_⟩
  · intro id hinc
    constructor
    · intro hid
      obtain ⟨⟨a, b, c⟩, -, f, hf, e⟩ := inv.loc id hid
      obtain ⟨s, hs, hf⟩ := List.mem_flatMap.1 hf
      exact ⟨a, b, c, s, hs, f, hf, e⟩
    · rintro ⟨a, b, c, s, hs, f, hf, e⟩
      exact inv.have_ f (List.mem_flatMap.2 ⟨s, hs, hf⟩) id e ⟨a, b, c⟩ hinc
  · rw [nameOf_eq m hm F h, s2]; exact n2
  · rw [s2]
  · rw [s2]
  · rw [nameOf_eq m hm F h, s3]; exact n3
  · rw [s3]
  · rw [s2]; exact inv.index
  · intro k e he
    rw [hsy] at he
    rw [s2]
    simp only []
    rw [inv.index]
    have hsplit : expected m (localSt m).locals = (⟨[], 0, 0, 0, 0, 0⟩ :: fileEnt m :: (List.range m.secs.length).map secEnt ++
        (localSt m).locals.map (fun i => locEnt m (m.env i))) ++ ((m.exts.filter (fun e => usedExt (m.env e))).map (fun i => extEnt m (m.env i))
        ++ m.pubs.map (fun i => pubEnt m (m.env i))) := by simp [expected]
    rw [hsplit] at he
    have hlen : (⟨[], 0, 0, 0, 0, 0⟩ :: fileEnt m :: (List.range m.secs.length).map secEnt ++
        (localSt m).locals.map (fun i => locEnt m (m.env i))).length = 2 + m.secs.length + (localSt m).locals.length := by
      simp; omega
    by_cases hk : k < 2 + m.secs.length + (localSt m).locals.length
    · rw [List.getElem?_append_left (by rw [hlen]; exact hk)] at he
      have hmem := List.mem_of_getElem? he
      simp only [List.cons_append, List.mem_cons, List.mem_append, List.mem_map] at hmem
      have : e.bind = 0 := by
        rcases hmem with rfl | rfl | ⟨i, -, rfl⟩ | ⟨i, -, rfl⟩ <;> rfl
      simp [hk, this]
    · rw [List.getElem?_append_right (by rw [hlen]; omega)] at he
      have hmem := List.mem_of_getElem? he
      simp only [List.mem_append, List.mem_map] at hmem
      have : e.bind ≠ 0 := by
        rcases hmem with ⟨i, -, rfl⟩ | ⟨i, -, rfl⟩
        · simp only [extEnt]; split
          · simp
          · simp only []; split <;> simp
        · simp [pubEnt]
      simp [hk, this]

/-! ## C43: sections -/

theorem secOffs_le : ∀ (l : List Sec) (off i o : Nat), (secOffs off l)[i]? = some o → o ≤ secEnd off l
  | [], off, i, o, h => by simp [secOffs] at h
  | s :: r, off, 0, o, h => by
    simp only [secOffs, List.getElem?_cons_zero, Option.some.injEq] at h
    subst h
    exact le_secEnd (s :: r) off
  | s :: r, off, i + 1, o, h => by
    simp only [secOffs, List.getElem?_cons_succ] at h
    exact secOffs_le r _ i o h

/-- **C43.** The file is a relocatable ELF object of the right class and machine; section 0 is the null section and section i + 1
is the program's i-th section: its name (converted, or the ALIAS name), type, access rights, size, alignment and bytes; the
contents lie within the file. -/
theorem C43_elf_sections (m : Mod) (hm : ModOk m) (F : List Byte) (h : writeModule m = some F) :
    isElf F ∧ is64 F = m.b64 ∧ eType F = 1 ∧ eMachine F = (if m.b64 then 62 else 3) ∧
    eShnum F = 4 + m.secs.length + (m.secs.filter (fun s => !s.fixups.isEmpty)).length ∧
    shdrAt F 0 = ⟨0, 0, 0, 0, 0, 0, 0, 0, 0, 0⟩ ∧
    nameOf F (m.secs.length + 1) = ascii ".shstrtab" ∧ eShstrndx F = m.secs.length + 1 ∧ (shdrAt F (m.secs.length + 1)).type = 3 ∧
    ∀ (i : Nat) s, m.secs[i]? = some s →
      nameOf F (i + 1) = sectionName s ∧ (shdrAt F (i + 1)).type = sectionType s ∧ (shdrAt F (i + 1)).flags = sectionFlags s ∧
      (shdrAt F (i + 1)).size = s.size ∧ (shdrAt F (i + 1)).addralign = sectionAlign s ∧ (shdrAt F (i + 1)).addr = 0 ∧
      (sectionType s ≠ 8 → contents F (i + 1) = sectionData s ∧ (shdrAt F (i + 1)).offset + s.size ≤ F.length) := by
  obtain ⟨hL, hc, hF⟩ := file_eq m hm F h
  obtain ⟨k1, -, k2, k3, -, -, -, -⟩ := header_read m ((output m).hdrs.flatten ++ lay (ehSize m.b64 + shNum m * shSize m.b64) (pieces m))
  rw [← hF] at k1 k2 k3
  obtain ⟨hx, hb, hn, c1, -, -, hst, -, ⟨q1, n1, s1⟩, -, -⟩ := internal_read m hm F h
  obtain ⟨sh, rh, _, _, _, e1, -, -, -, -, h1, -, hsh, -, -, -⟩ := out_spec m hm
  have hW := W_ge m.b64
  have hsmall := hm.small F h
  have p1 := (piece_read m hm F h (o1 m, shstrData m) (internals_sub m _ (by simp [internals]))).2
  simp only [] at p1
  refine ⟨k1, hb, k2, k3, ?_, ?_, ?_, hx, ?_, ?_⟩
  · rw [hn, shNum]; omega
  · rw [shdr_read m hm F h 0 _ (by rw [e1]; rfl)]
    cases m.b64 <;> decide
  · rw [nameOf_eq m hm F h, s1]; exact n1
  · rw [s1]
  · intro i s hi
    have hlt := (List.getElem?_eq_some_iff.1 hi).1
    obtain ⟨q, o, ho, hq, hq', hd⟩ := hsh i s hi
    obtain ⟨-, -, -, g4, -⟩ := hdrs_at m sh rh (List.replicate (shSize m.b64) 0) _ _ _ h1
    have hd' := (g4 i hlt).trans hd
    rw [← e1] at hd'
    have hr := shdr_read m hm F h (i + 1) _ hd'
    have hmem := List.mem_of_getElem? hi
    have hole : o ≤ o1 m := secOffs_le _ _ _ _ ho
    have hfl : shFlags s < 2 ^ 32 := by simp only [shFlags]; repeat' split
                                        all_goals omega
    have hty : shType s < 2 ^ 32 := by simp only [shType]; repeat' split
                                       all_goals omega
    have hal : alignOf s < 2 ^ 32 := by
      simp only [alignOf]
      cases ha : s.alignment with
      | none => simp
      | some a => exact Nat.pow_lt_pow_right (by omega) (hm.aligns s hmem a ha)
    have hsz := hm.sizes s hmem
    have hr' : shdrAt F (i + 1) = ⟨q, shType s, shFlags s, 0, o, s.size, 0, 0, alignOf s, 0⟩ := by
      rw [hr, decode_shdr]
      simp only [Nat.zero_mod]
      rw [Nat.mod_eq_of_lt (show q < 2 ^ 32 by omega), Nat.mod_eq_of_lt hty, Nat.mod_eq_of_lt (show shFlags s < W m.b64 by omega),
        Nat.mod_eq_of_lt (show o < W m.b64 by omega), Nat.mod_eq_of_lt (show s.size < W m.b64 by omega),
        Nat.mod_eq_of_lt (show alignOf s < W m.b64 by omega)]
    rw [nameOf_eq m hm F h, contents, hr']
    refine ⟨by rw [← secName_eq]; exact hq, type_eq s, flags_eq s, rfl, align_eq s, rfl, ?_⟩
    intro h8
    rw [← type_eq] at h8
    have := piece_read m hm F h (o, sectionData s) (by
      simp only [pieces, List.mem_append]; exact Or.inl (full_mem _ _ i s o hi ho h8))
    simp only [sectionData_length] at this
    exact this

/-! ## C44: relocations -/

theorem take_filter_surj (p : Sec → Bool) : ∀ (l : List Sec) (k : Nat), k < (l.filter p).length →
    ∃ (i : Nat) (s : Sec), l[i]? = some s ∧ p s = true ∧ ((l.take i).filter p).length = k
  | [], k, h => by simp at h
  | x :: l, k, h => by
    cases hx : p x with
    | false =>
      rw [List.filter_cons_of_neg (by simp [hx])] at h
      obtain ⟨i, s, h1, h2, h3⟩ := take_filter_surj p l k h
      exact ⟨i + 1, s, by simpa using h1, h2, by simp [hx, h3]⟩
    | true =>
      cases k with
      | zero => exact ⟨0, x, rfl, hx, by simp⟩
      | succ k =>
        rw [List.filter_cons_of_pos hx, List.length_cons] at h
        obtain ⟨i, s, h1, h2, h3⟩ := take_filter_surj p l k (by omega)
        exact ⟨i + 1, s, by simpa using h1, h2, by simp [hx, h3]⟩

theorem take_filter_lt (p : Sec → Bool) (l : List Sec) (i : Nat) (s : Sec) (h : l[i]? = some s) (hp : p s = true) :
    ((l.take i).filter p).length < (l.filter p).length := by
  obtain ⟨hlt, hs⟩ := List.getElem?_eq_some_iff.1 h
  conv => rhs; rw [← List.take_append_drop i l, List.filter_append, List.length_append]
  have : 0 < ((l.drop i).filter p).length := by
    rw [List.drop_eq_getElem_cons hlt, hs, List.filter_cons_of_pos hp]; simp
  omega

theorem relType_eq (b : Bool) (t : FixType) : relType b t = relTypeOf b t := by
  cases b <;> cases t <;> rfl

theorem relType_lt (b : Bool) (t : FixType) (v : Nat) (h : relTypeOf b t = some v) : v < 256 := by
  cases b <;> cases t <;> simp [relTypeOf] at h <;> omega

theorem decode_rel (b : Bool) (x : Nat) (f : Fix) (hx : x < 2 ^ 32) (hx' : b = false → x < 2 ^ 24) (hl : f.locofs < 2 ^ 32)
    (v : Nat) (hv : relTypeOf b f.type = some v) :
    decodeRel b (relRec b x f) = ⟨f.locofs, x, v, if b then (2 ^ 64 - f.addbytes) % 2 ^ 64 else 0⟩ := by
  have hlt := relType_lt b f.type v hv
  cases b with
  | false =>
    have := hx' rfl
    simp only [decodeRel, relRec, relType_eq, hv, Option.getD_some, Bool.false_eq_true, if_false]
    simp only [u32_skip 4 _ 4 _ (Nat.le_refl 4), Nat.sub_self, u32_le', Coff.u32_le]
    rw [Nat.mod_eq_of_lt hl, Nat.mod_eq_of_lt (show x * 256 + v < 2 ^ 32 by omega)]
    simp only [ERel.mk.injEq, true_and, and_true]
    omega
  | true =>
    simp only [decodeRel, relRec, relType_eq, hv, Option.getD_some, if_true, List.append_assoc]
    have e : le 8 (x * 2 ^ 32 + v) = le 4 (x * 2 ^ 32 + v) ++ le 4 ((x * 2 ^ 32 + v) / 256 ^ 4) := le_split 4 4 _
    rw [u64_le, Nat.mod_eq_of_lt (show f.locofs < 2 ^ 64 by omega), u64_skip 8 _ 16 _ (by omega), u64_skip 8 _ _ _ (by omega), u64_le',
      u32_skip 8 _ 12 _ (by omega), u32_skip 8 _ 8 _ (by omega), e]
    simp only [List.append_assoc]
    rw [show 8 - 8 = 0 from rfl, Coff.u32_le, u32_skip 4 _ _ _ (by omega), show 12 - 8 - 4 = 0 from rfl, Coff.u32_le]
    simp only [ERel.mk.injEq, true_and, and_true]
    omega

/-- **C44.** Every section with fixups has exactly one relocation section, named `.rel`/`.rela` followed by the section's name and
linked to it (sh_info) and to the symbol table (sh_link); it lists the fixups in order: location, relocation type of the ABI, the
symbol table entry of the target, and (64-bit) the addend -addbytes. There are no other relocation sections. -/
theorem C44_elf_relocations (m : Mod) (hm : ModOk m) (F : List Byte) (h : writeModule m = some F) :
    (∀ (i : Nat) s, m.secs[i]? = some s → s.fixups ≠ [] → ∃ k, m.secs.length + 4 ≤ k ∧ k < eShnum F ∧
      nameOf F k = (if m.b64 then ascii ".rela" else ascii ".rel") ++ sectionName s ∧
      (shdrAt F k).type = (if m.b64 then 4 else 9) ∧
      (shdrAt F k).link = m.secs.length + 2 ∧ (shdrAt F k).info = i + 1 ∧
      List.Forall₂ (fun (f : Fix) (r : ERel) => r.offset = f.locofs ∧ some r.type = relTypeOf m.b64 f.type ∧
        (∃ id e, f.sym = some id ∧ target m f id = some e ∧ (symbolsOf F (m.secs.length + 2))[r.sym]? = some e) ∧
        r.addend = if m.b64 then (2 ^ 64 - f.addbytes) % 2 ^ 64 else 0) s.fixups (relocsOf F k)) ∧
    (∀ k, m.secs.length + 4 ≤ k → k < eShnum F → ∃ (i : Nat) (s : Sec), m.secs[i]? = some s ∧ s.fixups ≠ [] ∧ (shdrAt F k).info = i + 1) ∧
    (∀ j k, m.secs.length + 4 ≤ j → j < k → k < eShnum F → (shdrAt F j).info ≠ (shdrAt F k).info) := by
  obtain ⟨hx, hb, hn, c1, -, -, hst, -, -, -, -⟩ := internal_read m hm F h
  obtain ⟨sh, rh, _, _, _, e1, -, -, -, -, h1, -, -, r1, r2, hrh⟩ := out_spec m hm
  obtain ⟨locals, hsy, -⟩ := C27_elf_symbols m hm F h
  have hsy : symbolsOf F (m.secs.length + 2) = expected m (localSt m).locals := by
    obtain ⟨-, hb, -, -, c2, c3, -, hst, -, ⟨q2, n2, s2⟩, -⟩ := internal_read m hm F h
    obtain ⟨hr, hrec⟩ := symtab_read m hm (localSt m).locals hst
    rw [symbolsOf, c2, s2, hb]
    simp only []
    rw [c3, symData, chunks_flatten _ (by simp only [symSize]; split <;> omega) _ hrec, hr]
  have hW := W_ge m.b64
  have hsmall := hm.small F h
  have hnum : eShnum F = m.secs.length + 4 + (m.secs.filter hasFix).length := by
    rw [hn, shNum]
    have : (m.secs.filter hasFix) = m.secs.filter (fun s => !s.fixups.isEmpty) := rfl
    rw [this]; omega
  have hsn := shnum_lt m hm
  have p2 := (piece_read m hm F h (o2 m, symData m) (internals_sub m _ (by simp [internals]))).2
  have l2 := symData_length m (symtab_recs m _)
  have hns : nSyms m ≤ nSyms m * symSize m.b64 := Nat.le_mul_of_pos_right _ (by simp only [symSize]; split <;> omega)
  simp only [] at p2
  -- the header of the section's relocations
  have hdr : ∀ (i : Nat) s, m.secs[i]? = some s → s.fixups ≠ [] → ∃ q o, (relOffs m (o4 m) m.secs)[i]? = some o ∧
      cstr (shstrData m) q = relPrefix m.b64 ++ secName s ∧
      shdrAt F (m.secs.length + 4 + ((m.secs.take i).filter hasFix).length) =
        ⟨q, if m.b64 then 4 else 9, 0, 0, o, relSz m s, m.secs.length + 2, i + 1, 4, if m.b64 then 24 else 8⟩ := by
    intro i s hi hf
    obtain ⟨q, o, ho, hq, hq', hd⟩ := hrh i s hi hf
    obtain ⟨-, -, -, -, g5⟩ := hdrs_at m sh rh (List.replicate (shSize m.b64) 0) _ _ _ h1
    have hd' := (g5 _).trans hd
    rw [← e1] at hd'
    have hr := shdr_read m hm F h _ _ hd'
    have hp := (piece_read m hm F h (o, relRecs m s) (by
      simp only [pieces, List.mem_append]; exact Or.inr (Or.inr (rel_mem m _ _ i s o hi ho hf)))).2
    simp only [relRecs_length] at hp
    have hlt := (List.getElem?_eq_some_iff.1 hi).1
    simp only [shNum] at hsn
    refine ⟨q, o, ho, hq, ?_⟩
    rw [hr, decode_shdr]
    simp only [Nat.zero_mod]
    rw [Nat.mod_eq_of_lt (show q < 2 ^ 32 by omega), Nat.mod_eq_of_lt (show (if m.b64 then 4 else 9) < 2 ^ 32 by split <;> omega),
      Nat.mod_eq_of_lt (show o < W m.b64 by omega), Nat.mod_eq_of_lt (show relSz m s < W m.b64 by omega),
      Nat.mod_eq_of_lt (show 1 + m.secs.length + 1 < 2 ^ 32 by omega), Nat.mod_eq_of_lt (show i + 1 < 2 ^ 32 by omega),
      Nat.mod_eq_of_lt (show 4 < W m.b64 by omega),
      Nat.mod_eq_of_lt (show (if m.b64 then 24 else 8) < W m.b64 by split <;> omega), show 1 + m.secs.length + 1 = m.secs.length + 2 by omega]
  have inj : ∀ k, m.secs.length + 4 ≤ k → k < eShnum F → ∃ (i : Nat) (s : Sec), m.secs[i]? = some s ∧ s.fixups ≠ [] ∧
      (shdrAt F k).info = i + 1 ∧ k = m.secs.length + 4 + ((m.secs.take i).filter hasFix).length := by
    intro k hk hk'
    rw [hnum] at hk'
    obtain ⟨i, s, a, b, c⟩ := take_filter_surj hasFix m.secs (k - (m.secs.length + 4)) (by omega)
    have hf : s.fixups ≠ [] := by
      intro e; simp [hasFix, e] at b
    obtain ⟨q, o, -, -, e⟩ := hdr i s a hf
    rw [c, Nat.add_sub_cancel' hk] at e
    exact ⟨i, s, a, hf, by rw [e], by omega⟩
  refine ⟨?_, ?_, ?_⟩
  · intro i s hi hf
    obtain ⟨q, o, ho, hq, e⟩ := hdr i s hi hf
    have hp : hasFix s = true := by simp only [hasFix]; cases hc : s.fixups <;> simp_all
    have := take_filter_lt hasFix m.secs i s hi hp
    refine ⟨m.secs.length + 4 + ((m.secs.take i).filter hasFix).length, by omega, by rw [hnum]; omega, ?_, ?_, ?_, ?_, ?_⟩
    · rw [nameOf_eq m hm F h, e, ← secName_eq]; exact hq
    · rw [e]
    · rw [e]
    · rw [e]
    · have hpc := (piece_read m hm F h (o, relRecs m s) (by
        simp only [pieces, List.mem_append]; exact Or.inr (Or.inr (rel_mem m _ _ i s o hi ho hf)))).1
      simp only [relRecs_length] at hpc
      have hrels : relocsOf F (m.secs.length + 4 + ((m.secs.take i).filter hasFix).length) =
          s.fixups.map (fun f => decodeRel m.b64 (relRec m.b64 (fixIdx m (extIdx m).1 f) f)) := by
        rw [relocsOf, contents, e, hb]
        simp only []
        rw [hpc, relRecs, List.flatMap_def, chunks_flatten _ (by split <;> omega), List.map_map]
        · rfl
        · intro r hr
          obtain ⟨f, -, rfl⟩ := List.mem_map.1 hr
          exact relRec_length ..
      rw [hrels, List.forall₂_map_right_iff, List.forall₂_same]
      intro f hf'
      have hmem := List.mem_of_getElem? hi
      obtain ⟨v, hv⟩ := Option.isSome_iff_exists.1 (hm.fixType s hmem f hf')
      obtain ⟨id, en, t1, t2, t3, t4⟩ := fixIdx_spec m hm s hmem f hf'
      have hext := extIdx_count m hm
      rw [hext] at t4
      have hcnt : (symtab m (localSt m).locals).1.length = nSyms m := rfl
      have hloc : f.locofs < 2 ^ 32 := (hm.fixLoc s hmem f hf').1
      rw [decode_rel m.b64 _ f (by omega) ?_ hloc v hv]
      · exact ⟨rfl, hv.symm, ⟨id, en, t1, t2, by rw [hsy]; exact t3⟩, rfl⟩
      · intro hb0
        have := hm.nsyms hb0
        have hl : (localSt m).locals.length ≤ (m.secs.flatMap (fun s => s.fixups)).length := by
          have inv := local_inv m
          have hsub : (localSt m).locals ⊆ (m.secs.flatMap (fun s => s.fixups)).filterMap (fun f => f.sym) := by
            intro p hp
            obtain ⟨-, -, g, hg, hgs⟩ := inv.loc p hp
            exact List.mem_filterMap.2 ⟨g, hg, hgs⟩
          exact Nat.le_trans ((List.subperm_of_subset inv.nodup hsub).length_le) (List.length_filterMap_le _ _)
        have hc := symtab_count m (localSt m).locals
        have := List.length_filter_le (fun e => usedExt (m.env e)) m.exts
        omega
  · intro k hk hk'
    obtain ⟨i, s, a, b, c, -⟩ := inj k hk hk'
    exact ⟨i, s, a, b, c⟩
  · intro j k hj hjk hk he
    obtain ⟨i, s, -, -, c, d⟩ := inj j hj (by omega)
    obtain ⟨i', s', -, -, c', d'⟩ := inj k (by omega) hk
    rw [c, c'] at he
    have : i = i' := by omega
    subst this
    omega

/-! ### What the linker makes of a relocation -/

/-- The ABI's S + A and S + A - P. -/
def linked (pc : Bool) (S A P : Int) : Int := S + A - if pc then P else 0

/-- ELF32 (REL, the addend is the field itself): a near branch or call reaches the symbol, a section-relative variable the section plus
its offset, and an absolute field holds the symbol plus the assembled value. -/
theorem C44_elf32_link (S P v o : Int) :
    P + 4 + linked true S (storeFixup false .relOff32 v none) P = S ∧
    P + 2 + linked true S (storeFixup false .relOff16 v none) P = S ∧
    P + 1 + linked true S (storeFixup false .relOff8 v none) P = S ∧
    P + 4 + linked true S (storeFixup false .relOff32 v (some o)) P = S + o ∧
    linked false S (storeFixup false .off32 v none) P = S + v ∧
    linked false S (storeFixup false .off32 v (some o)) P = S + v + o := by
  simp only [linked, storeFixup, Bool.false_eq_true, if_false, if_true]
  refine ⟨?_, ?_, ?_, ?_, ?_, ?_⟩ <;> omega

/-- ELF64 (RELA, the addend is in the relocation): a rip-relative field that is followed by the end of the instruction after `n` bytes
(`addbytes`) reaches the symbol. -/
theorem C44_elf64_link (S P : Int) (n : Nat) : P + n + linked true S (-(n : Int)) P = S := by
  simp only [linked, if_true]; omega

/-- The full statement "a branch to `sym + d` reaches sym + d" is false: the field is overwritten, so that the object does not
depend on the displacement (ELF32) ... -/
theorem C44_elf32_displacement_lost (S P d : Int) (hd : d ≠ 0) :
    P + 4 + linked true S (storeFixup false .relOff32 d none) P ≠ S + d := by
  simp only [linked, storeFixup, Bool.false_eq_true, if_false, if_true]; omega

/-- ... and in ELF64 the displacement stays in the field, which a RELA relocation replaces: the relocation does not depend on it. -/
theorem C44_elf64_displacement_lost (S P d : Int) (n : Nat) (hd : d ≠ 0) : P + n + linked true S (-(n : Int)) P ≠ S + d := by
  simp only [linked, if_true]; omega

end Verif.Elf
