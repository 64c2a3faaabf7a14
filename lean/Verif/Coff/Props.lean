import Verif.Coff.Layout
/-! # COFF object files: C26 (names), C41 (relocations), C42 (section headers)

For every module, the independent reader of `Spec.lean` finds in the bytes written by coff_write_module: -/
namespace Verif.Coff

/-! ## The file -/

/-- The pieces of the file. -/
def tabOf (m : Mod) : List Byte × LN := secTable (startData m) m.junk ⟨[], 4⟩ m.secs
def datOf (m : Mod) : List Byte × IdxSt := writeData m 0 (setSymbolIndices m) m.secs
def symOf (m : Mod) : List (List Byte) × LN := writeSymbols m (datOf m).2 (m.secs.map (fun s => (s, finalRelocs s))) (tabOf m).2

theorem ln0_ok : LNOk ⟨[], 4⟩ := rfl

theorem hdr_length (m : Mod) (a b : Nat) : (fileHeader m a b).length = 20 := by simp [fileHeader]

theorem file_eq (m : Mod) : (writeModule m).1 = fileHeader m (startData m + (datOf m).1.length) (symOf m).1.length ++
    ((tabOf m).1 ++ ((datOf m).1 ++ ((symOf m).1.flatten ++ strTable (symOf m).2))) := by
  simp only [writeModule, tabOf, datOf, symOf, List.append_assoc]

theorem st_eq (m : Mod) : (writeModule m).2 = (datOf m).2 := rfl

theorem tab_spec (m : Mod) (hm : ModOk m) : (tabOf m).1.length = 40 * m.secs.length ∧ Ext ⟨[], 4⟩ (tabOf m).2 ∧
    ∀ i s, m.secs[i]? = some s → ∃ lni sti, LNOk lni ∧ sti.length = 8 ∧ Ext (secNameField lni s.name sti).2 (tabOf m).2 ∧
      slice (tabOf m).1 (40 * i) 40 = secHeader (offs (startData m) m.secs i) (secNameField lni s.name sti).1 s :=
  secTable_spec m.secs (startData m) m.junk ⟨[], 4⟩ ln0_ok hm.junk

theorem dat_spec (m : Mod) (hm : ModOk m) : Inv m (datOf m).2 ∧ (∃ r, (datOf m).2.pubs = (setSymbolIndices m).pubs ++ r) ∧
    ∀ i s, m.secs[i]? = some s → ∃ sti oi a c, Inv m sti ∧ startData m + oi = offs (startData m + 0) m.secs i ∧ 0 + a.length = oi ∧
      (datOf m).1 = a ++ ((secData m oi sti s).1 ++ c) ∧ ∃ r, (datOf m).2.pubs = (secData m oi sti s).2.pubs ++ r :=
  writeData_spec m hm (startData m) (by simp only [startData]; omega)
  (by simp only [startData]; omega) m.secs 0 (setSymbolIndices m) (fun _ h => h) (inv_init m hm)

theorem tab_length (m : Mod) (hm : ModOk m) : (tabOf m).1.length = 40 * m.secs.length := (tab_spec m hm).1

theorem sym_ext (m : Mod) (hm : ModOk m) : Ext (tabOf m).2 (symOf m).2 :=
  writeSymbols_ext m _ _ _ (tab_spec m hm).2.1.2.1

theorem rec_size (m : Mod) (hm : ModOk m) : ∀ r ∈ (symOf m).1, r.length = 18 := by
  have hseg := writeSymbols_seg m
  intro r hr
  simp only [symOf, writeSymbols, List.mem_append] at hr
  have sec : ∀ (l : List (Sec × Nat)) ln i r, r ∈ (secSyms m.opt ln i l).1 → r.length = 18 := by
    intro l
    induction l with
    | nil => intro ln i r h; simp [secSyms] at h
    | cons x l ih =>
      intro ln i r h
      simp only [secSyms, List.mem_cons, List.mem_append, List.cons_append] at h
      rcases h with h | h | h
      · subst h; exact symRec_length ..
      · split at h
        · rcases List.mem_singleton.1 h with rfl; exact secAux_length ..
        · simp at h
      · exact ih _ _ r h
  have ext : ∀ (l : List Nat) ln r, r ∈ (extSyms m (datOf m).2.ext ln l).1 → r.length = 18 := by
    intro l
    induction l with
    | nil => intro ln r h; simp [extSyms] at h
    | cons x l ih =>
      intro ln r h
      simp only [extSyms] at h
      split at h
      · exact ih _ r h
      · simp only [List.mem_cons, List.mem_append, List.cons_append] at h
        rcases h with h | h | h
        · subst h; exact symRec_length ..
        · split at h
          · rcases List.mem_singleton.1 h with rfl; exact weakAux_length ..
          · simp at h
        · exact ih _ r h
  have pub : ∀ (l : List Nat) ln r, r ∈ (pubSyms m ln l).1 → r.length = 18 := by
    intro l
    induction l with
    | nil => intro ln r h; simp [pubSyms] at h
    | cons x l ih =>
      intro ln r h
      simp only [pubSyms, List.mem_cons] at h
      rcases h with h | h
      · subst h; exact symRec_length ..
      · exact ih _ r h
  have ali : ∀ (l : List (Nat × Option Nat)) ln r, r ∈ (aliasSyms m (datOf m).2.ext ln l).1 → r.length = 18 := by
    intro l
    induction l with
    | nil => intro ln r h; simp [aliasSyms] at h
    | cons x l ih =>
      intro ln r h
      simp only [aliasSyms, List.mem_cons] at h
      rcases h with h | h | h
      · subst h; exact symRec_length ..
      · subst h; exact weakAux_length ..
      · exact ih _ r h
  rcases hr with ((((hr | hr) | hr) | hr) | hr) | hr
  · split at hr
    · rcases List.mem_singleton.1 hr with rfl; exact symRec_length ..
    · simp at hr
  · split at hr
    · simp at hr
    · rcases List.mem_cons.1 hr with h | h
      · subst h; exact symRec_length ..
      · exact fileAux_size _ _ r h
  · exact sec _ _ _ r hr
  · exact ext _ _ r hr
  · exact pub _ _ r hr
  · exact ali _ _ r hr

theorem file_length (m : Mod) (hm : ModOk m) : (writeModule m).1.length
    = startData m + (datOf m).1.length + 18 * (symOf m).1.length + (symOf m).2.size := by
  rw [file_eq]
  simp only [List.length_append, hdr_length, tab_length m hm, length_flatten 18 _ (rec_size m hm),
    strTable_length (sym_ext m hm).2.1, startData]
  omega

theorem seg_spec (m : Mod) (hm : ModOk m) : Seg (strTable (symOf m).2) (symOf m).1 (expected m (datOf m).2.pubs) := by
  refine writeSymbols_seg m (datOf m).2 _ (tabOf m).2 (symOf m).2 (tab_spec m hm).2.1.2.1 (Ext.refl (sym_ext m hm).2.1) ?_ hm.names
    ?_ ?_ ?_ ?_ hm.file
  · have := hm.small
    rw [file_length m hm] at this
    omega
  · intro x hx
    obtain ⟨s, hs, rfl⟩ := List.mem_map.1 hx
    exact (hm.secs s hs).name
  · simp [List.map_map, Function.comp_def]
  · intro ho x hx
    obtain ⟨s, hs, rfl⟩ := List.mem_map.1 hx
    exact hm.noAuxComdat ho s hs
  · have := hm.nsecs
    simp only [List.length_map]
    omega

/-! ## Header fields -/

theorem hdr_fields (m : Mod) (a b : Nat) (r : List Byte) :
    u16 (fileHeader m a b ++ r) 2 = m.secs.length % 65536 ∧
    u32 (fileHeader m a b ++ r) 8 = (if b ≠ 0 then a else 0) % 2 ^ 32 ∧
    u32 (fileHeader m a b ++ r) 12 = b % 2 ^ 32 := by
  simp only [fileHeader]
  generalize (if b ≠ 0 then a else 0) = x
  generalize (if m.amd64 then 0x8664 else 0x14c) = y
  refine ⟨?_, ?_, ?_⟩ <;> simp [u32, u16, u8, le] <;> omega

theorem nSections_eq (m : Mod) (hm : ModOk m) : nSections (writeModule m).1 = m.secs.length := by
  rw [file_eq, nSections, (hdr_fields m _ _ _).1]
  have := hm.nsecs
  exact Nat.mod_eq_of_lt (by omega)

theorem nSyms_eq (m : Mod) (hm : ModOk m) : nSyms (writeModule m).1 = (symOf m).1.length := by
  have := hm.small
  rw [file_length m hm] at this
  rw [file_eq, nSyms, (hdr_fields m _ _ _).2.2]
  exact Nat.mod_eq_of_lt (by omega)

theorem symPtr_eq (m : Mod) (hm : ModOk m) (h : (symOf m).1 ≠ []) : symPtr (writeModule m).1 = startData m + (datOf m).1.length := by
  have := hm.small
  rw [file_length m hm] at this
  rw [file_eq, symPtr, (hdr_fields m _ _ _).2.1, if_pos (by simpa using h)]
  exact Nat.mod_eq_of_lt (by omega)

theorem pre_length (m : Mod) (hm : ModOk m) (a b : Nat) :
    (fileHeader m a b ++ ((tabOf m).1 ++ (datOf m).1)).length = startData m + (datOf m).1.length := by
  simp only [List.length_append, hdr_length, tab_length m hm, startData]; omega

theorem file_eq2 (m : Mod) : (writeModule m).1 = (fileHeader m (startData m + (datOf m).1.length) (symOf m).1.length ++
    ((tabOf m).1 ++ (datOf m).1)) ++ ((symOf m).1.flatten ++ strTable (symOf m).2) := by
  rw [file_eq]; simp only [List.append_assoc]

theorem strTab_eq (m : Mod) (hm : ModOk m) (h : (symOf m).1 ≠ []) : strTab (writeModule m).1 = strTable (symOf m).2 := by
  rw [strTab, symPtr_eq m hm h, nSyms_eq m hm, file_eq2, ← List.drop_drop, List.drop_left' (pre_length m hm _ _),
    List.drop_left' (length_flatten 18 _ (rec_size m hm))]

theorem records_eq (m : Mod) (hm : ModOk m) : records (writeModule m).1 = (symOf m).1 := by
  rw [records, nSyms_eq m hm]
  by_cases h : (symOf m).1 = []
  · rw [h]; rfl
  · apply map_range_getElem
    intro k hk
    rw [symPtr_eq m hm h, file_eq2, ← slice_flatten 18 _ (rec_size m hm) k hk]
    rw [← pre_length m hm (startData m + (datOf m).1.length) (symOf m).1.length]
    apply slice_ctx
    rw [length_flatten 18 _ (rec_size m hm)]
    omega

theorem symbols_eq (m : Mod) (hm : ModOk m) : symbols (writeModule m).1 = number 0 (expected m (datOf m).2.pubs) := by
  rw [symbols, records_eq m hm]
  have hs := seg_spec m hm
  by_cases h : (symOf m).1 = []
  · have hl := hs.len
    rw [h] at hl ⊢
    have : expected m (datOf m).2.pubs = [] := by
      cases he : expected m (datOf m).2.pubs with
      | nil => rfl
      | cons x r => rw [he] at hl; simp only [width, List.length_nil] at hl; omega
    rw [this]; rfl
  · have := hs.walk 0 []
    rw [List.append_nil] at this
    rw [strTab_eq m hm h, this]
    simp [walk]

theorem syms_ne (m : Mod) (hm : ModOk m) (s : Sec) (hs : s ∈ m.secs) : (symOf m).1 ≠ [] := by
  intro h
  have hl := (seg_spec m hm).len
  rw [h] at hl
  simp only [expected, width_append] at hl
  have := width_secs m m.secs 0
  rw [secs_mapIdx] at this
  have : 0 < m.secs.length := List.length_pos_of_mem hs
  simp at hl
  omega

theorem header_slice (m : Mod) (hm : ModOk m) (i : Nat) (s : Sec) (hi : m.secs[i]? = some s) :
    slice (writeModule m).1 (20 + 40 * i) 40 = slice (tabOf m).1 (40 * i) 40 := by
  have hlt : i < m.secs.length := (List.getElem?_eq_some_iff.1 hi).1
  rw [file_eq, ← hdr_length m (startData m + (datOf m).1.length) (symOf m).1.length]
  apply slice_ctx
  rw [tab_length m hm]
  omega

/-- The i-th header is that of the i-th section, at its offset. -/
theorem header_eq (m : Mod) (hm : ModOk m) (i : Nat) (s : Sec) (hi : m.secs[i]? = some s) :
    ∃ lni sti, LNOk lni ∧ sti.length = 8 ∧ Ext (secNameField lni s.name sti).2 (symOf m).2 ∧
      slice (writeModule m).1 (20 + 40 * i) 40 = secHeader (offs (startData m) m.secs i) (secNameField lni s.name sti).1 s := by
  obtain ⟨lni, sti, a, b, c, d⟩ := (tab_spec m hm).2.2 i s hi
  exact ⟨lni, sti, a, b, c.trans (sym_ext m hm), (header_slice m hm i s hi).trans d⟩

theorem sym_size (m : Mod) (hm : ModOk m) : (symOf m).2.size < 2 ^ 32 := by
  have := hm.small
  rw [file_length m hm] at this
  omega

/-! ## C26 -/

/-- **C26.** Every entry of the symbol table, read from the file with its name taken from the string table where the record
says so, is the expected one: `@feat.00`, `.file`, the sections in order, the externals in use, the publics followed
by the other symbols of the module that relocations need (and private procedures), the aliases — each with its value,
section number, type, class and number of auxiliary records. Partial: -zls with COMDAT sections is excluded
(`C41_zls_comdat_counterexample`). -/
theorem C26_symbol_table_partial (m : Mod) (hm : ModOk m) :
    ∃ more, symbols (writeModule m).1 = number 0 (expected m (m.pubs ++ more)) ∧ (m.pubs ++ more).Nodup ∧
      ∀ p ∈ more, (m.env p).state = .internal ∧ (m.env p).isPublic = false ∧ m.included p = false := by
  obtain ⟨hinv, _⟩ := dat_spec m hm
  obtain ⟨r, h1, h2⟩ := hinv.more
  have hp : (datOf m).2.pubs = m.pubs ++ r := h1
  refine ⟨r, by rw [symbols_eq m hm, hp], ?_, h2⟩
  rw [← hp]; exact hinv.nodup

theorem decimal_read (v : Nat) : undec (decimal v) = v := by
  have h := Nat.ofDigitChars_ten_toDigits (n := v)
  have hd : ∀ c ∈ Nat.toDigits 10 v, c.isDigit := fun c hc => Nat.isDigit_of_mem_toDigits (by omega) (by omega) hc
  rw [Nat.ofDigitChars_eq_foldl] at h
  rw [undec, decimal, List.foldl_map]
  refine Eq.trans ?_ h
  clear h
  generalize Nat.toDigits 10 v = l at hd
  generalize 0 = z
  induction l generalizing z with
  | nil => rfl
  | cons c l ih =>
    simp only [List.foldl_cons]
    have hc := hd c (by simp)
    have hlt : c.toNat ≤ 57 := by
      simp [Char.isDigit] at hc
      exact hc.2
    have e : (BitVec.ofNat 8 c.toNat).toNat = c.toNat := by
      rw [BitVec.toNat_ofNat]; exact Nat.mod_eq_of_lt (by omega)
    rw [e]
    exact ih (fun x hx => hd x (by simp [hx])) _

theorem decimal_no_zero (v : Nat) : (0 : Byte) ∉ decimal v := by
  intro h
  simp only [decimal, List.mem_map] at h
  obtain ⟨c, hc, he⟩ := h
  have hd := Nat.isDigit_of_mem_toDigits (b := 10) (by omega) (by omega) hc
  simp [Char.isDigit] at hd
  have h1 : 48 ≤ c.toNat := hd.1
  have h2 : c.toNat ≤ 57 := hd.2
  have := congrArg BitVec.toNat he
  rw [BitVec.toNat_ofNat, Nat.mod_eq_of_lt (by omega)] at this
  simp at this
  omega

/-- **C26.** Every section header names its section (strings before 10^7, the largest offset that fits the
field; partial: a short name beginning with '/' is misread, `C26_slash_counterexample`). -/
theorem C26_section_name_partial (m : Mod) (hm : ModOk m) (i : Nat) (s : Sec) (hi : m.secs[i]? = some s)
    (hsmall : (strTab (writeModule m).1).length ≤ 10000000) : secName (writeModule m).1 i = s.name := by
  have hmem : s ∈ m.secs := List.mem_of_getElem? hi
  have ok := hm.secs s hmem
  obtain ⟨lni, sti, h1, h2, h3, h4⟩ := header_eq m hm i s hi
  have hne := syms_ne m hm s hmem
  have hn := (secNameField_spec lni s.name sti h1 h2).1
  have hf : slice (writeModule m).1 (20 + 40 * i) 8 = (secNameField lni s.name sti).1 := by
    rw [← (secHeader_fields (offs (startData m) m.secs i) _ s hn).1, ← h4]
    simp [slice, List.take_take]
  simp only [secName, hf]
  rw [strTab_eq m hm hne] at hsmall ⊢
  rw [strTable_length (sym_ext m hm).2.1] at hsmall
  by_cases hl : s.name.length ≤ 8
  · have e : (secNameField lni s.name sti).1 = strncpy 8 s.name := by simp [secNameField, hl]
    rw [e, strncpy_read 8 s.name hl ok.name.2, if_neg (ok.slash hl)]
  · have e : (secNameField lni s.name sti) = ((((0x2f : Byte) :: decimal (allocString lni s.name).1 ++ [(0 : Byte)]) ++
        sti.drop ((0x2f : Byte) :: decimal (allocString lni s.name).1 ++ [(0 : Byte)]).length).take 8, (allocString lni s.name).2) := by
      rw [secNameField, if_neg hl]
    rw [e] at h3
    have hlt := alloc_lt (s := s.name) h3
    have hdl : (decimal (allocString lni s.name).1).length ≤ 7 := by
      rw [decimal, List.length_map]
      exact (Nat.length_toDigits_le_iff (b := 10) (by omega) (by omega)).2 (by omega)
    have hr : (((((0x2f : Byte) :: decimal (allocString lni s.name).1 ++ [(0 : Byte)]) ++
        sti.drop ((0x2f : Byte) :: decimal (allocString lni s.name).1 ++ [(0 : Byte)]).length).take 8).takeWhile (· ≠ 0))
        = (0x2f : Byte) :: decimal (allocString lni s.name).1 := by
      have hz : (0 : Byte) ∉ (0x2f : Byte) :: decimal (allocString lni s.name).1 := by
        intro hh
        rcases List.mem_cons.1 hh with h | h
        · exact absurd h (by decide)
        · exact decimal_no_zero _ h
      rw [List.append_assoc, List.take_append, List.take_of_length_le (by simp; omega)]
      generalize hk : 8 - ((0x2f : Byte) :: decimal (allocString lni s.name).1).length = k
      cases k with
      | zero => simp only [List.take_zero, List.append_nil]; exact takeWhile_all _ hz
      | succ k =>
        rw [show ([(0 : Byte)] ++ _ : List Byte) = 0 :: _ from rfl, List.take_succ_cons]
        exact takeWhile_append_stop _ _ hz
    rw [e, hr]
    simp only [List.head?_cons, if_true, List.drop_succ_cons, List.drop_zero]
    rw [decimal_read]
    exact alloc_found h3 h1 ok.name.2

/-- **C26.** The size field of the string table is the number of bytes to the end of the file. -/
theorem C26_string_table_size (m : Mod) (hm : ModOk m) (h : nSyms (writeModule m).1 ≠ 0) :
    u32 (strTab (writeModule m).1) 0 = (strTab (writeModule m).1).length ∧
    symPtr (writeModule m).1 + 18 * nSyms (writeModule m).1 + u32 (strTab (writeModule m).1) 0 = (writeModule m).1.length := by
  have hne : (symOf m).1 ≠ [] := by
    intro e; rw [nSyms_eq m hm, e] at h; exact h rfl
  have h1 : u32 (strTable (symOf m).2) 0 = (symOf m).2.size := by
    rw [strTable, u32_le]; exact Nat.mod_eq_of_lt (sym_size m hm)
  rw [strTab_eq m hm hne, h1, strTable_length (sym_ext m hm).2.1, symPtr_eq m hm hne, nSyms_eq m hm, file_length m hm]
  exact ⟨rfl, rfl⟩

/-- **C26.** The auxiliary records behind `.file` spell the source file's name. -/
theorem C26_file_name (m : Mod) (hm : ModOk m) (ho : m.opt.noFile = false) (hz : (0 : Byte) ∉ m.file) :
    (((records (writeModule m).1).drop (if m.opt.safeseh then 2 else 1)).take
      (((records (writeModule m).1)[if m.opt.safeseh then 1 else 0]?.map (fun r => u8 r 17)).getD 0)).flatten.takeWhile (· ≠ 0) = m.file := by
  rw [records_eq m hm]
  have hax : auxCount m.file < 256 := by have := hm.file; simp only [auxCount]; split <;> omega
  have hal : m.file.length ≤ 18 * auxCount m.file := by simp only [auxCount]; split <;> omega
  have hu : ∀ ln, u8 (symRec ln (ascii ".file") 0 0xfffe 0 103 (auxCount m.file)).1 17 = auxCount m.file := by
    intro ln
    have := (tail_fields (strncpy 8 (ascii ".file")) (strncpy_length 8 _) 0 0xfffe 0 103 (auxCount m.file)).2.2.2.2
    rw [Nat.mod_eq_of_lt hax] at this
    have e : (symRec ln (ascii ".file") 0 0xfffe 0 103 (auxCount m.file)).1 = strncpy 8 (ascii ".file") ++ le 4 0 ++ le 2 0xfffe ++ le 2 0
        ++ le 1 103 ++ le 1 (auxCount m.file) := by
      simp only [symRec]; rw [if_neg (by decide)]
    rw [e]; exact this
  have key : ∀ (x : List (List Byte)) rest, ((((symRec (tabOf m).2 (ascii ".file") 0 0xfffe 0 103 (auxCount m.file)).1 ::
      fileAux (auxCount m.file) m.file ++ rest).drop 1).take (auxCount m.file)).flatten.takeWhile (· ≠ 0) = m.file := by
    intro _ rest
    simp only [List.cons_append, List.drop_succ_cons, List.drop_zero]
    rw [List.take_left' (fileAux_length _ _)]
    exact fileAux_read _ _ hal hz
  simp only [symOf, writeSymbols, ho, List.append_assoc]
  cases m.opt.safeseh with
  | true =>
    simp only [if_true, Bool.false_eq_true, if_false, List.cons_append, List.nil_append, List.drop_succ_cons, List.drop_zero]
    rw [show ∀ (a b : List Byte) (r : List (List Byte)), (a :: b :: r)[1]? = some b from fun _ _ _ => rfl]
    simp only [Option.map_some, Option.getD_some, hu]
    rw [List.take_left' (fileAux_length _ _)]
    exact fileAux_read _ _ hal hz
  | false =>
    simp only [Bool.false_eq_true, if_false, List.cons_append, List.nil_append, List.drop_succ_cons, List.drop_zero]
    rw [show ∀ (b : List Byte) (r : List (List Byte)), (b :: r)[0]? = some b from fun _ _ => rfl]
    simp only [Option.map_some, Option.getD_some, hu]
    rw [List.take_left' (fileAux_length _ _)]
    exact fileAux_read _ _ hal hz

/-! ## C42 -/

/-- The initialised contents of a section: zeros up to the first ORG, then the buffer, with the assembler-relative
displacements without symbol completed. -/
def contents (s : Sec) : List Byte := (List.range s.size).map (secByte s)

/-- Without displacements to complete these are the bytes the section was assembled to. -/
theorem contents_plain (s : Sec) (b : Nat → Byte) (h : s.buf = some b) (hf : ∀ f ∈ s.fixups, f.sym.isSome) :
    contents s = (List.range s.size).map (fun j => if j < s.startLoc then 0 else b (j - s.startLoc)) := by
  have hfin : finalBuf s = some b := by
    simp only [finalBuf, h, Option.map_some, Option.some.injEq]
    have : ∀ (l : List Fix), (∀ f ∈ l, f.sym.isSome) → l.foldl (voidFix s) b = b := by
      intro l
      induction l with
      | nil => intro _; rfl
      | cons f l ih =>
        intro hl
        have h1 := hl f (by simp)
        have hv : voidFix s b f = b := by
          rw [voidFix, if_neg]
          intro hh
          rw [Option.isNone_iff_eq_none] at hh
          rw [hh.1] at h1; cases h1
        rw [List.foldl_cons, hv]
        exact ih (fun g hg => hl g (by simp [hg]))
    exact this _ hf
  simp only [contents]
  apply List.map_congr_left
  intro j _
  simp [secByte, hfin]

/-- A section's data is in the file iff it is initialised. -/
def hasData (s : Sec) : Prop := kind s = .raw ∧ s.size ≠ 0

/-- Where section `i`'s part begins, and the file around it. -/
theorem part_eq (m : Mod) (hm : ModOk m) (i : Nat) (s : Sec) (hi : m.secs[i]? = some s) :
    ∃ sti oi a c, Inv m sti ∧ startData m + oi = offs (startData m) m.secs i ∧ a.length = startData m + oi ∧
      (writeModule m).1 = a ++ ((secData m oi sti s).1 ++ c) ∧ ∃ r, (datOf m).2.pubs = (secData m oi sti s).2.pubs ++ r := by
  obtain ⟨sti, oi, a, c, h1, h2, h3, h4, h5⟩ := (dat_spec m hm).2.2 i s hi
  refine ⟨sti, oi, fileHeader m (startData m + (datOf m).1.length) (symOf m).1.length ++ ((tabOf m).1 ++ a),
    c ++ ((symOf m).1.flatten ++ strTable (symOf m).2), h1, h2, ?_, ?_, h5⟩
  · simp only [List.length_append, hdr_length, tab_length m hm, startData]; omega
  · rw [file_eq]
    generalize startData m + (datOf m).1.length = z
    rw [h4]
    simp only [List.append_assoc]

theorem header_read (m : Mod) (hm : ModOk m) (i : Nat) (s : Sec) (hi : m.secs[i]? = some s) :
    secSize (writeModule m).1 i = rawSize s % 2 ^ 32 ∧ secRawPtr (writeModule m).1 i = rawPtr (offs (startData m) m.secs i) s % 2 ^ 32 ∧
    secRelPtr (writeModule m).1 i = relPtr (offs (startData m) m.secs i) s % 2 ^ 32 ∧
    secNRel (writeModule m).1 i = (if s.fixups.isEmpty then 0 else if numRelocs s ≤ 0xffff then numRelocs s else 0xffff) ∧
    secFlags (writeModule m).1 i = (chars s ||| (if !s.fixups.isEmpty ∧ ¬ numRelocs s ≤ 0xffff then 0x01000000 else 0)).toNat := by
  obtain ⟨lni, sti, h1, h2, h3, h4⟩ := header_eq m hm i s hi
  have hn := (secNameField_spec lni s.name sti h1 h2).1
  obtain ⟨_, f1, f2, f3, f4, f5⟩ := secHeader_fields (offs (startData m) m.secs i) _ s hn
  rw [← h4] at f1 f2 f3 f4 f5
  rw [u32_slice _ _ _ _ (by omega)] at f1 f2 f3 f5
  rw [u16_slice _ _ _ _ (by omega)] at f4
  refine ⟨f1, f2, f3, ?_, f5⟩
  rw [secNRel, f4]
  apply Nat.mod_eq_of_lt
  split
  · omega
  · split <;> omega

/-- **C42.** The header of an initialised section locates its contents in the file; a section without data has no pointer.
Partial: excludes READONLY or CONST segments that are BSS (`C42_readonly_bss_counterexample`). -/
theorem C42_section_data_partial (m : Mod) (hm : ModOk m) (i : Nat) (s : Sec) (hi : m.secs[i]? = some s) :
    (hasData s → secSize (writeModule m).1 i = s.size ∧
      slice (writeModule m).1 (secRawPtr (writeModule m).1 i) (secSize (writeModule m).1 i) = contents s) ∧
    (¬ hasData s → secRawPtr (writeModule m).1 i = 0) := by
  have hmem : s ∈ m.secs := List.mem_of_getElem? hi
  obtain ⟨r1, r2, _⟩ := header_read m hm i s hi
  obtain ⟨sti, oi, a, c, h1, h2, h3, h4, h5⟩ := part_eq m hm i s hi
  have hsp := secData_spec m hm s hmem (startData m) oi sti h1 (by simp only [startData]; omega) (by simp only [startData]; omega)
  constructor
  · rintro ⟨hk, hz⟩
    have hsl := hsp.2.2.2.1 hk hz
    have hrs : rawSize s = s.size := by rw [rawSize, if_neg (by rw [hk]; simp)]
    have hlen : s.size ≤ (secData m oi sti s).1.length := by
      have := congrArg List.length hsl
      simp [slice] at this
      omega
    have hfl := hm.small
    rw [h4] at hfl
    simp only [List.length_append] at hfl
    have e1 : secSize (writeModule m).1 i = s.size := by rw [r1, hrs]; exact Nat.mod_eq_of_lt (by omega)
    have e2 : secRawPtr (writeModule m).1 i = a.length + 0 := by
      rw [r2, rawPtr, if_pos ⟨hk, hz⟩, ← h2, h3]; exact Nat.mod_eq_of_lt (by omega)
    refine ⟨e1, ?_⟩
    rw [e1, e2]
    conv_lhs => rw [h4]
    rw [slice_ctx _ _ _ _ _ (by omega), hsl]
    rfl
  · intro hh
    have e : rawPtr (offs (startData m) m.secs i) s = 0 := if_neg hh
    rw [r2, e]

/-! ## C41 -/

theorem chars_bit24 (s : Sec) (h : ∀ a, s.alignment = some a → a < 15) : (chars s).toNat.testBit 24 = false := by
  rw [BitVec.testBit_toNat]
  have hc : (chars0 s).getLsbD 24 = false := by
    simp only [chars0]
    split
    · split <;> decide
    · rw [BitVec.getLsbD_or, BitVec.getLsbD_or]
      have h2 : (if s.comdat ≠ 0 then (0x1000 : BitVec 32) else 0).getLsbD 24 = false := by split <;> decide
      have h3 : ((if s.code then 0x60000020
       else if s.readonly then 0x40000040
       else if s.constClass then 0x40000040
       else if s.segBss || s.convBss then 0xC0000080
       else if s.stackEmpty then 0xC0000080
       else 0xC0000040 : BitVec 32)).getLsbD 24 = false := by
        repeat' split
        all_goals decide
      rw [h2, h3]
      simp only [Bool.or_false]
      cases ha : s.alignment with
      | none => rfl
      | some a =>
        have := h a ha
        show (BitVec.ofNat 32 (a + 1) <<< 20).getLsbD 24 = false
        rw [BitVec.getLsbD_shiftLeft]
        simp only [BitVec.getLsbD_ofNat]
        rw [Nat.testBit_lt_two_pow (show a + 1 < 2 ^ (24 - 20) by omega)]
        simp
  simp only [chars]
  split
  · rw [BitVec.getLsbD_or, BitVec.getLsbD_and, hc]
    simp only [Bool.false_and, Bool.false_or]
    rw [BitVec.getLsbD_shiftLeft]
    simp [BitVec.getLsbD_setWidth, BitVec.getLsbD_and]
  · exact hc

theorem relBytes_length (r : Nat × Nat × Nat) : (relBytes r).length = 10 := by simp [relBytes]

theorem relAt_bytes (r : Nat × Nat × Nat) (h1 : r.1 < 2 ^ 32) (h2 : r.2.1 < 2 ^ 32) (h3 : r.2.2 < 65536) (f : List Byte) (p : Nat)
    (h : slice f p 10 = relBytes r) : relAt f p = r := by
  have e1 : u32 (slice f p 10) 0 = u32 f p := u32_slice f p 10 0 (by omega)
  have e2 := u32_slice f p 10 4 (by omega)
  have e3 := u16_slice f p 10 8 (by omega)
  rw [relAt, ← e1, ← e2, ← e3, h]
  obtain ⟨a, b, c⟩ := r
  simp only at h1 h2 h3
  simp [relBytes, u32, u16, u8, le]
  refine ⟨?_, ?_, ?_⟩ <;> omega

theorem forall2_mem {α β : Type} {R : α → β → Prop} {l : List α} {k : List β} (h : List.Forall₂ R l k) :
    ∀ x ∈ l, ∃ y ∈ k, R x y := by
  induction h with
  | nil => intro x hx; cases hx
  | cons hab _ ih =>
    intro x hx
    rcases List.mem_cons.1 hx with h | h
    · subst h; exact ⟨_, by simp, hab⟩
    · obtain ⟨f, h1, h2⟩ := ih x h
      exact ⟨f, List.mem_cons_of_mem _ h1, h2⟩

theorem flatMap_relBytes_length (l : List (Nat × Nat × Nat)) : (l.flatMap relBytes).length = 10 * l.length := by
  induction l with
  | nil => rfl
  | cons a l ih => simp only [List.flatMap_cons, List.length_append, ih, List.length_cons, relBytes_length]; omega

theorem read_rels (F a c : List Byte) (rels : List (Nat × Nat × Nat)) (hF : F = a ++ (rels.flatMap relBytes ++ c))
    (hr : ∀ x ∈ rels, x.1 < 2 ^ 32 ∧ x.2.1 < 2 ^ 32 ∧ x.2.2 < 65536) (base : Nat) (hb : a.length = base) :
    (List.range rels.length).map (fun j => relAt F (base + 10 * j)) = rels := by
  apply map_range_getElem
  intro j hj
  obtain ⟨b1, b2, b3⟩ := hr rels[j] (List.getElem_mem hj)
  apply relAt_bytes _ b1 b2 b3
  have hsz : ∀ x ∈ rels.map relBytes, x.length = 10 := by
    intro x hx
    obtain ⟨y, _, rfl⟩ := List.mem_map.1 hx
    exact relBytes_length y
  have hj2 : j < (rels.map relBytes).length := by simpa using hj
  have := slice_flatten 10 _ hsz j hj2
  rw [List.getElem_map] at this
  rw [← this, hF, ← hb, ← List.flatMap]
  refine slice_ctx _ _ _ _ _ ?_
  rw [flatMap_relBytes_length]
  omega

/-- **C41.** The relocations found through the section header (with the extended count for more than 65535) are those of
the fixups with a symbol, in order: same address, the COFF relocation type, and a symbol table index which in the symbol
table of the same file is the entry of the fixup's symbol (the section's entry for segments and assembly-time variables).
Partial: without -zls with COMDAT sections, and without unsupported fixup types. -/
theorem C41_relocations_partial (m : Mod) (hm : ModOk m) (i : Nat) (s : Sec) (hi : m.secs[i]? = some s) :
    List.Forall₂ (fun (r : Nat × Nat × Nat) (f : Fix) => r.1 = f.locofs ∧ relocTypeOf s.use64 f = some r.2.2 ∧
        ∃ id e, f.sym = some id ∧ target m f id = some e ∧ (r.2.1, e) ∈ symbols (writeModule m).1)
      (relocs (writeModule m).1 i) (s.fixups.filter (fun f => f.sym.isSome)) := by
  have hmem : s ∈ m.secs := List.mem_of_getElem? hi
  have ok := hm.secs s hmem
  obtain ⟨_, _, r3, r4, r5⟩ := header_read m hm i s hi
  obtain ⟨sti, oi, a, c, h1, h2, h3, h4, r, h5⟩ := part_eq m hm i s hi
  obtain ⟨_, _, hlen, _, rels, hf, hd, hraw⟩ := secData_spec m hm s hmem (startData m) oi sti h1 (by simp only [startData]; omega)
    (by simp only [startData]; omega)
  have hsym : ∀ x ∈ number 0 (preEnts m (secData m oi sti s).2.pubs), x ∈ symbols (writeModule m).1 := by
    intro x hx
    rw [symbols_eq m hm, expected_eq, h5]
    exact number_mono_right (pre_mono m _ _ hx)
  have hf' : List.Forall₂ (RelOk m s.use64 (symbols (writeModule m).1)) rels (s.fixups.filter (fun f => f.sym.isSome)) :=
    hf.imp (fun _ _ h => h.mono hsym)
  suffices hrel : relocs (writeModule m).1 i = rels by rw [hrel]; exact hf'
  by_cases hne : s.fixups = []
  · have hr : rels = [] := by
      rw [hne] at hf
      cases hf; rfl
    rw [relocs, r4, hne, hr]
    simp
  · have hfe : s.fixups.isEmpty = false := by cases h : s.fixups with | nil => exact absurd h hne | cons => rfl
    obtain ⟨hd0, hd⟩ := hd hne
    have hrl : rels.length = numRelocs s := hf.length_eq
    have hfl := hm.small
    rw [h4] at hfl
    simp only [List.length_append] at hfl
    -- entries are in range
    have hrng : ∀ x ∈ rels, x.1 < 2 ^ 32 ∧ x.2.1 < 2 ^ 32 ∧ x.2.2 < 65536 := by
      intro x hx
      obtain ⟨f, hfm, hx1, hx2, id, e, hx3, _, hx5⟩ : ∃ f ∈ s.fixups.filter (fun f => f.sym.isSome), RelOk m s.use64 (symbols (writeModule m).1) x f := by
        exact forall2_mem hf' x hx
      have hfm' := (List.mem_filter.1 hfm).1
      refine ⟨by rw [hx1]; exact ok.locs f hfm', ?_, ?_⟩
      · rw [symbols_eq m hm] at hx5
        have hlt := number_lt hx5
        rw [← (seg_spec m hm).len] at hlt
        have := hm.small
        rw [file_length m hm] at this
        omega
      · obtain ⟨t, ht, htl⟩ := ok.types f hfm' (by rw [hx3]; rfl)
        rw [hx2] at ht
        cases ht; exact htl
    -- position of the records in the file
    have hle : relPtr (startData m + oi) s ≤ startData m + oi + (secData m oi sti s).1.length := by
      rw [hlen, offRel, hfe]; simp only [Bool.false_eq_true, if_false]; omega
    have hrp : secRelPtr (writeModule m).1 i = relPtr (startData m + oi) s := by
      rw [r3, ← h2]
      exact Nat.mod_eq_of_lt (by omega)
    have hpl : (a ++ (secData m oi sti s).1.take (relPtr (startData m + oi) s - (startData m + oi))).length
        = relPtr (startData m + oi) s := by
      rw [List.length_append, List.length_take, h3]; omega
    have hsplit : (writeModule m).1 = (a ++ (secData m oi sti s).1.take (relPtr (startData m + oi) s - (startData m + oi))) ++
        (((if numRelocs s > 0xffff then relBytes (numRelocs s + 1, 0, 0) else []) ++ rels.flatMap relBytes) ++ c) := by
      rw [← hd, h4]
      simp only [List.append_assoc]
      rw [← List.append_assoc (List.take _ _), List.take_append_drop]
    have hsmall := hm.small
    generalize a ++ (secData m oi sti s).1.take (relPtr (startData m + oi) s - (startData m + oi)) = A at hpl hsplit
    generalize relPtr (startData m + oi) s = P at hpl hrp
    clear hfl hf hf' hsym h4 hd hle hlen hm
    generalize (writeModule m).1 = F at *
    by_cases ho : numRelocs s > 0xffff
    · rw [if_pos ho] at hsplit
      have hfl24 : (secFlags F i).testBit 24 = true := by
        rw [r5, BitVec.testBit_toNat, BitVec.getLsbD_or, if_pos ⟨by rw [hfe]; rfl, by omega⟩]
        simp
      have hcnt : u32 F P = numRelocs s + 1 := by
        rw [← hpl, ← Nat.add_zero (List.length _), ← u32_drop, hsplit, List.drop_left]
        simp only [relBytes, List.append_assoc]
        rw [u32_le]
        apply Nat.mod_eq_of_lt
        rw [hsplit] at hsmall
        simp only [List.length_append, flatMap_relBytes_length, hrl] at hsmall
        omega
      have hn : secNRel F i = 0xffff := by
        rw [r4, hfe]; simp only [Bool.false_eq_true, if_false]; rw [if_neg (by omega)]
      rw [relocs, if_pos ⟨hn, hfl24⟩, hrp, hcnt, Nat.add_sub_cancel, ← hrl]
      refine read_rels F (A ++ relBytes (numRelocs s + 1, 0, 0)) c rels ?_ hrng _ ?_
      · rw [hsplit]; simp only [List.append_assoc]
      · rw [List.length_append, hpl, relBytes_length]
    · rw [if_neg ho] at hsplit
      have hfl24 : (secFlags F i).testBit 24 = false := by
        rw [r5, if_neg (by rintro ⟨_, h⟩; exact h (by omega))]
        rw [show chars s ||| 0 = chars s from BitVec.or_zero]
        exact chars_bit24 s ok.align
      have hn : secNRel F i = rels.length := by
        rw [r4, hfe]; simp only [Bool.false_eq_true, if_false]; rw [if_pos (by omega), hrl]
      rw [relocs, if_neg (by rw [hfl24]; simp), hrp, hn]
      exact read_rels F A c rels (by rw [hsplit, List.nil_append]) hrng _ hpl

theorem aliasSyms_nth (m : Mod) (ext : Nat → Nat) : ∀ (l : List (Nat × Option Nat)) (ln : LN),
    (aliasSyms m ext ln l).1.length = 2 * l.length ∧ ∀ j a sub, l[j]? = some (a, some sub) →
      (aliasSyms m ext ln l).1[2 * j + 1]? = some (weakAux (ext sub) 3)
  | [], ln => by simp [aliasSyms]
  | (b, s) :: l, ln => by
    obtain ⟨h1, h2⟩ := aliasSyms_nth m ext l (symRec ln (m.env b).name 0 0 0 105 1).2
    simp only [aliasSyms]
    refine ⟨by simp only [List.length_cons, h1]; omega, ?_⟩
    intro j a sub hj
    cases j with
    | zero =>
      simp at hj
      obtain ⟨rfl, rfl⟩ := hj
      rfl
    | succ j =>
      rw [show 2 * (j + 1) + 1 = (2 * j + 1) + 1 + 1 by omega]
      exact h2 j a sub (by simpa using hj)

theorem alias_number (m : Mod) : ∀ (l : List (Nat × Option Nat)) (k j a : Nat) (sub : Option Nat), l[j]? = some (a, sub) →
    (k + 2 * j, aliasEnt (m.env a)) ∈ number k (l.map (fun a => aliasEnt (m.env a.1)))
  | [], k, j, a, sub, h => by simp at h
  | x :: l, k, 0, a, sub, h => by
    simp at h
    subst h
    simp [number]
  | x :: l, k, j + 1, a, sub, h => by
    have := alias_number m l (k + 1 + 1) j a sub (by simpa using h)
    simp only [List.map_cons, number, List.mem_cons]
    right
    rw [show k + 2 * (j + 1) = k + 1 + 1 + 2 * j by omega]
    exact this

theorem width_aliases (m : Mod) : ∀ (l : List (Nat × Option Nat)), width (l.map (fun a => aliasEnt (m.env a.1))) = 2 * l.length
  | [] => rfl
  | x :: l => by
    have := width_aliases m l
    rw [List.map_cons, width, this, List.length_cons, show (aliasEnt (m.env x.1)).aux = 1 from rfl]; omega

/-- **C41.** An ALIAS is a weak external whose auxiliary record refers to the entry of its substitute (an external in use
or a public symbol). -/
theorem C41_alias_target (m : Mod) (hm : ModOk m) (j a sub : Nat) (hj : m.aliases[j]? = some (a, some sub))
    (ht : (sub ∈ m.exts ∧ usedExt (m.env sub) = true) ∨ sub ∈ m.pubs) :
    ∃ k e, (k, aliasEnt (m.env a)) ∈ symbols (writeModule m).1 ∧
      (u32 ((records (writeModule m).1).getD (k + 1) []) 0, e) ∈ symbols (writeModule m).1 ∧
      e = if sub ∈ m.exts then extEnt (m.env sub) else pubEnt (m.env sub) := by
  have hinv := (dat_spec m hm).1
  have hseg := seg_spec m hm
  have hal := fun ln => aliasSyms_nth m (datOf m).2.ext m.aliases ln
  -- the records end with those of the aliases
  obtain ⟨pre, ln, hR⟩ : ∃ pre ln, (symOf m).1 = pre ++ (aliasSyms m (datOf m).2.ext ln m.aliases).1 := ⟨_, _, rfl⟩
  have hpl : pre.length = width (preEnts m (datOf m).2.pubs) := by
    have := hseg.len
    rw [hR, List.length_append, (hal ln).1, expected_eq, width_append, width_aliases] at this
    omega
  have hk : (pre.length + 2 * j, aliasEnt (m.env a)) ∈ symbols (writeModule m).1 := by
    rw [symbols_eq m hm, expected_eq]
    apply number_right
    have := alias_number m m.aliases (0 + width (preEnts m (datOf m).2.pubs)) j a (some sub) hj
    rw [hpl]
    rw [Nat.zero_add] at this ⊢
    exact this
  have hrec : (records (writeModule m).1).getD (pre.length + 2 * j + 1) [] = weakAux ((datOf m).2.ext sub) 3 := by
    rw [records_eq m hm, List.getD_eq_getElem?_getD, hR, Nat.add_assoc, List.getElem?_append_right (by omega),
      Nat.add_sub_cancel_left, (hal ln).2 j a sub hj]
    rfl
  have hent : ((datOf m).2.ext sub, if sub ∈ m.exts then extEnt (m.env sub) else pubEnt (m.env sub)) ∈ symbols (writeModule m).1 := by
    rw [symbols_eq m hm, expected_eq]
    apply number_mono_right
    by_cases he : sub ∈ m.exts
    · rw [if_pos he]
      rcases ht with h | h
      · exact ext_pre m _ (hinv.ext sub he h.2)
      · exact absurd h (hm.extState sub he).2
    · rw [if_neg he]
      rcases ht with h | h
      · exact absurd h.1 he
      · apply pub_pre
        apply hinv.pub
        obtain ⟨r, hr, _⟩ := hinv.more
        rw [hr]
        exact List.mem_append_left _ h
  refine ⟨_, _, hk, ?_, rfl⟩
  have hlt : (datOf m).2.ext sub < 2 ^ 32 := by
    rw [symbols_eq m hm] at hent
    have h1 := number_lt hent
    rw [← hseg.len] at h1
    have := hm.small
    rw [file_length m hm] at this
    omega
  rw [hrec, weakAux]
  simp only [List.append_assoc]
  rw [u32_le, Nat.mod_eq_of_lt hlt]
  exact hent

end Verif.Coff
