import Verif.Macho.Spec
/-! Reading the pieces of the file. -/
namespace Verif.Macho
open Coff (Byte le ascii strncpy strncpy_length strncpy_read u8 u16 u32 slice cstr le_length u16_le u32_le u8_append_right u8_slice u16_slice u32_slice
  slice_mid length_flatten slice_flatten takeWhile_append_stop)
open Elf (u64 u64_slice u64_le u8_skip u16_skip u32_skip u64_skip u8_le u32_le' u64_le')

theorem u8_app (a r : List Byte) (i : Nat) (h : a.length ≤ i) : u8 (a ++ r) i = u8 r (i - a.length) := by
  have := u8_append_right a r (i - a.length)
  rwa [Nat.add_sub_cancel' h] at this

theorem u16_app (a r : List Byte) (i : Nat) (h : a.length ≤ i) : u16 (a ++ r) i = u16 r (i - a.length) := by
  simp only [u16, u8_app a r i h, u8_app a r (i + 1) (by omega), show i + 1 - a.length = i - a.length + 1 by omega]

theorem u32_app (a r : List Byte) (i : Nat) (h : a.length ≤ i) : u32 (a ++ r) i = u32 r (i - a.length) := by
  simp only [u32, u16_app a r i h, u16_app a r (i + 2) (by omega), show i + 2 - a.length = i - a.length + 2 by omega]

theorem u64_app (a r : List Byte) (i : Nat) (h : a.length ≤ i) : u64 (a ++ r) i = u64 r (i - a.length) := by
  simp only [u64, u32_app a r i h, u32_app a r (i + 4) (by omega), show i + 4 - a.length = i - a.length + 4 by omega]

/-- Reading through a slice. -/
theorem u32_at {F b : List Byte} {o n : Nat} (h : slice F o n = b) (i : Nat) (hi : i + 3 < n) : u32 F (o + i) = u32 b i := by
  rw [← h, u32_slice _ _ _ _ hi]
theorem u64_at {F b : List Byte} {o n : Nat} (h : slice F o n = b) (i : Nat) (hi : i + 7 < n) : u64 F (o + i) = u64 b i := by
  rw [← h, u64_slice _ _ _ _ hi]

theorem slice_slice (F : List Byte) (o n i k : Nat) (h : i + k ≤ n) : slice (slice F o n) i k = slice F (o + i) k := by
  simp only [slice, List.drop_take, List.take_take, List.drop_drop]
  congr 1
  omega

/-! ## Sections -/

theorem kind_place (n : List Byte) : kind n = placeOf n := by
  simp only [kind, placeOf]
  by_cases h1 : n = ascii "_TEXT"
  · subst h1; decide
  by_cases h2 : n = ascii "_DATA"
  · subst h2; decide
  by_cases h3 : n = ascii "CONST"
  · subst h3; decide
  by_cases h4 : n = ascii "_BSS"
  · subst h4; decide
  rw [if_neg h1, if_neg h2, if_neg h3, if_neg h4]
  simp [List.lookup, beq_eq_false_iff_ne.2 h1, beq_eq_false_iff_ne.2 h2, beq_eq_false_iff_ne.2 h3, beq_eq_false_iff_ne.2 h4]

def known (s : Sec) : Bool := (placeOf s.name).isSome
/-- The segments that become sections. -/
def kept (m : Mod) : List Sec := m.secs.filter known

theorem known_iff (s : Sec) : known s = decide (s.name = ascii "_BSS" ∨ s.name = ascii "CONST" ∨ s.name = ascii "_TEXT" ∨
    s.name = ascii "_DATA") := by
  rw [known, ← kind_place, kind, Bool.eq_iff_iff, decide_eq_true_iff]
  by_cases h1 : s.name = ascii "_TEXT"
  · simp [h1]
  by_cases h2 : s.name = ascii "_DATA"
  · simp only [h2, or_true, iff_true]; decide
  by_cases h3 : s.name = ascii "CONST"
  · simp only [h3, true_or, or_true, iff_true]; decide
  by_cases h4 : s.name = ascii "_BSS"
  · simp only [h4, true_or, iff_true]; decide
  simp [h1, h2, h3, h4]

theorem entries_kept : ∀ (l : List Sec) (a i : Nat), entries a i l = entries a i (l.filter known)
  | [], _, _ => rfl
  | s :: r, a, i => by
    cases h : kind s.name with
    | none =>
      have hk : known s = false := by rw [known, ← kind_place, h]; rfl
      rw [List.filter_cons_of_neg (by simp [hk])]
      simp only [entries, h]
      exact entries_kept r a i
    | some k =>
      have hk : known s = true := by rw [known, ← kind_place, h]; rfl
      rw [List.filter_cons_of_pos hk]
      simp only [entries, h]
      rw [entries_kept r]

/-- The entry of a segment. -/
def entOf (s : Sec) (k : List Byte × List Byte × Nat) (idx addr : Nat) : Ent :=
  ⟨s.name, k, s.written, (List.range s.written).map s.buf, idx, addr⟩

def sumW (l : List Sec) : Nat := (l.map (·.written)).sum

theorem entries_length : ∀ (l : List Sec) (a i : Nat), (∀ s ∈ l, known s = true) → (entries a i l).length = l.length
  | [], _, _, _ => rfl
  | s :: r, a, i, h => by
    have hs := h s (by simp)
    rw [known, ← kind_place] at hs
    obtain ⟨k, hk⟩ := Option.isSome_iff_exists.1 hs
    simp only [entries, hk, List.length_cons, entries_length r _ _ (fun x hx => h x (by simp [hx]))]

theorem entries_get : ∀ (l : List Sec) (a i : Nat), (∀ s ∈ l, known s = true) → ∀ (j : Nat) s, l[j]? = some s →
    ∃ k, placeOf s.name = some k ∧ (entries a i l)[j]? = some (entOf s k (i + j) (a + sumW (l.take j)))
  | [], _, _, _, j, s, hj => by simp at hj
  | x :: r, a, i, h, j, s, hj => by
    have hs := h x (by simp)
    rw [known, ← kind_place] at hs
    obtain ⟨k, hk⟩ := Option.isSome_iff_exists.1 hs
    simp only [entries, hk]
    cases j with
    | zero =>
      simp at hj; subst hj
      exact ⟨k, by rw [← kind_place, hk], by simp [entOf, sumW]⟩
    | succ j =>
      obtain ⟨k', h1, h2⟩ := entries_get r (a + x.written) (i + 1) (fun y hy => h y (by simp [hy])) j s (by simpa using hj)
      refine ⟨k', h1, ?_⟩
      rw [List.getElem?_cons_succ, h2]
      simp only [entOf, sumW, List.take_succ_cons, List.map_cons, List.sum_cons]
      congr 2 <;> omega

theorem kept_known (m : Mod) : ∀ s ∈ kept m, known s = true := fun s hs => (List.mem_filter.1 hs).2

theorem ents_eq (m : Mod) : ents m = entries 0 1 (kept m) := entries_kept _ _ _
theorem ents_length (m : Mod) : (ents m).length = (kept m).length := by
  rw [ents_eq, entries_length _ _ _ (kept_known m)]
theorem ents_get (m : Mod) (j : Nat) (s : Sec) (h : (kept m)[j]? = some s) :
    ∃ k, placeOf s.name = some k ∧ (ents m)[j]? = some (entOf s k (j + 1) (sumW ((kept m).take j))) := by
  obtain ⟨k, h1, h2⟩ := entries_get (kept m) 0 1 (kept_known m) j s h
  exact ⟨k, h1, by rw [ents_eq, h2, Nat.zero_add, Nat.add_comm 1 j]⟩

theorem secCount_eq (m : Mod) : secCount m = (ents m).length := by
  rw [ents_length, secCount, kept]
  congr 2
  funext s
  rw [known_iff]

theorem ents_sizes : ∀ (l : List Sec) (a i : Nat), (∀ s ∈ l, known s = true) → (entries a i l).map (·.size) = l.map (·.written)
  | [], _, _, _ => rfl
  | s :: r, a, i, h => by
    have hs := h s (by simp)
    rw [known, ← kind_place] at hs
    obtain ⟨k, hk⟩ := Option.isSome_iff_exists.1 hs
    simp only [entries, hk, List.map_cons, ents_sizes r _ _ (fun x hx => h x (by simp [hx]))]

theorem ents_srcs : ∀ (l : List Sec) (a i : Nat), (∀ s ∈ l, known s = true) → (entries a i l).map (·.src) = l.map (·.name)
  | [], _, _, _ => rfl
  | s :: r, a, i, h => by
    have hs := h s (by simp)
    rw [known, ← kind_place] at hs
    obtain ⟨k, hk⟩ := Option.isSome_iff_exists.1 hs
    simp only [entries, hk, List.map_cons, ents_srcs r _ _ (fun x hx => h x (by simp [hx]))]

theorem ents_data : ∀ (l : List Sec) (a i : Nat), (∀ s ∈ l, known s = true) →
    (entries a i l).map (·.data) = l.map (fun s => (List.range s.written).map s.buf)
  | [], _, _, _ => rfl
  | s :: r, a, i, h => by
    have hs := h s (by simp)
    rw [known, ← kind_place] at hs
    obtain ⟨k, hk⟩ := Option.isSome_iff_exists.1 hs
    simp only [entries, hk, List.map_cons, ents_data r _ _ (fun x hx => h x (by simp [hx]))]

theorem dataSize_eq (m : Mod) : dataSize m = sumW (kept m) := by
  rw [dataSize, ents_eq, ents_sizes _ _ _ (kept_known m), sumW]

/-! ## Fixups of an entry -/

theorem find_unique : ∀ (l : List Sec), l.Pairwise (fun a b => a.name ≠ b.name) → ∀ s ∈ l, ∀ p : Sec → Bool,
    (∀ x, p x = true ↔ x.name = s.name) → l.find? p = some s
  | x :: r, h, s, hs, p, hp => by
    rw [List.pairwise_cons] at h
    rcases List.mem_cons.1 hs with rfl | hs
    · rw [List.find?_cons_of_pos ((hp _).2 rfl)]
    · have : x.name ≠ s.name := h.1 s hs
      rw [List.find?_cons_of_neg (fun hc => this ((hp x).1 hc))]
      exact find_unique r h.2 s hs p hp

theorem find_kept (m : Mod) (hl : Laid m) (s : Sec) (hs : s ∈ kept m) (p : Sec → Bool)
    (hp : ∀ x, p x = true ↔ x.name = s.name) : m.secs.find? p = some s := by
  have h := find_unique (kept m) hl.secNames s hs p hp
  rw [kept, List.find?_filter] at h
  rw [← h]
  congr 1
  funext x
  by_cases e : x.name = s.name
  · have : known x = true := by rw [known, e]; exact kept_known m s hs
    simp [(hp x).2 e, this]
  · have : p x = false := by
      cases hc : p x
      · rfl
      · exact absurd ((hp x).1 hc) e
    simp [this]

theorem fixups_kept (m : Mod) (hl : Laid m) (s : Sec) (hs : s ∈ kept m) (k : List Byte × List Byte × Nat) (i a : Nat) :
    fixupsOf m (entOf s k i a) = s.fixups := by
  simp only [fixupsOf]
  rw [find_kept m hl s hs _ (by intro x; exact decide_eq_true_iff)]

/-! ## Section records -/

theorem section64_length (m : Mod) (e : Ent) (o r : Nat) : (section64 m e o r).length = 80 := by
  simp [section64, strncpy_length]

theorem section64s_length (m : Mod) : ∀ (l : List Ent) (o r : Nat), (section64s m o r l).length = l.length
  | [], _, _ => rfl
  | e :: l, o, r => by simp [section64s, section64s_length m l]

theorem section64s_recs (m : Mod) : ∀ (l : List Ent) (o r : Nat), ∀ x ∈ section64s m o r l, x.length = 80
  | [], _, _, x, h => by simp [section64s] at h
  | e :: l, o, r, x, h => by
    simp only [section64s, List.mem_cons] at h
    rcases h with rfl | h
    · exact section64_length ..
    · exact section64s_recs m l _ _ x h

def fixSum (m : Mod) (l : List Ent) : Nat := (l.map (fun e => (fixupsOf m e).length)).sum

theorem section64s_get (m : Mod) : ∀ (l : List Ent) (o r j : Nat) e, l[j]? = some e →
    (section64s m o r l)[j]? = some (section64 m e (o + ((l.take j).map (·.size)).sum) (r + 8 * fixSum m (l.take j)))
  | [], _, _, j, e, h => by simp at h
  | x :: l, o, r, 0, e, h => by
    simp at h; subst h
    simp [section64s, fixSum]
  | x :: l, o, r, j + 1, e, h => by
    rw [section64s, List.getElem?_cons_succ, section64s_get m l _ _ j e (by simpa using h)]
    simp only [fixSum, List.take_succ_cons, List.map_cons, List.sum_cons]
    congr 2 <;> omega

theorem cstr_strncpy (n : Nat) (s : List Byte) (hn : s.length ≤ n) (h : (0 : Byte) ∉ s) : cstr (strncpy n s) 0 = s := by
  rw [cstr, List.drop_zero]; exact strncpy_read n s hn h

theorem place_names (n : List Byte) (k : List Byte × List Byte × Nat) (h : placeOf n = some k) :
    (k.1.length ≤ 16 ∧ (0 : Byte) ∉ k.1) ∧ (k.2.1.length ≤ 16 ∧ (0 : Byte) ∉ k.2.1) ∧ k.2.2 < 2 ^ 32 := by
  rw [← kind_place] at h
  simp only [kind] at h
  repeat' split at h
  all_goals first | (cases h; decide) | cases h

theorem sec_fields (a b : List Byte) (ha : a.length = 16) (hb : b.length = 16) (A S o al ro n fl : Nat) (rest : List Byte) :
    let r := a ++ (b ++ (le 8 A ++ (le 8 S ++ (le 4 o ++ (le 4 al ++ (le 4 ro ++ (le 4 n ++ (le 4 fl ++ rest))))))))
    slice r 0 16 = a ∧ slice r 16 16 = b ∧ u64 r 32 = A % 2 ^ 64 ∧ u64 r 40 = S % 2 ^ 64 ∧ u32 r 48 = o % 2 ^ 32 ∧
    u32 r 52 = al % 2 ^ 32 ∧ u32 r 56 = ro % 2 ^ 32 ∧ u32 r 60 = n % 2 ^ 32 ∧ u32 r 64 = fl % 2 ^ 32 := by
  intro r
  have h32 : ∀ i, u32 r (32 + i) = u32 (le 8 A ++ (le 8 S ++ (le 4 o ++ (le 4 al ++ (le 4 ro ++ (le 4 n ++ (le 4 fl ++ rest))))))) i := by
    intro i
    rw [u32_app _ _ _ (by omega), u32_app _ _ _ (by omega)]
    congr 1; omega
  have h64 : ∀ i, u64 r (32 + i) = u64 (le 8 A ++ (le 8 S ++ (le 4 o ++ (le 4 al ++ (le 4 ro ++ (le 4 n ++ (le 4 fl ++ rest))))))) i := by
    intro i
    rw [u64_app _ _ _ (by omega), u64_app _ _ _ (by omega)]
    congr 1; omega
  refine ⟨slice_mid [] _ _ 0 16 rfl ha, slice_mid _ _ _ 16 16 ha hb, ?_, ?_, ?_, ?_, ?_, ?_, ?_⟩
  · rw [h64 0, u64_le]
  · rw [h64 8, u64_skip _ _ _ _ (by omega), Nat.sub_self, u64_le]
  · rw [h32 16, u32_skip _ _ _ _ (by omega), u32_skip _ _ _ _ (by omega), u32_le]
  · rw [h32 20, u32_skip _ _ _ _ (by omega), u32_skip _ _ _ _ (by omega), u32_skip _ _ _ _ (by omega), u32_le]
  · rw [h32 24, u32_skip _ _ _ _ (by omega), u32_skip _ _ _ _ (by omega), u32_skip _ _ _ _ (by omega), u32_skip _ _ _ _ (by omega),
      u32_le]
  · rw [h32 28, u32_skip _ _ _ _ (by omega), u32_skip _ _ _ _ (by omega), u32_skip _ _ _ _ (by omega), u32_skip _ _ _ _ (by omega),
      u32_skip _ _ _ _ (by omega), u32_le]
  · rw [h32 32, u32_skip _ _ _ _ (by omega), u32_skip _ _ _ _ (by omega), u32_skip _ _ _ _ (by omega), u32_skip _ _ _ _ (by omega),
      u32_skip _ _ _ _ (by omega), u32_skip _ _ _ _ (by omega), u32_le]

theorem decode_section (m : Mod) (e : Ent) (o r : Nat) (hk : ∃ n, placeOf n = some e.kind) (ha : e.addr < 2 ^ 32) (hs : e.size < 2 ^ 32)
    (ho : o < 2 ^ 32) (hr : r < 2 ^ 32) (hf : (fixupsOf m e).length < 2 ^ 32) :
    decodeSec (section64 m e o r) = ⟨e.kind.1, e.kind.2.1, e.addr, e.size, o, 0,
      if (fixupsOf m e).length = 0 then 0 else r, (fixupsOf m e).length, e.kind.2.2⟩ := by
  obtain ⟨n, hn⟩ := hk
  obtain ⟨⟨a1, a2⟩, ⟨b1, b2⟩, c⟩ := place_names n _ hn
  obtain ⟨q1, q2, q3, q4, q5, q6, q7, q8, q9⟩ := sec_fields (strncpy 16 e.kind.1) (strncpy 16 e.kind.2.1) (strncpy_length _ _)
    (strncpy_length _ _) e.addr e.size o 0 (if (fixupsOf m e).length = 0 then 0 else r) (fixupsOf m e).length e.kind.2.2
    (le 4 0 ++ (le 4 0 ++ le 4 0))
  have hro : (if (fixupsOf m e).length = 0 then 0 else r) < 2 ^ 32 := by split <;> omega
  simp only [decodeSec, section64, List.append_assoc, q1, q2, q3, q4, q5, q6, q7, q8, q9, cstr_strncpy _ _ a1 a2, cstr_strncpy _ _ b1 b2]
  rw [Nat.mod_eq_of_lt hro, Nat.mod_eq_of_lt c, Nat.mod_eq_of_lt hf, Nat.mod_eq_of_lt ho, Nat.mod_eq_of_lt (show e.addr < 2 ^ 64 by omega),
    Nat.mod_eq_of_lt (show e.size < 2 ^ 64 by omega)]

/-! ## The pieces -/

theorem header_length (m : Mod) : (header m).length = 32 := by simp [header]
theorem segCmd_length (m : Mod) : (segCmd m).length = 72 := by simp [segCmd]
theorem verCmd_length : verCmd.length = 16 := by simp [verCmd]
theorem symCmd_length (m : Mod) : (symCmd m).length = 24 := by simp [symCmd]
theorem dysymCmd_length (m : Mod) : (dysymCmd m).length = 80 := by simp [dysymCmd]

def secRecs (m : Mod) : List (List Byte) := section64s m (dataOfs m) (dataOfs m + dataSize m) (ents m)
def secData (m : Mod) : List Byte := ((ents m).map (·.data)).flatten

theorem secRecs_flat (m : Mod) : (secRecs m).flatten.length = 80 * (ents m).length := by
  rw [secRecs, length_flatten 80 _ (section64s_recs m _ _ _), section64s_length]

theorem secData_length (m : Mod) : (secData m).length = dataSize m := by
  rw [secData, ents_eq, ents_data _ _ _ (kept_known m), dataSize_eq, sumW]
  simp [List.length_flatten, List.map_map, Function.comp_def]

theorem reloc_length (m : Mod) (e : Ent) (f : Fix) : (reloc m e f).length = 8 := by simp [reloc]

theorem relocs_recs (m : Mod) : ∀ r ∈ relocs m, r.length = 8 := by
  intro r h
  simp only [relocs, List.mem_flatMap, List.mem_map] at h
  obtain ⟨e, _, f, _, rfl⟩ := h
  exact reloc_length ..

theorem relocs_length (m : Mod) : (relocs m).length = relocCount m := by
  simp [relocs, relocCount, List.length_flatMap]

theorem relocs_flat (m : Mod) : (relocs m).flatten.length = 8 * relocCount m := by
  rw [length_flatten 8 _ (relocs_recs m), relocs_length]

theorem nlist_length (m : Mod) (s : Str) : (nlist m s).length = 16 := by
  simp only [nlist]; split <;> simp

theorem nlists_recs (m : Mod) : ∀ r ∈ nlists m, r.length = 16 := by
  intro r h
  simp only [nlists, List.mem_map] at h
  obtain ⟨s, _, rfl⟩ := h
  exact nlist_length ..

theorem nlists_flat (m : Mod) : (nlists m).flatten.length = 16 * (nlists m).length := length_flatten 16 _ (nlists_recs m)

/-- Where everything is. -/
structure Read (m : Mod) (F : List Byte) : Prop where
  hdr : slice F 0 32 = header m
  seg : slice F 32 72 = segCmd m
  secs : slice F 104 (80 * (ents m).length) = (secRecs m).flatten
  ver : slice F (104 + 80 * (ents m).length) 16 = verCmd
  sym : slice F (120 + 80 * (ents m).length) 24 = symCmd m
  dysym : slice F (144 + 80 * (ents m).length) 80 = dysymCmd m
  data : slice F (dataOfs m) (dataSize m) = secData m
  rel : slice F (dataOfs m + dataSize m) (8 * relocCount m) = (relocs m).flatten
  syms : slice F (dataOfs m + dataSize m + 8 * relocCount m) (16 * (nlists m).length) = (nlists m).flatten
  strs : F.drop (dataOfs m + dataSize m + 8 * relocCount m + 16 * (nlists m).length) = strData m
  len : F.length = dataOfs m + dataSize m + 8 * relocCount m + 16 * (nlists m).length + (strData m).length

theorem file_eq (m : Mod) (F : List Byte) (h : writeModule m = some F) :
    F = header m ++ (segCmd m ++ ((secRecs m).flatten ++ (verCmd ++ (symCmd m ++ (dysymCmd m ++ (secData m ++
      ((relocs m).flatten ++ ((nlists m).flatten ++ strData m)))))))) ∧ ents m ≠ [] := by
  simp only [writeModule] at h
  split at h
  · cases h
  · split at h
    · cases h
    · rename_i h1
      exact ⟨(Option.some.inj h).symm, h1⟩

theorem read (m : Mod) (F : List Byte) (h : writeModule m = some F) : Read m F := by
  have hF := (file_eq m F h).1
  have l1 := header_length m
  have l2 := segCmd_length m
  have l3 := secRecs_flat m
  have l4 := verCmd_length
  have l5 := symCmd_length m
  have l6 := dysymCmd_length m
  have l7 := secData_length m
  have l8 := relocs_flat m
  have l9 := nlists_flat m
  have hd : dataOfs m = 224 + 80 * (ents m).length := by simp only [dataOfs]; omega
  constructor
  · rw [hF]; exact slice_mid [] _ _ _ _ rfl l1
  · rw [hF]; exact slice_mid _ _ _ _ _ l1 l2
  · rw [hF]; rw [← List.append_assoc]; exact slice_mid _ _ _ _ _ (by simp [l1, l2]) l3
  · rw [hF]; rw [← List.append_assoc, ← List.append_assoc]
    exact slice_mid _ _ _ _ _ (by simp only [List.length_append]; omega) l4
  · rw [hF]; rw [← List.append_assoc, ← List.append_assoc, ← List.append_assoc]
    exact slice_mid _ _ _ _ _ (by simp only [List.length_append]; omega) l5
  · rw [hF]; rw [← List.append_assoc, ← List.append_assoc, ← List.append_assoc, ← List.append_assoc]
    exact slice_mid _ _ _ _ _ (by simp only [List.length_append]; omega) l6
  · rw [hF]; rw [← List.append_assoc, ← List.append_assoc, ← List.append_assoc, ← List.append_assoc, ← List.append_assoc]
    exact slice_mid _ _ _ _ _ (by simp only [List.length_append]; omega) l7
  · rw [hF]; rw [← List.append_assoc, ← List.append_assoc, ← List.append_assoc, ← List.append_assoc, ← List.append_assoc,
      ← List.append_assoc]
    exact slice_mid _ _ _ _ _ (by simp only [List.length_append]; omega) l8
  · rw [hF]; rw [← List.append_assoc, ← List.append_assoc, ← List.append_assoc, ← List.append_assoc, ← List.append_assoc,
      ← List.append_assoc, ← List.append_assoc]
    exact slice_mid _ _ _ _ _ (by simp only [List.length_append]; omega) l9
  · rw [hF]; rw [← List.append_assoc, ← List.append_assoc, ← List.append_assoc, ← List.append_assoc, ← List.append_assoc,
      ← List.append_assoc, ← List.append_assoc, ← List.append_assoc]
    exact List.drop_left' (by simp only [List.length_append]; omega)
  · rw [hF]; simp only [List.length_append]; omega

end Verif.Macho
