import Verif.Macho.Syms
/-! Load commands, sections, relocations of a written file. -/
namespace Verif.Macho
open Coff (Byte le ascii u8 u16 u32 slice cstr u16_le u32_le slice_flatten le_length)
open Elf (u64 u64_le u64_le' u8_skip u16_skip u32_skip u64_skip u8_le u32_le')

theorem nSyms_eq (m : Mod) : nSyms m = (listed m).length := by
  simp only [nSyms, nLocal, nPub, nUndef, locals_eq, publics_eq, externals_eq, listed, List.length_append]

theorem nlists_le (m : Mod) : (nlists m).length ≤ (listed m).length := by
  rw [nlists, List.length_map]
  refine Nat.le_trans (List.length_filter_le _ _) ?_
  rw [strings_eq, numbered_length]; exact Nat.le_refl _

/-- All sizes are small. -/
theorem bounds (m : Mod) (F : List Byte) (h : writeModule m = some F) (hs : Small m F) :
    dataOfs m + dataSize m + 8 * relocCount m + 16 * nSyms m + strSize m < 2 ^ 31 ∧ dataOfs m = 224 + 80 * (ents m).length ∧
    nSyms m < 2 ^ 24 := by
  have hl := (read m F h).len
  have h1 := nSyms_eq m
  have h2 := strSize_eq m
  have h3 := hs.1
  have h4 := hs.2
  refine ⟨by omega, by simp only [dataOfs]; omega, by omega⟩

/-! ## Commands -/

theorem header_read (m : Mod) (F : List Byte) (h : writeModule m = some F) :
    u32 F 0 = 0xfeedfacf ∧ u32 F 4 = 0x01000007 ∧ u32 F 12 = 1 ∧ u32 F 16 = 4 ∧
    u32 F 20 = (72 + 16 + 80 * (ents m).length + 24 + 80) % 2 ^ 32 := by
  have R := (read m F h).hdr
  have A := fun i hi => u32_at R i hi
  have e : ∀ i, u32 F i = u32 F (0 + i) := fun i => by rw [Nat.zero_add]
  refine ⟨?_, ?_, ?_, ?_, ?_⟩
  all_goals (rw [e, A _ (by omega)]; simp only [header, List.append_assoc])
  · rw [u32_le]
  · rw [u32_skip _ _ _ _ (by omega), Nat.sub_self, u32_le]
  · rw [u32_skip _ _ _ _ (by omega), u32_skip _ _ _ _ (by omega), u32_skip _ _ _ _ (by omega), u32_le]
  · rw [u32_skip _ _ _ _ (by omega), u32_skip _ _ _ _ (by omega), u32_skip _ _ _ _ (by omega), u32_skip _ _ _ _ (by omega), u32_le]
  · rw [u32_skip _ _ _ _ (by omega), u32_skip _ _ _ _ (by omega), u32_skip _ _ _ _ (by omega), u32_skip _ _ _ _ (by omega),
      u32_skip _ _ _ _ (by omega), u32_le]

theorem walk_eq (m : Mod) (F : List Byte) (h : writeModule m = some F) (hs : Small m F) :
    walk F 4 32 = ([(0x19, 32), (0x24, 104 + 80 * (ents m).length), (2, 120 + 80 * (ents m).length),
      (0xb, 144 + 80 * (ents m).length)], 224 + 80 * (ents m).length) := by
  have R := read m F h
  obtain ⟨b1, b2, b3⟩ := bounds m F h hs
  have c := secCount_eq m
  generalize hn : (ents m).length = n at *
  have a1 : u32 F 32 = 0x19 := by
    have := u32_at R.seg 0 (by omega)
    simp only [segCmd, List.append_assoc] at this
    rw [u32_le] at this; exact this
  have a2 : u32 F 36 = 72 + 80 * n := by
    have := u32_at R.seg 4 (by omega)
    simp only [segCmd, List.append_assoc] at this
    rw [u32_skip _ _ _ _ (by omega), Nat.sub_self, u32_le, Nat.mod_eq_of_lt (by omega), c] at this; exact this
  have a3 : u32 F (104 + 80 * n) = 0x24 := by
    have := u32_at R.ver 0 (by omega)
    rw [hn] at this
    simp only [verCmd, List.append_assoc] at this
    rw [u32_le] at this; exact this
  have a4 : u32 F (104 + 80 * n + 4) = 16 := by
    have := u32_at R.ver 4 (by omega)
    rw [hn] at this
    simp only [verCmd, List.append_assoc] at this
    rw [u32_skip _ _ _ _ (by omega), Nat.sub_self, u32_le] at this; exact this
  have a5 : u32 F (120 + 80 * n) = 2 := by
    have := u32_at R.sym 0 (by omega)
    rw [hn] at this
    simp only [symCmd, List.append_assoc] at this
    rw [u32_le] at this; exact this
  have a6 : u32 F (120 + 80 * n + 4) = 24 := by
    have := u32_at R.sym 4 (by omega)
    rw [hn] at this
    simp only [symCmd, List.append_assoc] at this
    rw [u32_skip _ _ _ _ (by omega), Nat.sub_self, u32_le] at this; exact this
  have a7 : u32 F (144 + 80 * n) = 0xb := by
    have := u32_at R.dysym 0 (by omega)
    rw [hn] at this
    simp only [dysymCmd, List.append_assoc] at this
    rw [u32_le] at this; exact this
  have a8 : u32 F (144 + 80 * n + 4) = 80 := by
    have := u32_at R.dysym 4 (by omega)
    rw [hn] at this
    simp only [dysymCmd, List.append_assoc] at this
    rw [u32_skip _ _ _ _ (by omega), Nat.sub_self, u32_le] at this; exact this
  simp only [walk, a1, a2, show 32 + (72 + 80 * n) = 104 + 80 * n by omega, a3, a4, show 104 + 80 * n + 16 = 120 + 80 * n by omega,
    a5, a6, show 120 + 80 * n + 24 = 144 + 80 * n by omega, a7, a8, show 144 + 80 * n + 80 = 224 + 80 * n by omega]

theorem commands_eq (m : Mod) (F : List Byte) (h : writeModule m = some F) (hs : Small m F) :
    commands F = [(0x19, 32), (0x24, 104 + 80 * (ents m).length), (2, 120 + 80 * (ents m).length),
      (0xb, 144 + 80 * (ents m).length)] ∧ commandsEnd F = 224 + 80 * (ents m).length := by
  have h4 : nCmds F = 4 := (header_read m F h).2.2.2.1
  simp only [commands, commandsEnd, h4, walk_eq m F h hs, and_self]

theorem pos_eq (m : Mod) (F : List Byte) (h : writeModule m = some F) (hs : Small m F) :
    segPos F = 32 ∧ symPos F = 120 + 80 * (ents m).length ∧ dysymPos F = 144 + 80 * (ents m).length := by
  simp only [segPos, symPos, dysymPos, findCmd, (commands_eq m F h hs).1]
  simp [List.find?]

theorem seg_fields (m : Mod) (F : List Byte) (h : writeModule m = some F) (hs : Small m F) :
    vmSize F = dataSize m ∧ fileOff F = dataOfs m ∧ fileSize F = (((ents m).filter (fun e => e.kind.2.2 ≠ 1)).map (·.size)).sum % 2 ^ 64 ∧
    nSects F = (ents m).length := by
  have R := (read m F h).seg
  obtain ⟨b1, b2, b3⟩ := bounds m F h hs
  have c := secCount_eq m
  have z : (List.replicate 16 (0 : Byte)).length = 16 := by simp
  simp only [vmSize, fileOff, fileSize, nSects, (pos_eq m F h hs).1]
  rw [u64_at R 32 (by omega), u64_at R 40 (by omega), u64_at R 48 (by omega), u32_at R 64 (by omega)]
  simp only [segCmd, List.append_assoc]
  refine ⟨?_, ?_, ?_, ?_⟩
  · rw [u64_skip _ _ _ _ (by omega), u64_skip _ _ _ _ (by omega), u64_app _ _ _ (by omega), z, u64_skip _ _ _ _ (by omega), u64_le]
    exact Nat.mod_eq_of_lt (by omega)
  · rw [u64_skip _ _ _ _ (by omega), u64_skip _ _ _ _ (by omega), u64_app _ _ _ (by omega), z, u64_skip _ _ _ _ (by omega),
      u64_skip _ _ _ _ (by omega), u64_le]
    exact Nat.mod_eq_of_lt (by omega)
  · rw [u64_skip _ _ _ _ (by omega), u64_skip _ _ _ _ (by omega), u64_app _ _ _ (by omega), z, u64_skip _ _ _ _ (by omega),
      u64_skip _ _ _ _ (by omega), u64_skip _ _ _ _ (by omega), u64_le]
  · rw [u32_skip _ _ _ _ (by omega), u32_skip _ _ _ _ (by omega), u32_app _ _ _ (by omega), z, u32_skip _ _ _ _ (by omega),
      u32_skip _ _ _ _ (by omega), u32_skip _ _ _ _ (by omega), u32_skip _ _ _ _ (by omega), u32_skip _ _ _ _ (by omega),
      u32_skip _ _ _ _ (by omega), u32_le, c]
    exact Nat.mod_eq_of_lt (by omega)

theorem sym_fields (m : Mod) (F : List Byte) (h : writeModule m = some F) (hs : Small m F) :
    symOff F = dataOfs m + dataSize m + 8 * relocCount m ∧ symCount F = nSyms m ∧
    strOff F = dataOfs m + dataSize m + 8 * relocCount m + 16 * nSyms m ∧ strLen F = strSize m := by
  have R := (read m F h).sym
  obtain ⟨b1, b2, b3⟩ := bounds m F h hs
  simp only [symOff, symCount, strOff, strLen, (pos_eq m F h hs).2.1]
  rw [u32_at R 8 (by omega), u32_at R 12 (by omega), u32_at R 16 (by omega), u32_at R 20 (by omega)]
  simp only [symCmd, List.append_assoc]
  refine ⟨?_, ?_, ?_, ?_⟩
  · rw [u32_skip _ _ _ _ (by omega), u32_skip _ _ _ _ (by omega), u32_le, Nat.mod_eq_of_lt (by omega)]; omega
  · rw [u32_skip _ _ _ _ (by omega), u32_skip _ _ _ _ (by omega), u32_skip _ _ _ _ (by omega), u32_le, Nat.mod_eq_of_lt (by omega)]
  · rw [u32_skip _ _ _ _ (by omega), u32_skip _ _ _ _ (by omega), u32_skip _ _ _ _ (by omega), u32_skip _ _ _ _ (by omega),
      u32_le, Nat.mod_eq_of_lt (by omega)]; omega
  · rw [u32_skip _ _ _ _ (by omega), u32_skip _ _ _ _ (by omega), u32_skip _ _ _ _ (by omega), u32_skip _ _ _ _ (by omega),
      u32_skip _ _ _ _ (by omega), u32_le', Nat.mod_eq_of_lt (by omega)]

theorem dysym_fields (m : Mod) (F : List Byte) (h : writeModule m = some F) (hs : Small m F) :
    partition F = ((0, (locals m).length), ((locals m).length, (publics m).length),
      ((locals m).length + (publics m).length, (externals m).length)) := by
  have R := (read m F h).dysym
  obtain ⟨b1, b2, b3⟩ := bounds m F h hs
  simp only [partition, (pos_eq m F h hs).2.2]
  rw [u32_at R 8 (by omega), u32_at R 12 (by omega), u32_at R 16 (by omega), u32_at R 20 (by omega), u32_at R 24 (by omega),
    u32_at R 28 (by omega)]
  simp only [nSyms] at b3
  have e1 : nLocal m = (locals m).length := by rw [nLocal, locals_eq]
  have e2 : nPub m = (publics m).length := by rw [nPub, publics_eq]
  have e3 : nUndef m = (externals m).length := by rw [nUndef, externals_eq]
  rw [← e1, ← e2, ← e3]
  simp only [dysymCmd, List.append_assoc]
  simp only [Prod.mk.injEq]
  refine ⟨⟨?_, ?_⟩, ⟨?_, ?_⟩, ?_, ?_⟩
  · rw [u32_skip _ _ _ _ (by omega), u32_skip _ _ _ _ (by omega), u32_le]
  · rw [u32_skip _ _ _ _ (by omega), u32_skip _ _ _ _ (by omega), u32_skip _ _ _ _ (by omega), u32_le, Nat.mod_eq_of_lt (by omega)]
  · rw [u32_skip _ _ _ _ (by omega), u32_skip _ _ _ _ (by omega), u32_skip _ _ _ _ (by omega), u32_skip _ _ _ _ (by omega),
      u32_le, Nat.mod_eq_of_lt (by omega)]
  · rw [u32_skip _ _ _ _ (by omega), u32_skip _ _ _ _ (by omega), u32_skip _ _ _ _ (by omega), u32_skip _ _ _ _ (by omega),
      u32_skip _ _ _ _ (by omega), u32_le, Nat.mod_eq_of_lt (by omega)]
  · rw [u32_skip _ _ _ _ (by omega), u32_skip _ _ _ _ (by omega), u32_skip _ _ _ _ (by omega), u32_skip _ _ _ _ (by omega),
      u32_skip _ _ _ _ (by omega), u32_skip _ _ _ _ (by omega), u32_le, Nat.mod_eq_of_lt (by omega)]
  · rw [u32_skip _ _ _ _ (by omega), u32_skip _ _ _ _ (by omega), u32_skip _ _ _ _ (by omega), u32_skip _ _ _ _ (by omega),
      u32_skip _ _ _ _ (by omega), u32_skip _ _ _ _ (by omega), u32_skip _ _ _ _ (by omega), u32_le, Nat.mod_eq_of_lt (by omega)]

/-! ## Sections -/

theorem take_sum_le {α : Type} (f : α → Nat) : ∀ (l : List α) (j : Nat) (e : α), l[j]? = some e →
    ((l.take j).map f).sum + f e ≤ (l.map f).sum
  | [], j, e, h => by simp at h
  | x :: l, 0, e, h => by simp at h; subst h; simp
  | x :: l, j + 1, e, h => by
    have := take_sum_le f l j e (by simpa using h)
    simp only [List.take_succ_cons, List.map_cons, List.sum_cons]; omega

theorem ents_size_take (m : Mod) (j : Nat) : (((ents m).take j).map (·.size)).sum = sumW ((kept m).take j) := by
  rw [List.map_take, ents_eq, ents_sizes _ _ _ (kept_known m), sumW, List.map_take]

theorem sec_read (m : Mod) (hl : Laid m) (F : List Byte) (h : writeModule m = some F) (hs : Small m F) (j : Nat) (s : Sec)
    (hj : (kept m)[j]? = some s) : ∃ k, placeOf s.name = some k ∧
      (ents m)[j]? = some (entOf s k (j + 1) (sumW ((kept m).take j))) ∧
      dataOfs m + sumW ((kept m).take j) + s.written ≤ dataOfs m + dataSize m ∧
      fixSum m ((ents m).take j) + s.fixups.length ≤ relocCount m ∧
      secAt F j = ⟨k.1, k.2.1, sumW ((kept m).take j), s.written, dataOfs m + sumW ((kept m).take j), 0,
        if s.fixups.length = 0 then 0 else dataOfs m + dataSize m + 8 * fixSum m ((ents m).take j), s.fixups.length, k.2.2⟩ := by
  obtain ⟨k, hk, he⟩ := ents_get m j s hj
  obtain ⟨b1, b2, b3⟩ := bounds m F h hs
  have hmem : s ∈ kept m := List.mem_of_getElem? hj
  have hf := fixups_kept m hl s hmem k (j + 1) (sumW ((kept m).take j))
  have t1 := take_sum_le (·.written) (kept m) j s hj
  have t1' : sumW ((kept m).take j) + s.written ≤ dataSize m := by rw [dataSize_eq]; exact t1
  have t2 := take_sum_le (fun e => (fixupsOf m e).length) (ents m) j _ he
  rw [hf] at t2
  have t2' : fixSum m ((ents m).take j) + s.fixups.length ≤ relocCount m := t2
  refine ⟨k, hk, he, by omega, t2', ?_⟩
  have hg := section64s_get m (ents m) (dataOfs m) (dataOfs m + dataSize m) j _ he
  rw [ents_size_take] at hg
  obtain ⟨hlt, hd⟩ := List.getElem?_eq_some_iff.1 hg
  have hsl := slice_flatten 80 _ (section64s_recs m _ _ _) j hlt
  rw [hd] at hsl
  have hj' : j < (ents m).length := by rw [section64s_length] at hlt; exact hlt
  have R := (read m F h).secs
  have hsl' : slice F (104 + 80 * j) 80 = section64 m (entOf s k (j + 1) (sumW ((kept m).take j)))
      (dataOfs m + sumW ((kept m).take j)) (dataOfs m + dataSize m + 8 * fixSum m ((ents m).take j)) := by
    rw [← hsl, ← slice_slice F 104 (80 * (ents m).length) (80 * j) 80 (by omega), R]
    rfl
  rw [secAt, (pos_eq m F h hs).1, show 32 + 72 + 80 * j = 104 + 80 * j by omega, hsl']
  rw [decode_section m _ _ _ ⟨s.name, hk⟩ (by show sumW _ < _; omega) (by show s.written < _; omega) (by omega) (by omega) (by rw [hf]; omega)]
  rw [hf]
  rfl

/-- The bytes of a section. -/
theorem flat_get {α : Type} : ∀ (l : List (List α)) (j : Nat) d, l[j]? = some d →
    (l.flatten.drop ((l.take j).map List.length).sum).take d.length = d
  | [], j, d, h => by simp at h
  | x :: l, 0, d, h => by simp at h; subst h; simp
  | x :: l, j + 1, d, h => by
    have := flat_get l j d (by simpa using h)
    simp only [List.take_succ_cons, List.map_cons, List.sum_cons, List.flatten_cons]
    rw [← List.drop_drop, List.drop_left]
    exact this

theorem data_read (m : Mod) (F : List Byte) (h : writeModule m = some F) (j : Nat) (s : Sec)
    (hj : (kept m)[j]? = some s) (hle : sumW ((kept m).take j) + s.written ≤ dataSize m) :
    slice F (dataOfs m + sumW ((kept m).take j)) s.written = (List.range s.written).map s.buf := by
  have R := (read m F h).data
  rw [← slice_slice F (dataOfs m) (dataSize m) _ _ hle, R, secData, ents_eq, ents_data _ _ _ (kept_known m)]
  have := flat_get ((kept m).map (fun s => (List.range s.written).map s.buf)) j ((List.range s.written).map s.buf)
    (by rw [List.getElem?_map, hj]; rfl)
  rw [← List.map_take, List.map_map] at this
  simp only [List.length_map, List.length_range, Function.comp_def] at this
  exact this

/-! ## Relocations -/

theorem flatMap_get {α β : Type} (g : α → List β) : ∀ (l : List α) (j k : Nat) (e : α) (x : β), l[j]? = some e → (g e)[k]? = some x →
    (l.flatMap g)[((l.take j).map (fun e => (g e).length)).sum + k]? = some x
  | [], j, k, e, x, h, _ => by simp at h
  | y :: l, 0, k, e, x, h, hk => by
    simp at h; subst h
    obtain ⟨hlt, _⟩ := List.getElem?_eq_some_iff.1 hk
    simp only [List.take_zero, List.map_nil, List.sum_nil, Nat.zero_add, List.flatMap_cons]
    rw [List.getElem?_append_left hlt, hk]
  | y :: l, j + 1, k, e, x, h, hk => by
    have := flatMap_get g l j k e x (by simpa using h) hk
    simp only [List.take_succ_cons, List.map_cons, List.sum_cons, List.flatMap_cons]
    rw [List.getElem?_append_right (by omega), ← this]
    congr 1; omega

theorem rel_read (m : Mod) (hl : Laid m) (F : List Byte) (h : writeModule m = some F) (hs : Small m F) (j : Nat) (s : Sec)
    (hj : (kept m)[j]? = some s) : ∃ e, e.idx = j + 1 ∧ relocsAt F j = s.fixups.map (fun f => decodeRel (reloc m e f)) := by
  obtain ⟨k, hk, he, b1, b2, hd⟩ := sec_read m hl F h hs j s hj
  have hmem : s ∈ kept m := List.mem_of_getElem? hj
  have hf := fixups_kept m hl s hmem k (j + 1) (sumW ((kept m).take j))
  refine ⟨entOf s k (j + 1) (sumW ((kept m).take j)), rfl, ?_⟩
  rw [relocsAt, hd]
  simp only
  have R := (read m F h).rel
  apply List.ext_getElem?
  intro i
  rw [List.getElem?_map, List.getElem?_map]
  by_cases hi : i < s.fixups.length
  · rw [List.getElem?_range hi, List.getElem?_eq_getElem hi]
    simp only [Option.map_some]
    congr 2
    rw [if_neg (by omega)]
    have hg := flatMap_get (fun e => (fixupsOf m e).map (reloc m e)) (ents m) j i _ (reloc m (entOf s k (j + 1) (sumW ((kept m).take j))) s.fixups[i]) he
      (by rw [hf, List.getElem?_map, List.getElem?_eq_getElem hi]; rfl)
    simp only [List.length_map] at hg
    have hg' : (relocs m)[fixSum m ((ents m).take j) + i]? = some (reloc m (entOf s k (j + 1) (sumW ((kept m).take j))) s.fixups[i]) := hg
    obtain ⟨hlt, hx⟩ := List.getElem?_eq_some_iff.1 hg'
    have := slice_flatten 8 _ (relocs_recs m) _ hlt
    rw [hx] at this
    rw [← this, ← R, slice_slice _ _ _ _ _ (by omega)]
    congr 1; omega
  · rw [List.getElem?_eq_none (by simpa using hi), List.getElem?_eq_none (by simpa using hi)]
    rfl

/-- The fields of a relocation entry. -/
theorem decode_reloc (m : Mod) (e : Ent) (f : Fix) (hl : f.locofs < 2 ^ 31) (he : e.idx < 2 ^ 24) :
    decodeRel (reloc m e f) = ⟨f.locofs, match f.sym with | some n => (symbolIndex m n + (2 ^ 24 - 1)) % 2 ^ 24 | none => e.idx, 1,
      lengthOf f.addbytes, match f.sym with | some _ => 1 | none => 0, machoType f⟩ := by
  have hL : lengthOf f.addbytes < 4 := by simp only [lengthOf]; repeat' split
                                          all_goals omega
  have hT : machoType f < 16 := by simp only [machoType]; repeat' split
                                   all_goals omega
  simp only [decodeRel, reloc]
  rw [u32_le, u32_skip _ _ _ _ (by omega), Nat.sub_self, u32_le']
  have key : ∀ S E L T : Nat, S < 2 ^ 24 → E < 2 → L < 4 → T < 16 → ∀ w, w = S + 2 ^ 24 * 1 + 2 ^ 25 * L + 2 ^ 27 * E + 2 ^ 28 * T →
      w % 2 ^ 32 % 2 ^ 24 = S ∧ w % 2 ^ 32 / 2 ^ 24 % 2 = 1 ∧ w % 2 ^ 32 / 2 ^ 25 % 4 = L ∧ w % 2 ^ 32 / 2 ^ 27 % 2 = E ∧
      w % 2 ^ 32 / 2 ^ 28 % 16 = T := by
    intro S E L T h1 h2 h3 h4 w hw
    refine ⟨?_, ?_, ?_, ?_, ?_⟩ <;> omega
  have hlo : f.locofs % 2 ^ 32 = f.locofs := Nat.mod_eq_of_lt (by omega)
  cases hsym : f.sym with
  | none =>
    obtain ⟨k1, k2, k3, k4, k5⟩ := key e.idx 0 _ _ he (by omega) hL hT _ rfl
    simp only [k1, k2, k3, k4, k5, hlo]
  | some n =>
    obtain ⟨k1, k2, k3, k4, k5⟩ := key ((symbolIndex m n + (2 ^ 24 - 1)) % 2 ^ 24) 1 _ _ (Nat.mod_lt _ (by omega)) (by omega) hL hT _ rfl
    simp only [k1, k2, k3, k4, k5, hlo]

end Verif.Macho
