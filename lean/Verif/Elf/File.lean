import Verif.Elf.Layout
import Verif.Elf.Headers
import Verif.Elf.Syms
/-! # The file as a whole: the pieces written by elf_write_module and how the reader finds them -/
namespace Verif.Elf
open Coff (Byte le ascii u8 u16 u32 slice cstr slice_flatten length_flatten map_range_getElem slice_ctx slice_full
  u8_slice u16_slice u32_slice u8_append_left u16_le u32_le le_length)

/-! ## Sizes and offsets -/

theorem shstr_sum (b : Bool) : ∀ l : List Sec, (l.map (fun s => (secName s).length + 1 +
        (if s.fixups.isEmpty then 0 else (secName s).length + ((relPrefix b).length + 1)))).sum
    = (l.flatMap (fun s => secName s ++ [0])).length +
      ((l.filter (fun s => !s.fixups.isEmpty)).flatMap (fun s => relPrefix b ++ secName s ++ [0])).length
  | [] => by simp
  | s :: l => by
    have ih := shstr_sum b l
    simp only [List.map_cons, List.sum_cons, ih, List.flatMap_cons, List.length_append, List.filter_cons]
    cases h : s.fixups.isEmpty
    · simp; omega
    · simp; omega

theorem shstr_size (m : Mod) : shstrSize m = (shstrData m).length := by
  simp only [shstrSize, shstr_sum, shstrData, List.length_append]
  have : (intNames.flatMap (fun n => n ++ [0])).length = (intNames.map (fun n => n.length + 1)).sum := by decide
  rw [this]
  simp only [List.length_cons, List.length_nil]
  omega

def off0 (m : Mod) : Nat := align16 (ehSize m.b64 + shNum m * shSize m.b64)
def o1 (m : Mod) : Nat := secEnd (off0 m) m.secs
def o2 (m : Mod) : Nat := align16 (o1 m + shstrSize m)
def nSyms (m : Mod) : Nat := (symtab m (localSt m).locals).1.length
def o3 (m : Mod) : Nat := align16 (o2 m + nSyms m * symSize m.b64)
def strSize (m : Mod) : Nat := (strData m (localSt m).locals).length
def o4 (m : Mod) : Nat := align16 (o3 m + strSize m)
def symData (m : Mod) : List Byte := (symtab m (localSt m).locals).1.flatten

/-- Section table entries of the internal sections. -/
def hShstr (m : Mod) (q : Nat) : List Byte := shdr m.b64 q 3 0 (o1 m) (shstrSize m) 0 0 1 0
def hSym (m : Mod) (q : Nat) : List Byte :=
  shdr m.b64 q 2 0 (o2 m) (nSyms m * symSize m.b64) (1 + m.secs.length + 2) (localSt m).index 4 (symSize m.b64)
def hStr (m : Mod) (q : Nat) : List Byte := shdr m.b64 q 3 0 (o3 m) (strSize m) 0 0 1 0

def internals (m : Mod) : List (Nat × List Byte) :=
  [(o1 m, shstrData m), (o2 m, symData m), (o3 m, strData m (localSt m).locals)]

theorem shstr_drop (m : Mod) : (shstrData m).drop 1 = m.secs.flatMap (fun s => secName s ++ [0]) ++
    (intNames.flatMap (fun n => n ++ [0])
    ++ ((m.secs.filter hasFix).flatMap (fun s => relPrefix m.b64 ++ secName s ++ [0]) ++ [])) := by
  have e : (m.secs.filter hasFix) = m.secs.filter (fun s => !s.fixups.isEmpty) := rfl
  rw [e]; simp [shstrData]

theorem secName_no_zero (m : Mod) (hm : ModOk m) : ∀ s ∈ m.secs, (0 : Byte) ∉ secName s := by
  intro s hs
  have h := hm.secNames s hs
  rw [secName_eq, sectionName]
  cases ha : s.aliasName with
  | none => exact elfName_no_zero _ h.1
  | some a => exact h.2 a ha

theorem symData_length (m : Mod) (h : ∀ r ∈ (symtab m (localSt m).locals).1, r.length = symSize m.b64) :
    (symData m).length = nSyms m * symSize m.b64 := by
  rw [symData, length_flatten _ _ h, nSyms, Nat.mul_comm]

/-- Records do not depend on the string table. -/
theorem symtab_recs (m : Mod) (locals : List Nat) : ∀ r ∈ (symtab m locals).1, r.length = symSize m.b64 := by
  have R : ∀ fields (l : List Nat) k, ∀ r ∈ (recsOf m.b64 m.env fields k l).1, r.length = symSize m.b64 := by
    intro fields l
    induction l with
    | nil => intro k r h; simp [recsOf] at h
    | cons x l ih =>
      intro k r h
      simp only [recsOf, List.mem_cons] at h
      rcases h with rfl | h
      · exact symRec_length ..
      · exact ih _ r h
  intro r hr
  simp only [symtab, List.mem_append, List.mem_cons, List.mem_map] at hr
  rcases hr with ((h | h) | h) | h
  · rcases h with rfl | rfl | ⟨i, _, rfl⟩
    · simp [symSize]
    · exact symRec_length ..
    · exact symRec_length ..
  · exact R _ _ _ r h
  · exact R _ _ _ r h
  · exact R _ _ _ r h

theorem out_spec (m : Mod) (hm : ModOk m) : ∃ sh rh q1 q2 q3,
    (output m).hdrs = List.replicate (shSize m.b64) 0 :: (sh ++ ([hShstr m q1, hSym m q2, hStr m q3] ++ rh)) ∧
    (output m).writes = secWrites m.secs (secOffs (off0 m) m.secs) ++ (internals m ++ relWrites m m.secs (relOffs m (o4 m) m.secs)) ∧
    (cstr (shstrData m) q1 = ascii ".shstrtab" ∧ q1 < shstrSize m) ∧
    (cstr (shstrData m) q2 = ascii ".symtab" ∧ q2 < shstrSize m) ∧
    (cstr (shstrData m) q3 = ascii ".strtab" ∧ q3 < shstrSize m) ∧
    sh.length = m.secs.length ∧ (∀ r ∈ sh, r.length = shSize m.b64) ∧
    (∀ (i : Nat) s, m.secs[i]? = some s → ∃ q o, (secOffs (off0 m) m.secs)[i]? = some o ∧
      cstr (shstrData m) q = secName s ∧ q < shstrSize m ∧
      sh[i]? = some (shdr m.b64 q (shType s) (shFlags s) o s.size 0 0 (alignOf s) 0)) ∧
    rh.length = (m.secs.filter hasFix).length ∧ (∀ r ∈ rh, r.length = shSize m.b64) ∧
    (∀ (i : Nat) s, m.secs[i]? = some s → s.fixups ≠ [] → ∃ q o, (relOffs m (o4 m) m.secs)[i]? = some o ∧
      cstr (shstrData m) q = relPrefix m.b64 ++ secName s ∧ q < shstrSize m ∧
      rh[((m.secs.take i).filter hasFix).length]? = some (shdr m.b64 q (if m.b64 then 4 else 9) 0 o (relSz m s)
        (1 + m.secs.length + 1) (i + 1) 4 (if m.b64 then 24 else 8))) := by
  have ht : buffer (shstrSize m) (shstrData m) = shstrData m := buffer_self _ _ (shstr_size m)
  have hz := secName_no_zero m hm
  obtain ⟨s1, s2, s3, s4, s5, s6⟩ := secHdrs_spec m.b64 (shstrData m) m.secs (off0 m) 1 _ (shstr_drop m) hz
  generalize hsh : secHdrs m.b64 (shstrData m) (off0 m) 1 m.secs = SH at s1 s2 s3 s4 s5 s6
  have n1 : (shstrData m).drop SH.2.2.2 = ascii ".shstrtab" ++ 0 :: (ascii ".symtab" ++ 0 :: (ascii ".strtab" ++ 0 ::
      ((m.secs.filter hasFix).flatMap (fun s => relPrefix m.b64 ++ secName s ++ [0]) ++ []))) := by
    rw [s4]; simp [intNames]
  obtain ⟨a1, a2, a3, a4⟩ := name_step _ _ _ _ n1 (by decide)
  obtain ⟨b1, b2, b3, b4⟩ := name_step _ _ _ _ a2 (by decide)
  obtain ⟨c1, c2, c3, c4⟩ := name_step _ _ _ _ b2 (by decide)
  obtain ⟨r1, r2, r3, r4⟩ := relHdrs_spec m (shstrData m) m.secs 0 (o4 m) _ _ c2 hz
  have hbs : buffer (symtab m (localSt m).locals).2 (strData m (localSt m).locals) = strData m (localSt m).locals :=
    buffer_self _ _ (symtab_size m _)
  have hsz : nSyms m * symSize m.b64 = (symData m).length := (symData_length m (symtab_recs m _)).symm
  have hsd : buffer (nSyms m * symSize m.b64) (symData m) = symData m := buffer_self _ _ hsz
  have hout : output m = ⟨List.replicate (shSize m.b64) 0 :: SH.1 ++ [hShstr m SH.2.2.2,
      hSym m (nextName (shstrData m) SH.2.2.2), hStr m (nextName (shstrData m) (nextName (shstrData m) SH.2.2.2))] ++
      (relHdrs m (shstrData m) 0 (o4 m) (nextName (shstrData m) (nextName (shstrData m) (nextName (shstrData m) SH.2.2.2))) m.secs).1,
      secWrites m.secs (secOffs (off0 m) m.secs) ++ internals m ++
      relWrites m m.secs (relHdrs m (shstrData m) 0 (o4 m) (nextName (shstrData m) (nextName (shstrData m)
        (nextName (shstrData m) SH.2.2.2))) m.secs).2.1⟩ := by
    simp only [output, ht, hbs, intHdrs]
    rw [show align16 (ehSize m.b64 + shNum m * shSize m.b64) = off0 m from rfl, hsh, s2, s3,
      show secEnd (off0 m) m.secs = o1 m from rfl, symtab_size, extIdx_count m hm,
      show (symtab m (localSt m).locals).1.length = nSyms m from rfl,
      show (symtab m (localSt m).locals).1.flatten = symData m from rfl, hsd]
    rfl
  rw [hout]
  refine ⟨SH.1, _, _, _, _, ?_, ?_, ⟨a1, ?_⟩, ⟨b1, ?_⟩, ⟨c1, ?_⟩, s1, s5, ?_, r1, r3, ?_⟩
  · simp
  · simp only [r2, List.append_assoc]
  · rw [shstr_size]; exact a4
  · rw [shstr_size]; exact b4
  · rw [shstr_size]; exact c4
  · intro i s hi
    rw [shstr_size]
    exact s6 i s hi
  · intro i s hi hf
    obtain ⟨q, o, e1, e2, e3, e4⟩ := r4 i s hi hf
    refine ⟨q, o, e1, e2, by rw [shstr_size]; exact e3, ?_⟩
    rw [e4, Nat.zero_add]

/-! ## The file -/

theorem ehdr_length (m : Mod) : (ehdr m).length = ehSize m.b64 := by
  simp only [ehdr, ehSize]; cases m.b64 <;> simp

/-- All pieces behind the section table. -/
def pieces (m : Mod) : List (Nat × List Byte) :=
  fullWrites m.secs (secOffs (off0 m) m.secs) ++ (internals m ++ relWrites m m.secs (relOffs m (o4 m) m.secs))

theorem tail_chain (m : Mod) : Chain (o1 m) (internals m ++ relWrites m m.secs (relOffs m (o4 m) m.secs)) := by
  simp only [internals, List.cons_append, List.nil_append]
  refine ⟨Nat.le_refl _, ?_, ?_, ?_⟩
  · show o1 m + (shstrData m).length ≤ o2 m
    rw [← shstr_size]; exact align16_le _
  · show o2 m + (symData m).length ≤ o3 m
    rw [symData_length m (symtab_recs m _)]; exact align16_le _
  · exact rel_chain m m.secs _ _ (align16_le _)

theorem file_eq (m : Mod) (hm : ModOk m) (F : List Byte) (h : writeModule m = some F) :
    (ehdr m ++ (output m).hdrs.flatten).length = ehSize m.b64 + shNum m * shSize m.b64 ∧
    Chain (ehSize m.b64 + shNum m * shSize m.b64) (pieces m) ∧
    F = ehdr m ++ ((output m).hdrs.flatten ++ lay (ehSize m.b64 + shNum m * shSize m.b64) (pieces m)) := by
  obtain ⟨sh, rh, q1, q2, q3, e1, e2, -, -, -, h1, h2, -, h3, h4, -⟩ := out_spec m hm
  have hall : ∀ r ∈ (output m).hdrs, r.length = shSize m.b64 := by
    intro r hr
    rw [e1] at hr
    simp only [List.mem_cons, List.mem_append, List.not_mem_nil, or_false] at hr
    rcases hr with rfl | hr | (rfl | rfl | rfl) | hr
    · simp
    · exact h2 r hr
    · exact shdr_length ..
    · exact shdr_length ..
    · exact shdr_length ..
    · exact h4 r hr
  have hlen : (output m).hdrs.length = shNum m := by
    rw [e1]
    simp only [List.length_cons, List.length_append, h1, h3, shNum, List.length_nil]
    have : (m.secs.filter hasFix) = m.secs.filter (fun s => !s.fixups.isEmpty) := rfl
    rw [this]; omega
  have hL : (ehdr m ++ (output m).hdrs.flatten).length = ehSize m.b64 + shNum m * shSize m.b64 := by
    rw [List.length_append, ehdr_length, length_flatten _ _ hall, hlen, Nat.mul_comm]
  obtain ⟨c1, c2, c3⟩ := sec_lay m.secs (off0 m) (ehSize m.b64 + shNum m * shSize m.b64)
    (internals m ++ relWrites m m.secs (relOffs m (o4 m) m.secs)) (align16_le _) (by simp [internals]) (tail_chain m) hm.start
  refine ⟨hL, c2, ?_⟩
  simp only [writeModule] at h
  split at h
  · cases h
  · have h := (Option.some.inj h).symm
    rw [h, e2, foldl_writeAt _ _ (by rw [hL]; exact c1), hL, c3, List.append_assoc]
    rfl

theorem piece_read (m : Mod) (hm : ModOk m) (F : List Byte) (h : writeModule m = some F) (w : Nat × List Byte) (hw : w ∈ pieces m) :
    slice F w.1 w.2.length = w.2 ∧ w.1 + w.2.length ≤ F.length := by
  obtain ⟨hL, hc, hF⟩ := file_eq m hm F h
  obtain ⟨a, b, c⟩ := lay_slice _ _ hc w hw
  rw [← List.append_assoc] at hF
  constructor
  · rw [hF]
    have := slice_ctx (ehdr m ++ (output m).hdrs.flatten) (lay (ehSize m.b64 + shNum m * shSize m.b64) (pieces m)) []
      (w.1 - (ehSize m.b64 + shNum m * shSize m.b64)) w.2.length (by omega)
    rw [hL, Nat.add_sub_cancel' a, List.append_nil] at this
    rw [this, b]
  · rw [hF, List.length_append, hL]; omega

theorem shnum_lt (m : Mod) (hm : ModOk m) : shNum m < 0xff00 := by
  have := hm.nsecs
  simp only [shNum]; omega

/-! ### The ELF header -/

theorem u8_left {a b : List Byte} {i : Nat} (h : i < a.length) : u8 (a ++ b) i = u8 a i := u8_append_left a b i h
theorem u16_left {a b : List Byte} {i : Nat} (h : i + 1 < a.length) : u16 (a ++ b) i = u16 a i := by
  simp only [u16, u8_left (b := b) (show i < a.length by omega), u8_left (b := b) h]
theorem u32_left {a b : List Byte} {i : Nat} (h : i + 3 < a.length) : u32 (a ++ b) i = u32 a i := by
  simp only [u32, u16_left (b := b) (show i + 1 < a.length by omega), u16_left (b := b) (show i + 2 + 1 < a.length by omega)]
theorem u64_left {a b : List Byte} {i : Nat} (h : i + 7 < a.length) : u64 (a ++ b) i = u64 a i := by
  simp only [u64, u32_left (b := b) (show i + 3 < a.length by omega), u32_left (b := b) (show i + 4 + 3 < a.length by omega)]

theorem u8_cons (x : Byte) (r : List Byte) (i : Nat) : u8 (x :: r) (i + 1) = u8 r i := by simp [u8]
theorem u16_cons (x : Byte) (r : List Byte) (i : Nat) : u16 (x :: r) (i + 1) = u16 r i := by simp [u16, u8_cons]
theorem u32_cons (x : Byte) (r : List Byte) (i : Nat) : u32 (x :: r) (i + 1) = u32 r i := by
  simp only [u32, u16_cons, show i + 1 + 2 = (i + 2) + 1 by omega]
theorem u64_cons (x : Byte) (r : List Byte) (i : Nat) : u64 (x :: r) (i + 1) = u64 r i := by
  simp only [u64, u32_cons, show i + 1 + 4 = (i + 4) + 1 by omega]

theorem header_read (m : Mod) (r : List Byte) : isElf (ehdr m ++ r) ∧ is64 (ehdr m ++ r) = m.b64 ∧
    eType (ehdr m ++ r) = 1 ∧ eMachine (ehdr m ++ r) = (if m.b64 then 62 else 3) ∧
    eShoff (ehdr m ++ r) = ehSize m.b64 ∧ eShentsize (ehdr m ++ r) = shSize m.b64 ∧
    eShnum (ehdr m ++ r) = shNum m % 65536 ∧ eShstrndx (ehdr m ++ r) = (1 + m.secs.length) % 65536 := by
  have hb : is64 (ehdr m ++ r) = m.b64 := by
    cases h : m.b64 <;> simp [is64, ehdr, h, u8]
  refine ⟨by simp [isElf, ehdr], hb, ?_, ?_, ?_, ?_, ?_, ?_⟩
  all_goals simp only [eType, eMachine, eShoff, eShentsize, eShnum, eShstrndx, hb]
  all_goals cases h : m.b64
  all_goals simp only [ehdr, h, List.append_assoc, Bool.false_eq_true, if_false, if_true, ehSize, shSize, List.cons_append,
    u16_cons, u32_cons, u64_cons, List.nil_append]
  all_goals simp [u16_skip, u32_skip, u64_skip, u16_le, u32_le, u64_le]

/-- A section header in the file. -/
theorem shdr_read (m : Mod) (hm : ModOk m) (F : List Byte) (h : writeModule m = some F) (i : Nat) (d : List Byte)
    (hi : (output m).hdrs[i]? = some d) : shdrAt F i = decodeShdr m.b64 d := by
  obtain ⟨hL, hc, hF⟩ := file_eq m hm F h
  obtain ⟨-, hb, -, -, ho, he, -, -⟩ := header_read m ((output m).hdrs.flatten ++ lay (ehSize m.b64 + shNum m * shSize m.b64) (pieces m))
  rw [← hF] at hb ho he
  obtain ⟨sh, rh, q1, q2, q3, e1, -, -, -, -, h1, h2, -, h3, h4, -⟩ := out_spec m hm
  have hall : ∀ r ∈ (output m).hdrs, r.length = shSize m.b64 := by
    intro r hr
    rw [e1] at hr
    simp only [List.mem_cons, List.mem_append, List.not_mem_nil, or_false] at hr
    rcases hr with rfl | hr | (rfl | rfl | rfl) | hr
    · simp
    · exact h2 r hr
    · exact shdr_length ..
    · exact shdr_length ..
    · exact shdr_length ..
    · exact h4 r hr
  obtain ⟨hlt, hd⟩ := List.getElem?_eq_some_iff.1 hi
  have hs := slice_flatten _ _ hall i hlt
  rw [hd] at hs
  have hf : slice F (ehSize m.b64 + shSize m.b64 * i) (shSize m.b64) = d := by
    rw [hF, ← ehdr_length m, slice_ctx _ _ _ _ _ ?_, hs]
    rw [length_flatten _ _ hall]
    calc shSize m.b64 * i + shSize m.b64 = shSize m.b64 * (i + 1) := by rw [Nat.mul_succ]
      _ ≤ _ := Nat.mul_le_mul_left _ hlt
  simp only [shdrAt, ho, he, hb]
  rw [← hf]
  cases hb64 : m.b64
  · simp only [decodeShdr, Bool.false_eq_true, if_false, shSize]
    rw [u32_slice _ _ _ 0 (by omega), u32_slice _ _ _ 4 (by omega), u32_slice _ _ _ 8 (by omega), u32_slice _ _ _ 12 (by omega),
      u32_slice _ _ _ 16 (by omega), u32_slice _ _ _ 20 (by omega), u32_slice _ _ _ 24 (by omega), u32_slice _ _ _ 28 (by omega),
      u32_slice _ _ _ 32 (by omega), u32_slice _ _ _ 36 (by omega)]
    rfl
  · simp only [decodeShdr, if_true, shSize]
    rw [u32_slice _ _ _ 0 (by omega), u32_slice _ _ _ 4 (by omega), u64_slice _ _ _ 8 (by omega), u64_slice _ _ _ 16 (by omega),
      u64_slice _ _ _ 24 (by omega), u64_slice _ _ _ 32 (by omega), u32_slice _ _ _ 40 (by omega), u32_slice _ _ _ 44 (by omega),
      u64_slice _ _ _ 48 (by omega), u64_slice _ _ _ 56 (by omega)]
    rfl

theorem W_ge (b : Bool) : 2 ^ 32 ≤ W b := by cases b <;> simp [W]

/-- Records of equal size are recovered. -/
theorem chunks_flatten (n : Nat) (hn : 0 < n) (R : List (List Byte)) (h : ∀ r ∈ R, r.length = n) : chunks n R.flatten = R := by
  simp only [chunks, length_flatten n R h, Nat.mul_div_cancel_left _ hn]
  exact map_range_getElem R _ (fun k hk => slice_flatten n R h k hk)

end Verif.Elf
