import Verif.Macho.Layout
/-! The string list and the symbol table. -/
namespace Verif.Macho
open Coff (Byte le ascii u8 u16 u32 slice cstr u16_le u32_le takeWhile_append_stop slice_flatten)
open Elf (u64 u64_le u64_le' u8_skip u16_skip u32_skip u64_skip u8_le)

/-! ## Which symbols -/

theorem elig_real (y : Sym) : eligible y = real y := by
  simp only [eligible, real]; cases y.state <;> simp

theorem locals_eq (m : Mod) : m.syms.filter isLocal = locals m := by
  simp only [locals]
  congr 1; funext y
  simp only [isLocal, elig_real]
  cases real y <;> cases decide (y.name = ascii "$xdatasym") <;> simp [Bool.and_comm, Bool.and_left_comm, Bool.and_assoc]

theorem publics_eq (m : Mod) : m.syms.filter isPub = publics m := by
  simp only [publics]
  congr 1; funext y
  simp only [isPub, elig_real]

theorem externals_eq (m : Mod) : m.syms.filter isUndef = externals m := by
  simp only [externals]
  congr 1; funext y
  simp only [isUndef, elig_real, beq_iff_eq]
  cases y.state <;> simp

/-! ## macho_add_string -/

def lenSum (l : List Sym) : Nat := (l.map (fun y => y.name.length + 1)).sum

/-- The list with positions and string offsets. -/
def numbered : Nat → Nat → List Sym → List Str
  | _, _, [] => []
  | i, o, y :: r => ⟨y, i, o⟩ :: numbered (i + 1) (o + (y.name.length + 1)) r

theorem numbered_append : ∀ (l r : List Sym) (i o : Nat),
    numbered i o (l ++ r) = numbered i o l ++ numbered (i + l.length) (o + lenSum l) r
  | [], r, i, o => by simp [numbered, lenSum]
  | y :: l, r, i, o => by
    simp only [List.cons_append, numbered, numbered_append l r, List.length_cons, lenSum, List.map_cons, List.sum_cons]
    rw [show i + 1 + l.length = i + (l.length + 1) by omega,
      show o + (y.name.length + 1) + (l.map (fun y => y.name.length + 1)).sum =
        o + (y.name.length + 1 + (l.map (fun y => y.name.length + 1)).sum) by omega]

theorem numbered_last : ∀ (l : List Sym) (i o d : Nat), (numbered i o l).foldl (fun _ s => s.idx) d
    = if l = [] then d else i + l.length - 1
  | [], _, _, _ => by simp [numbered]
  | y :: l, i, o, d => by
    simp only [numbered, List.foldl_cons, numbered_last l, List.length_cons]
    split
    · rename_i h; simp [h]
    · rw [if_neg (by simp)]; omega

theorem numbered_sum : ∀ (l : List Sym) (i o : Nat), ((numbered i o l).map (fun s => s.sym.name.length + 1)).sum = lenSum l
  | [], _, _ => by simp [numbered, lenSum]
  | y :: l, i, o => by
    have := numbered_sum l (i + 1) (o + (y.name.length + 1))
    simp only [numbered, List.map_cons, List.sum_cons, this, lenSum]

theorem addString_numbered (l : List Sym) (y : Sym) : addString (numbered 1 1 l) y = numbered 1 1 (l ++ [y]) := by
  rw [numbered_append]
  cases l with
  | nil => simp [numbered, addString, lenSum]
  | cons x r =>
    simp only [numbered, addString, numbered_last, numbered_sum, lenSum, List.length_cons, List.map_cons, List.sum_cons]
    congr 3
    · split
      · rename_i h; simp [h]
      · rename_i h
        have : r.length ≠ 0 := by simpa using h
        omega
    · omega

theorem foldl_numbered : ∀ (r l : List Sym), r.foldl addString (numbered 1 1 l) = numbered 1 1 (l ++ r)
  | [], l => by simp
  | y :: r, l => by
    rw [List.foldl_cons, addString_numbered, foldl_numbered r, List.append_assoc]; rfl

theorem strings_eq (m : Mod) : strings m = numbered 1 1 (listed m) := by
  rw [strings, locals_eq, publics_eq, externals_eq, listed]
  have := foldl_numbered (locals m) []
  rw [show numbered 1 1 [] = [] from rfl, List.nil_append] at this
  rw [this, foldl_numbered, foldl_numbered]

theorem numbered_length : ∀ (l : List Sym) (i o : Nat), (numbered i o l).length = l.length
  | [], _, _ => rfl
  | y :: l, i, o => by simp [numbered, numbered_length l]

theorem numbered_get : ∀ (l : List Sym) (i o k : Nat) y, l[k]? = some y →
    (numbered i o l)[k]? = some ⟨y, i + k, o + lenSum (l.take k)⟩
  | [], _, _, k, y, h => by simp at h
  | x :: l, i, o, 0, y, h => by simp at h; subst h; simp [numbered, lenSum]
  | x :: l, i, o, k + 1, y, h => by
    rw [numbered, List.getElem?_cons_succ, numbered_get l _ _ k y (by simpa using h)]
    simp only [lenSum, List.take_succ_cons, List.map_cons, List.sum_cons]
    congr 2 <;> omega

theorem numbered_syms : ∀ (l : List Sym) (i o : Nat), (numbered i o l).map (·.sym) = l
  | [], _, _ => rfl
  | y :: l, i, o => by simp [numbered, numbered_syms l]

theorem numbered_find : ∀ (l : List Sym) (i o : Nat) (n : List Byte) (p : Str → Bool), (∀ s, p s = true ↔ n = s.sym.name) →
    n ∉ l.map (·.name) → (numbered i o l).find? p = none
  | [], _, _, _, _, _, _ => rfl
  | y :: l, i, o, n, p, hp, h => by
    simp only [List.map_cons, List.mem_cons, not_or] at h
    rw [numbered, List.find?_cons_of_neg (fun hc => h.1 ((hp _).1 hc))]
    exact numbered_find l _ _ n p hp h.2

theorem numbered_find_some : ∀ (l : List Sym) (i o k : Nat) (y : Sym) (p : Str → Bool), (∀ s, p s = true ↔ y.name = s.sym.name) →
    (l.map (·.name)).Nodup → l[k]? = some y → ∃ o', (numbered i o l).find? p = some ⟨y, i + k, o'⟩
  | [], _, _, k, y, _, _, _, h => by simp at h
  | x :: l, i, o, 0, y, p, hp, _, h => by
    simp at h; subst h
    exact ⟨o, by rw [numbered, List.find?_cons_of_pos ((hp _).2 rfl)]; simp⟩
  | x :: l, i, o, k + 1, y, p, hp, hn, h => by
    simp only [List.map_cons, List.nodup_cons] at hn
    have hy : l[k]? = some y := by simpa using h
    have hne : y.name ≠ x.name := by
      intro e
      exact hn.1 (by rw [← e]; exact List.mem_map.2 ⟨y, List.mem_of_getElem? hy, rfl⟩)
    obtain ⟨o', ho⟩ := numbered_find_some l (i + 1) (o + (x.name.length + 1)) k y p hp hn.2 hy
    refine ⟨o', ?_⟩
    rw [numbered, List.find?_cons_of_neg (fun hc => hne ((hp _).1 hc)), ho]
    congr 2; omega

theorem symbolIndex_get (m : Mod) (h : ((listed m).map (·.name)).Nodup) (k : Nat) (y : Sym) (hk : (listed m)[k]? = some y) :
    symbolIndex m y.name = k + 1 := by
  obtain ⟨o', ho⟩ := numbered_find_some (listed m) 1 1 k y (fun s => decide (y.name = s.sym.name)) (by intro s; exact decide_eq_true_iff) h hk
  simp only [symbolIndex, strings_eq, ho]
  omega

theorem symbolIndex_none (m : Mod) (n : List Byte) (h : n ∉ (listed m).map (·.name)) : symbolIndex m n = 0 := by
  have := numbered_find (listed m) 1 1 n (fun s => decide (n = s.sym.name)) (by intro s; exact decide_eq_true_iff) h
  simp only [symbolIndex, strings_eq, this]

/-! ## The string table -/

theorem strData_eq (m : Mod) : strData m = 0 :: (listed m).flatMap (fun y => y.name ++ [0]) := by
  rw [strData, strings_eq]
  rw [show (numbered 1 1 (listed m)).flatMap (fun s => s.sym.name ++ [0])
    = ((numbered 1 1 (listed m)).map (·.sym)).flatMap (fun y => y.name ++ [0]) by rw [List.flatMap_map], numbered_syms]
  rfl

theorem lenSum_flat (l : List Sym) : (l.flatMap (fun y => y.name ++ [0])).length = lenSum l := by
  simp [List.length_flatMap, lenSum]

theorem strSize_eq (m : Mod) : strSize m = (strData m).length := by
  rw [strData_eq, strSize, locals_eq, publics_eq, externals_eq, List.length_cons, lenSum_flat, listed]
  simp only [lenSum, List.map_append, List.sum_append]

theorem string_at (m : Mod) (hz : ∀ y ∈ listed m, (0 : Byte) ∉ y.name) (k : Nat) (y : Sym) (hk : (listed m)[k]? = some y) :
    cstr (strData m) (1 + lenSum ((listed m).take k)) = y.name := by
  obtain ⟨hlt, he⟩ := List.getElem?_eq_some_iff.1 hk
  have hs : listed m = (listed m).take k ++ y :: (listed m).drop (k + 1) := by
    rw [← he, List.getElem_cons_drop, List.take_append_drop]
  rw [strData_eq, cstr]
  conv => lhs; rw [hs]
  rw [List.flatMap_append, List.flatMap_cons]
  have : 1 + lenSum ((listed m).take k) = (0 :: ((listed m).take k).flatMap (fun y => y.name ++ [0])).length := by
    rw [List.length_cons, lenSum_flat]; omega
  rw [← List.cons_append]
  have e : (List.take k (List.take k (listed m) ++ y :: List.drop (k + 1) (listed m))) = (listed m).take k := by rw [← hs]
  rw [e, this, List.drop_left, List.append_assoc, List.cons_append, List.nil_append]
  exact takeWhile_append_stop _ _ (hz y (List.mem_of_getElem? hk))

/-! ## Entries -/

theorem nlist_fields (o t s d v : Nat) :
    let r := le 4 o ++ (le 1 t ++ (le 1 s ++ (le 2 d ++ le 8 v)))
    u32 r 0 = o % 2 ^ 32 ∧ u8 r 4 = t % 256 ∧ u8 r 5 = s % 256 ∧ u16 r 6 = d % 65536 ∧ u64 r 8 = v % 2 ^ 64 := by
  intro r
  refine ⟨u32_le _ _, ?_, ?_, ?_, ?_⟩
  · rw [u8_skip _ _ _ _ (by omega), Nat.sub_self, u8_le]
  · rw [u8_skip _ _ _ _ (by omega), u8_skip _ _ _ _ (by omega), u8_le]
  · rw [u16_skip _ _ _ _ (by omega), u16_skip _ _ _ _ (by omega), u16_skip _ _ _ _ (by omega), u16_le]
  · rw [u64_skip _ _ _ _ (by omega), u64_skip _ _ _ _ (by omega), u64_skip _ _ _ _ (by omega), u64_skip _ _ _ _ (by omega), u64_le']

end Verif.Macho
