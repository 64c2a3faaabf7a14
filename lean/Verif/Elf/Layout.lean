import Verif.Elf.Spec
/-! The file as a sequence of writes at increasing positions. -/
namespace Verif.Elf
open Coff

/-- Writes at increasing positions, from `k` on. -/
def Chain : Nat → List (Nat × List Byte) → Prop
  | _, [] => True
  | k, w :: r => k ≤ w.1 ∧ Chain (w.1 + w.2.length) r

/-- What they produce. -/
def lay : Nat → List (Nat × List Byte) → List Byte
  | _, [] => []
  | k, w :: r => List.replicate (w.1 - k) 0 ++ (w.2 ++ lay (w.1 + w.2.length) r)

theorem Chain.mono {k j : Nat} {ws : List (Nat × List Byte)} (h : Chain k ws) (hj : j ≤ k) : Chain j ws := by
  cases ws with
  | nil => trivial
  | cons w r => exact ⟨Nat.le_trans hj h.1, h.2⟩

theorem foldl_writeAt : ∀ (ws : List (Nat × List Byte)) (f : List Byte), Chain f.length ws →
    ws.foldl writeAt f = f ++ lay f.length ws
  | [], f, _ => by simp [lay]
  | w :: r, f, h => by
    have hw : writeAt f w = f ++ (List.replicate (w.1 - f.length) 0 ++ w.2) := by
      have h1 : (f ++ List.replicate (w.1 - f.length) (0 : Byte)).length = w.1 := by simp; have := h.1; omega
      simp only [writeAt]
      rw [List.take_of_length_le (by omega), List.drop_eq_nil_of_le (by have := h.1; omega)]
      simp
    have hl : (writeAt f w).length = w.1 + w.2.length := by
      rw [hw]; simp; have := h.1; omega
    rw [List.foldl_cons, foldl_writeAt r (writeAt f w) (by rw [hl]; exact h.2), hl, hw]
    simp [lay]

/-- Every piece of data is found where it was written. -/
theorem lay_slice : ∀ (ws : List (Nat × List Byte)) (k : Nat), Chain k ws → ∀ w ∈ ws,
    k ≤ w.1 ∧ slice (lay k ws) (w.1 - k) w.2.length = w.2 ∧ w.1 + w.2.length ≤ k + (lay k ws).length
  | [], k, _, w, hw => by simp at hw
  | x :: r, k, h, w, hw => by
    have h1 := h.1
    rcases List.mem_cons.1 hw with rfl | hw
    · refine ⟨h1, ?_, by simp [lay]; omega⟩
      have := slice_mid (List.replicate (w.1 - k) 0) w.2 (lay (w.1 + w.2.length) r) (w.1 - k) w.2.length (by simp) rfl
      exact this
    · obtain ⟨a, b, c⟩ := lay_slice r _ h.2 w hw
      refine ⟨by omega, ?_, by simp [lay]; omega⟩
      simp only [lay, slice] at b ⊢
      rw [show w.1 - k = (x.1 - k) + (x.2.length + (w.1 - (x.1 + x.2.length))) by omega, ← List.drop_drop,
        List.drop_left' (by simp), ← List.drop_drop, List.drop_left, b]

/-- A gap reads as zeros. -/
theorem lay_insert (k p n : Nat) (ws : List (Nat × List Byte)) (h : Chain (p + n) ws) (hne : ws ≠ []) (hk : k ≤ p) :
    lay k ((p, List.replicate n 0) :: ws) = lay k ws := by
  cases ws with
  | nil => exact absurd rfl hne
  | cons w r =>
    have := h.1
    simp only [lay, List.length_replicate]
    rw [show w.1 - k = p - k + (n + (w.1 - (p + n))) by omega, ← List.replicate_append_replicate,
      ← List.replicate_append_replicate]
    simp only [List.append_assoc]

theorem lay_lead (k p a : Nat) (d : List Byte) (ws : List (Nat × List Byte)) (hk : k ≤ p) :
    lay k ((p + a, d) :: ws) = lay k ((p, List.replicate a 0 ++ d) :: ws) := by
  simp only [lay, List.length_append, List.length_replicate, Nat.add_assoc]
  rw [show p + a - k = (p - k) + a by omega, ← List.replicate_append_replicate]
  simp only [List.append_assoc]

theorem lay_cons_congr (k : Nat) (w : Nat × List Byte) (a b : List (Nat × List Byte))
    (h : lay (w.1 + w.2.length) a = lay (w.1 + w.2.length) b) : lay k (w :: a) = lay k (w :: b) := by
  simp only [lay, h]

theorem align16_le (x : Nat) : x ≤ align16 x := by simp only [align16]; omega

/-! ## Section data -/

/-- Positions of the sections, and the end. -/
def secOffs : Nat → List Sec → List Nat
  | _, [] => []
  | off, s :: r => off :: secOffs (nextOff off s) r
def secEnd : Nat → List Sec → Nat
  | off, [] => off
  | off, s :: r => secEnd (nextOff off s) r

theorem le_nextOff (off : Nat) (s : Sec) : off ≤ nextOff off s := by
  simp only [nextOff]
  split
  · have := align16_le (off + s.size); omega
  · exact Nat.le_refl _

theorem le_secEnd : ∀ (l : List Sec) (off : Nat), off ≤ secEnd off l
  | [], _ => Nat.le_refl _
  | s :: r, off => Nat.le_trans (le_nextOff off s) (le_secEnd r _)

/-- The writes with gaps filled in: every section with file contents at its offset. -/
def fullWrites : List Sec → List Nat → List (Nat × List Byte)
  | s :: r, off :: offs => (if shType s ≠ 8 then [(off, sectionData s)] else []) ++ fullWrites r offs
  | _, _ => []

theorem sectionData_length (s : Sec) : (sectionData s).length = s.size := by simp [sectionData]

theorem nobits_bss (s : Sec) (h : shType s = 8) : s.segtype = .bss := by
  simp only [shType] at h
  split at h
  · omega
  · split at h
    · omega
    · rename_i h1; exact Classical.not_not.1 h1

theorem sectionData_bss (s : Sec) (h : s.segtype = .bss) : sectionData s = List.replicate s.size 0 := by
  apply List.ext_getElem
  · simp [sectionData]
  · intro i h1 h2; simp [sectionData, h]

theorem sectionData_eq (s : Sec) (h : s.segtype ≠ .bss) (hs : s.startLoc ≤ s.size) :
    sectionData s = List.replicate s.startLoc 0 ++ (List.range (s.size - s.startLoc)).map s.buf := by
  apply List.ext_getElem
  · simp [sectionData]; omega
  · intro i h1 h2
    simp only [sectionData, List.getElem_map, List.getElem_range, h, false_or]
    by_cases hi : i < s.startLoc
    · rw [if_pos hi, List.getElem_append_left (by simpa using hi)]; simp
    · rw [if_neg hi, List.getElem_append_right (by simp; omega)]; simp

theorem sec_lay : ∀ (l : List Sec) (off k : Nat) (t : List (Nat × List Byte)), k ≤ off → t ≠ [] → Chain (secEnd off l) t →
    (∀ s ∈ l, s.startLoc ≤ s.size) →
    Chain k (secWrites l (secOffs off l) ++ t) ∧ Chain k (fullWrites l (secOffs off l) ++ t) ∧
    lay k (secWrites l (secOffs off l) ++ t) = lay k (fullWrites l (secOffs off l) ++ t)
  | [], off, k, t, hk, _, ht, _ => by
    simp only [secWrites, fullWrites, secOffs, List.nil_append]
    simp [ht.mono hk]
  | s :: r, off, k, t, hk, hne, ht, hs => by
    have hr := fun k' hk' => sec_lay r (nextOff off s) k' t hk' hne ht (fun x hx => hs x (by simp [hx]))
    simp only [secOffs, secWrites, fullWrites, List.append_assoc]
    have hneA : secWrites r (secOffs (nextOff off s) r) ++ t ≠ [] := by simp [hne]
    by_cases hb : s.segtype = .bss
    · rw [if_neg (by simp [hb]), List.nil_append]
      by_cases h8 : shType s = 8
      · rw [if_neg (by simp [h8]), List.nil_append]
        exact hr k (Nat.le_trans hk (le_nextOff off s))
      · rw [if_pos (by simpa using h8)]
        have hn : off + s.size ≤ nextOff off s := by
          simp only [nextOff, if_pos (show shType s ≠ 8 from h8)]; exact align16_le _
        obtain ⟨a, b, c⟩ := hr (off + s.size) hn
        obtain ⟨a', b', c'⟩ := hr k (by omega)
        refine ⟨a', ⟨hk, by rw [sectionData_length]; exact b⟩, ?_⟩
        rw [sectionData_bss s hb, List.singleton_append, lay_insert k off s.size _ b (by simp [hne]) hk]
        exact c'
    · have h8 : shType s ≠ 8 := fun h => hb (nobits_bss s h)
      have hn : off + s.size ≤ nextOff off s := by
        simp only [nextOff, if_pos h8]; exact align16_le _
      obtain ⟨a, b, c⟩ := hr (off + s.size) hn
      have hsl := hs s (by simp)
      rw [if_pos h8]
      by_cases hz : s.size - s.startLoc ≠ 0
      · rw [if_pos ⟨hb, hz⟩]
        refine ⟨⟨by simp; omega, ?_⟩, ⟨hk, by rw [sectionData_length]; exact b⟩, ?_⟩
        · simp only [List.length_map, List.length_range]
          rw [show off + s.startLoc + (s.size - s.startLoc) = off + s.size by omega]
          exact a
        · rw [List.singleton_append, List.singleton_append, lay_lead k off s.startLoc _ _ hk, ← sectionData_eq s hb hsl]
          apply lay_cons_congr
          rw [sectionData_length]
          exact c
      · rw [if_neg (by rintro ⟨_, h⟩; exact hz h), List.nil_append]
        obtain ⟨a', b', c'⟩ := hr k (by omega)
        refine ⟨a', ⟨hk, by rw [sectionData_length]; exact b⟩, ?_⟩
        have hz' : s.size - s.startLoc = 0 := Classical.not_not.1 hz
        rw [sectionData_eq s hb hsl, hz', List.singleton_append]
        simp only [List.range_zero, List.map_nil, List.append_nil]
        rw [lay_insert k off s.startLoc _ (b.mono (by omega)) (by simp [hne]) hk]
        exact c'

theorem full_mem : ∀ (l : List Sec) (offs : List Nat) (i : Nat) (s : Sec) (off : Nat), l[i]? = some s → offs[i]? = some off →
    shType s ≠ 8 → (off, sectionData s) ∈ fullWrites l offs
  | [], _, i, s, off, h, _, _ => by simp at h
  | _ :: _, [], i, s, off, _, h, _ => by simp at h
  | x :: r, o :: os, 0, s, off, h, h', h8 => by
    simp at h h'
    subst h h'
    simp [fullWrites, h8]
  | x :: r, o :: os, i + 1, s, off, h, h', h8 => by
    simp only [fullWrites, List.mem_append]
    right
    exact full_mem r os i s off (by simpa using h) (by simpa using h') h8

theorem secOffs_length : ∀ (l : List Sec) (off : Nat), (secOffs off l).length = l.length
  | [], _ => rfl
  | s :: r, off => by simp [secOffs, secOffs_length r]

/-! ## Relocation data -/

def relSz (m : Mod) (s : Sec) : Nat := s.fixups.length * (if m.b64 then 24 else 8)

def relOffs (m : Mod) : Nat → List Sec → List Nat
  | _, [] => []
  | off, s :: r => off :: relOffs m (if s.fixups.isEmpty then off else align16 (off + relSz m s)) r

theorem relRec_length (b64 : Bool) (e : Nat) (f : Fix) : (relRec b64 e f).length = if b64 then 24 else 8 := by
  simp only [relRec]
  cases b64 <;> simp

theorem relRecs_length (m : Mod) (s : Sec) : (relRecs m s).length = relSz m s := by
  simp only [relRecs, relSz]
  induction s.fixups with
  | nil => simp
  | cons f r ih =>
    rw [List.flatMap_cons, List.length_append, ih, relRec_length, List.length_cons, Nat.succ_mul]; omega

theorem rel_chain (m : Mod) : ∀ (l : List Sec) (off k : Nat), k ≤ off → Chain k (relWrites m l (relOffs m off l))
  | [], off, k, _ => trivial
  | s :: r, off, k, hk => by
    simp only [relOffs, relWrites]
    cases hf : s.fixups with
    | nil =>
      simp only [List.length_nil, ne_eq, not_true, if_false, List.nil_append, List.isEmpty_nil, if_true]
      exact rel_chain m r off k hk
    | cons f fs =>
      rw [if_pos (by simp), List.singleton_append]
      refine ⟨hk, ?_⟩
      simp only [List.isEmpty_cons, Bool.false_eq_true, if_false]
      apply rel_chain
      rw [relRecs_length]
      exact align16_le _

theorem rel_mem (m : Mod) : ∀ (l : List Sec) (offs : List Nat) (i : Nat) (s : Sec) (off : Nat), l[i]? = some s → offs[i]? = some off →
    s.fixups ≠ [] → (off, relRecs m s) ∈ relWrites m l offs
  | [], _, i, s, off, h, _, _ => by simp at h
  | _ :: _, [], i, s, off, _, h, _ => by simp at h
  | x :: r, o :: os, 0, s, off, h, h', h8 => by
    simp at h h'
    subst h h'
    simp [relWrites, h8]
  | x :: r, o :: os, i + 1, s, off, h, h', h8 => by
    simp only [relWrites, List.mem_append]
    right
    exact rel_mem m r os i s off (by simpa using h) (by simpa using h') h8

end Verif.Elf
