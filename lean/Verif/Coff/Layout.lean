import Verif.Coff.Index
/-! The section headers locate what coff_write_data writes. -/
namespace Verif.Coff

/-- File offset of the i-th section's part. -/
def offs : Nat → List Sec → Nat → Nat
  | off, s :: r, i + 1 => offs (offRel off s) r i
  | off, _, _ => off

/-! ## Section table -/

theorem decimal_ne_nil (v : Nat) : decimal v ≠ [] := by
  simp only [decimal, ne_eq, List.map_eq_nil_iff]
  intro h
  have := Nat.length_toDigits_pos (b := 10) (n := v)
  rw [h] at this
  simp at this

theorem secNameField_spec (ln : LN) (name stale : List Byte) (h : LNOk ln) (hs : stale.length = 8) :
    (secNameField ln name stale).1.length = 8 ∧ Ext ln (secNameField ln name stale).2 := by
  simp only [secNameField]
  split
  · exact ⟨strncpy_length _ _, Ext.refl h⟩
  · refine ⟨?_, Ext_alloc h name⟩
    simp only [List.length_take, List.length_append, List.length_drop, List.length_cons, hs]
    omega

theorem secHeader_length (off : Nat) (name : List Byte) (s : Sec) (h : name.length = 8) : (secHeader off name s).length = 40 := by
  simp [secHeader, h]

/-- The i-th header, its name field and the string table around it. -/
theorem secTable_spec : ∀ (l : List Sec) (off : Nat) (stale : List Byte) (ln : LN), LNOk ln → stale.length = 8 →
    (secTable off stale ln l).1.length = 40 * l.length ∧ Ext ln (secTable off stale ln l).2 ∧
    ∀ i s, l[i]? = some s → ∃ lni sti, LNOk lni ∧ sti.length = 8 ∧ Ext (secNameField lni s.name sti).2 (secTable off stale ln l).2 ∧
      slice (secTable off stale ln l).1 (40 * i) 40 = secHeader (offs off l i) (secNameField lni s.name sti).1 s
  | [], off, stale, ln, h, _ => by simp [secTable, Ext.refl h]
  | x :: r, off, stale, ln, h, hs => by
    obtain ⟨hn, he⟩ := secNameField_spec ln x.name stale h hs
    obtain ⟨h1, h2, h3⟩ := secTable_spec r (offRel off x) (secNameField ln x.name stale).1 (secNameField ln x.name stale).2 he.2.1 hn
    have hh := secHeader_length off (secNameField ln x.name stale).1 x hn
    simp only [secTable]
    refine ⟨by simp only [List.length_append, List.length_cons, hh, h1]; omega, he.trans h2, ?_⟩
    intro i s hi
    cases i with
    | zero =>
      simp at hi
      subst hi
      refine ⟨ln, stale, h, hs, h2, ?_⟩
      have := slice_append [] (secHeader off (secNameField ln x.name stale).1 x)
        (secTable (offRel off x) (secNameField ln x.name stale).1 (secNameField ln x.name stale).2 r).1
      rw [hh] at this
      exact this
    | succ i =>
      obtain ⟨lni, sti, a1, a2, a3, a4⟩ := h3 i s (by simpa using hi)
      refine ⟨lni, sti, a1, a2, a3, ?_⟩
      rw [show offs off (x :: r) (i + 1) = offs (offRel off x) r i from rfl, ← a4]
      simp only [slice]
      rw [show 40 * (i + 1) = (secHeader off (secNameField ln x.name stale).1 x).length + 40 * i by rw [hh]; omega,
        ← List.drop_drop, List.drop_left]

/-- The fields of a header. -/
theorem secHeader_fields (off : Nat) (nm : List Byte) (s : Sec) (h : nm.length = 8) :
    (secHeader off nm s).take 8 = nm ∧ u32 (secHeader off nm s) 16 = rawSize s % 2 ^ 32 ∧
    u32 (secHeader off nm s) 20 = rawPtr off s % 2 ^ 32 ∧ u32 (secHeader off nm s) 24 = relPtr off s % 2 ^ 32 ∧
    u16 (secHeader off nm s) 32 = (if s.fixups.isEmpty then 0 else if numRelocs s ≤ 0xffff then numRelocs s else 0xffff) % 65536 ∧
    u32 (secHeader off nm s) 36 = (chars s ||| (if !s.fixups.isEmpty ∧ ¬ numRelocs s ≤ 0xffff then 0x01000000 else 0)).toNat := by
  obtain ⟨x1, x2, x3, x4, x5, x6, x7, x8, rfl⟩ := eq_eight nm h
  have hc := (chars s ||| (if !s.fixups.isEmpty ∧ ¬ numRelocs s ≤ 0xffff then 0x01000000 else 0)).isLt
  simp only [secHeader]
  generalize (chars s ||| (if !s.fixups.isEmpty ∧ ¬ numRelocs s ≤ 0xffff then 0x01000000 else 0)).toNat = c at *
  generalize rawSize s = a1
  generalize rawPtr off s = a2
  generalize relPtr off s = a3
  generalize (if s.fixups.isEmpty then 0 else if numRelocs s ≤ 0xffff then numRelocs s else 0xffff) = a4
  refine ⟨?_, ?_, ?_, ?_, ?_, ?_⟩ <;> simp [u32, u16, u8, le] <;> omega

/-! ## Data -/

theorem kind_skip (s : Sec) (h : skipData s = false) : kind s = .raw := by
  simp only [skipData, Bool.or_eq_false_iff] at h
  obtain ⟨h1, h2, h3⟩ := h
  simp only [kind, h1] at h3 ⊢
  repeat' split
  all_goals first | rfl | (simp_all)

/-- What coff_write_data writes for a section: data padded, relocations. -/
theorem secData_spec (m : Mod) (hm : ModOk m) (s : Sec) (hmem : s ∈ m.secs) (start offset : Nat) (st : IdxSt) (hi : Inv m st) (hev : start % 2 = 0)
    (hpos : 0 < start) :
    Inv m (secData m offset st s).2 ∧ (∃ r, (secData m offset st s).2.pubs = st.pubs ++ r) ∧
    (start + offset) + (secData m offset st s).1.length = offRel (start + offset) s ∧
    (kind s = .raw → s.size ≠ 0 → slice (secData m offset st s).1 0 s.size = (List.range s.size).map (secByte s)) ∧
    ∃ rels, List.Forall₂ (RelOk m s.use64 (number 0 (preEnts m (secData m offset st s).2.pubs))) rels
        (s.fixups.filter (fun f => f.sym.isSome)) ∧
      (s.fixups ≠ [] → start + offset ≤ relPtr (start + offset) s ∧
        (secData m offset st s).1.drop (relPtr (start + offset) s - (start + offset)) =
        (if numRelocs s > 0xffff then relBytes (numRelocs s + 1, 0, 0) else []) ++ rels.flatMap relBytes) ∧
      (s.fixups ≠ [] → kind s = .raw ∧ s.size ≠ 0) := by
  have ok := hm.secs s hmem
  by_cases hz : skipData s = true ∨ s.size = 0
  · have hd : secData m offset st s = ([], st) := by
      simp only [secData]
      rcases hz with h | h
      · rw [if_pos h]
      · split <;> rfl
    have hfx : s.fixups = [] := by
      cases hf : s.fixups with
      | nil => rfl
      | cons f r =>
        have := ok.fixData (by rw [hf]; simp)
        rcases hz with h | h
        · rw [this.2] at h; cases h
        · exact absurd h this.1
    rw [hd]
    refine ⟨hi, ⟨[], by simp⟩, ?_, ?_, [], by rw [hfx]; exact List.Forall₂.nil, fun h => absurd hfx h, fun h => absurd hfx h⟩
    · simp only [List.length_nil, offRel, hfx, List.isEmpty_nil, if_true, offRaw, rawPtr]
      by_cases hsz : s.size = 0
      · simp [hsz]
      · have hsk : skipData s = true := by rcases hz with h | h; exact h; exact absurd h hsz
        have := ok.skip hsk hsz
        simp [this]
    · intro hk hs
      rcases hz with h | h
      · exact absurd hk (ok.skip h hs)
      · exact absurd h hs
  · have hs1 : skipData s = false := by
      cases h : skipData s with
      | false => rfl
      | true => exact absurd (Or.inl h) hz
    have hs2 : s.size ≠ 0 := fun h => hz (Or.inr h)
    have hk := kind_skip s hs1
    obtain ⟨w1, ⟨r, w2⟩, w3, w4⟩ := writeFixups_spec m hm s.use64 s.fixups st hi ok.types (hm.targets s hmem)
    have hlen := w3.length_eq
    rw [show (s.fixups.filter (fun f => f.sym.isSome)).length = numRelocs s from rfl] at hlen
    have hflat : ∀ (l : List (Nat × Nat × Nat)), (l.flatMap relBytes).length = 10 * l.length := by
      intro l
      induction l with
      | nil => rfl
      | cons a l ih => simp only [List.flatMap_cons, List.length_append, ih, List.length_cons, relBytes, le_length]; omega
    have hd : secData m offset st s = ((List.range (if (offset + s.size) % 2 = 1 ∧ !s.fixups.isEmpty then s.size + 1 else s.size)).map (secByte s)
      ++ (if numRelocs s > 0xffff then relBytes (numRelocs s + 1, 0, 0) else [])
      ++ (writeFixups m s.use64 st s.fixups).1.flatMap relBytes, (writeFixups m s.use64 st s.fixups).2) := by
      simp only [secData]
      rw [if_neg (by simp [hs1]), if_neg hs2]
    have hraw : offRaw (start + offset) s = start + offset + s.size := by
      have h1 : rawPtr (start + offset) s = start + offset := by rw [rawPtr, if_pos ⟨hk, hs2⟩]
      have h2 : rawSize s = s.size := by rw [rawSize, if_neg (by rw [hk]; simp)]
      rw [offRaw, h1, h2, if_pos (by omega)]
    have hpad : s.fixups.isEmpty = false → (if (offset + s.size) % 2 = 1 ∧ !s.fixups.isEmpty then s.size + 1 else s.size)
        = if (offset + s.size) % 2 = 1 then s.size + 1 else s.size := by
      intro h; rw [h]; simp
    have hov : (if numRelocs s > 0xffff then relBytes (numRelocs s + 1, 0, 0) else []).length
        = if numRelocs s ≤ 0xffff then 0 else 10 := by
      by_cases ho : numRelocs s ≤ 0xffff
      · rw [if_pos ho, if_neg (by omega)]; rfl
      · rw [if_neg ho, if_pos (by omega)]; simp [relBytes]
    rw [hd]
    refine ⟨w1, ⟨r, w2⟩, ?_, ?_, _, w3, ?_, fun _ => ⟨hk, hs2⟩⟩
    · simp only [List.length_append, List.length_map, List.length_range, hflat, hlen]
      cases hf : s.fixups with
      | nil =>
        have hn : numRelocs s = 0 := by simp [numRelocs, hf]
        simp only [offRel, hf, List.isEmpty_nil, if_true, hraw, hn]
        simp
      | cons f fs =>
        have hfe : s.fixups.isEmpty = false := by rw [hf]; rfl
        rw [← hf, hpad hfe, hov]
        simp only [offRel, hfe, relPtr, hraw]
        simp only [Bool.false_eq_true, if_false]
        split <;> split <;> omega
    · intro _ _
      simp only [slice, List.drop_zero, List.append_assoc]
      rw [List.take_append_of_le_length (by simp; split <;> omega), ← List.map_take]
      congr 1
      split
      · simp [List.take_range]
      · simp [List.take_range]
    · intro hne
      have hfe : s.fixups.isEmpty = false := by cases h : s.fixups with | nil => exact absurd h hne | cons => rfl
      have hrp : relPtr (start + offset) s - (start + offset) = (if (offset + s.size) % 2 = 1 ∧ !s.fixups.isEmpty then s.size + 1 else s.size)
          ∧ start + offset ≤ relPtr (start + offset) s := by
        rw [hpad hfe]
        simp only [relPtr, hfe, hraw]
        simp only [Bool.false_eq_true, if_false]
        split <;> omega
      refine ⟨hrp.2, ?_⟩
      rw [hrp.1, List.append_assoc, List.drop_left' (by simp)]

/-- The i-th section's part of the data. -/
theorem writeData_spec (m : Mod) (hm : ModOk m) (start : Nat) (hev : start % 2 = 0) (hpos : 0 < start) : ∀ (l : List Sec) (offset : Nat) (st : IdxSt),
    (∀ s ∈ l, s ∈ m.secs) → Inv m st →
    Inv m (writeData m offset st l).2 ∧ (∃ r, (writeData m offset st l).2.pubs = st.pubs ++ r) ∧
    ∀ i s, l[i]? = some s → ∃ sti oi a c, Inv m sti ∧ start + oi = offs (start + offset) l i ∧ offset + a.length = oi ∧
      (writeData m offset st l).1 = a ++ ((secData m oi sti s).1 ++ c) ∧
      ∃ r, (writeData m offset st l).2.pubs = (secData m oi sti s).2.pubs ++ r
  | [], offset, st, _, hi => ⟨hi, ⟨[], by simp [writeData]⟩, by simp⟩
  | x :: l, offset, st, hl, hi => by
    obtain ⟨h1, ⟨r, h2⟩, h3, _⟩ := secData_spec m hm x (hl x (by simp)) start offset st hi hev hpos
    obtain ⟨w1, ⟨r', w2⟩, w3⟩ := writeData_spec m hm start hev hpos l (offset + (secData m offset st x).1.length) _
      (fun s hs => hl s (by simp [hs])) h1
    simp only [writeData]
    refine ⟨w1, ⟨r ++ r', by rw [w2, h2, List.append_assoc]⟩, ?_⟩
    intro i s his
    cases i with
    | zero =>
      simp at his
      subst his
      exact ⟨st, offset, [], _, hi, rfl, rfl, rfl, r', w2⟩
    | succ i =>
      obtain ⟨sti, oi, a, c, b1, b2, b3, b4, b5⟩ := w3 i s (by simpa using his)
      refine ⟨sti, oi, (secData m offset st x).1 ++ a, c, b1, ?_, ?_, ?_, b5⟩
      · rw [b2, show start + (offset + (secData m offset st x).1.length) = offRel (start + offset) x by rw [← h3]; omega]
        rfl
      · rw [List.length_append]; omega
      · rw [b4]; simp
end Verif.Coff
