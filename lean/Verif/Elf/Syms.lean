import Verif.Elf.Headers
/-! The symbol table and the indices. -/
namespace Verif.Elf
open Coff

theorem symRec_length (b : Bool) (n i s v : Nat) : (symRec b n i s v).length = symSize b := by
  simp only [symRec, symSize]; cases b <;> simp

theorem decode_symRec (b : Bool) (tab : List Byte) (n i s v : Nat) : decodeSym b tab (symRec b n i s v) =
    ⟨cstr tab (n % 2 ^ 32), i % 256 / 16, i % 256 % 16, s % 65536, v % W b, 0⟩ := by
  cases b
  · simp only [decodeSym, symRec, W, Bool.false_eq_true, if_false, List.append_assoc]
    simp [u32_skip, u16_skip, u8_skip, u32_le, u8_le, u16_le']
  · simp only [decodeSym, symRec, W, if_true, List.append_assoc]
    simp [u32_skip, u16_skip, u8_skip, u64_skip, u32_le, u64_le, u8_le, u16_le, u64_le']

theorem recsOf_spec (b : Bool) (env : Nat → Sym) (fields : Sym → Nat × Nat × Nat) (tab : List Byte) (ht : tab.length < 2 ^ 32)
    (hn : ∀ id, (0 : Byte) ∉ (env id).name) : ∀ (l : List Nat) (k : Nat) (rest : List Byte),
    tab.drop k = l.flatMap (fun i => (env i).name ++ [0]) ++ rest →
    (recsOf b env fields k l).1.map (decodeSym b tab) = l.map (fun i => ⟨(env i).name, (fields (env i)).1 % 256 / 16,
      (fields (env i)).1 % 256 % 16, (fields (env i)).2.1 % 65536, (fields (env i)).2.2 % W b, 0⟩) ∧
    (∀ r ∈ (recsOf b env fields k l).1, r.length = symSize b) ∧ tab.drop (recsOf b env fields k l).2 = rest
  | [], k, rest, h => by simp [recsOf, h]
  | i :: l, k, rest, h => by
    have h' : tab.drop k = (env i).name ++ 0 :: (l.flatMap (fun i => (env i).name ++ [0]) ++ rest) := by rw [h]; simp
    obtain ⟨a1, a2, a3, a4⟩ := name_step tab _ _ k h' (hn i)
    rw [a3, Nat.add_assoc] at a2
    obtain ⟨b1, b2, b3⟩ := recsOf_spec b env fields tab ht hn l _ rest a2
    simp only [recsOf]
    refine ⟨?_, ?_, b3⟩
    · rw [List.map_cons, List.map_cons, b1, decode_symRec, Nat.mod_eq_of_lt (show k < 2 ^ 32 by omega), a1]
    · intro r hr
      rcases List.mem_cons.1 hr with rfl | hr
      · exact symRec_length ..
      · exact b2 r hr

theorem recsOf_size (b : Bool) (env : Nat → Sym) (fields : Sym → Nat × Nat × Nat) : ∀ (l : List Nat) (k : Nat),
    (recsOf b env fields k l).2 = k + (l.flatMap (fun i => (env i).name ++ [0])).length ∧
    (recsOf b env fields k l).1.length = l.length
  | [], k => by simp [recsOf]
  | i :: l, k => by
    obtain ⟨h1, h2⟩ := recsOf_size b env fields l (k + ((env i).name.length + 1))
    refine ⟨?_, ?_⟩
    · simp only [recsOf, h1, List.flatMap_cons, List.length_append, List.length_cons, List.length_nil]
      omega
    · simp only [recsOf, List.length_cons, h2]

theorem skip_used (y : Sym) : (!skipExt y) = usedExt y := by
  simp only [skipExt, usedExt]
  cases y.isComm <;> cases y.weak <;> rfl

theorem exts_eq (m : Mod) : m.exts.filter (fun e => !skipExt (m.env e)) = m.exts.filter (fun e => usedExt (m.env e)) := by
  congr 1; funext e; exact skip_used _

theorem symtab_size (m : Mod) (locals : List Nat) : (symtab m locals).2 = (strData m locals).length := by
  simp only [symtab, strData, recsOf_size, List.length_append, List.length_cons, List.length_nil]

theorem symtab_count (m : Mod) (locals : List Nat) : (symtab m locals).1.length =
    2 + m.secs.length + locals.length + (m.exts.filter (fun e => usedExt (m.env e))).length + m.pubs.length := by
  simp only [symtab, recsOf_size, List.length_append, List.length_cons, List.length_map, List.length_range, exts_eq]
  try omega

theorem buffer_self (n : Nat) (d : List Byte) (h : n = d.length) : buffer n d = d := by
  subst h; simp [buffer]

theorem word_eq (b : Bool) (v : Nat) : word b v = v % W b := rfl

theorem sttOf_eq (m : Mod) (y : Sym) : sttOf m y = typeOf m y := by
  simp only [sttOf, typeOf]
  cases y.seg with
  | none => simp
  | some i =>
    cases h : m.secs[i]? with
    | none => simp [h]
    | some s => simp only [Option.bind_some, h, Option.all_some]; by_cases hc : s.segtype = .code <;> simp [hc]

theorem typeOf_cases (m : Mod) (y : Sym) : typeOf m y = 1 ∨ typeOf m y = 2 := by
  simp only [typeOf]; split <;> simp

theorem shndx_lt (m : Mod) (hm : ModOk m) (id : Nat) : shndxOf (m.env id) < 65536 := by
  simp only [shndxOf]
  cases h : (m.env id).seg with
  | none => simp
  | some i =>
    have := hm.seg id i h
    have := hm.nsecs
    simp; omega

theorem locFields_eq (m : Mod) (hm : ModOk m) (id : Nat) :
    (⟨(m.env id).name, (locFields m (m.env id)).1 % 256 / 16, (locFields m (m.env id)).1 % 256 % 16,
      (locFields m (m.env id)).2.1 % 65536, (locFields m (m.env id)).2.2 % W m.b64, 0⟩ : ESym) = locEnt m (m.env id) := by
  have h1 := shndx_lt m hm id
  have e : (locFields m (m.env id)).2.1 = shndxOf (m.env id) := by
    simp only [locFields, shndxOf]; cases (m.env id).seg <;> rfl
  rw [e, Nat.mod_eq_of_lt h1]
  simp only [locFields, locEnt, word_eq, stInfo, sttOf_eq]
  rcases typeOf_cases m (m.env id) with h | h <;> rw [h]

theorem pubFields_eq (m : Mod) (hm : ModOk m) (id : Nat) :
    (⟨(m.env id).name, (pubFields m (m.env id)).1 % 256 / 16, (pubFields m (m.env id)).1 % 256 % 16,
      (pubFields m (m.env id)).2.1 % 65536, (pubFields m (m.env id)).2.2 % W m.b64, 0⟩ : ESym) = pubEnt m (m.env id) := by
  have h1 := shndx_lt m hm id
  have e : (pubFields m (m.env id)).2.1 = if (m.env id).state = .internal then shndxOf (m.env id) else 0 := by
    simp only [pubFields, shndxOf]; cases (m.env id).seg <;> rfl
  have h2 : (if (m.env id).state = .internal then shndxOf (m.env id) else 0) < 65536 := by split <;> omega
  rw [e, Nat.mod_eq_of_lt h2]
  simp only [pubFields, pubEnt, word_eq, stInfo, sttOf_eq]
  rcases typeOf_cases m (m.env id) with h | h <;> rw [h]

theorem extFields_eq (m : Mod) (id : Nat) :
    (⟨(m.env id).name, (extFields (m.env id)).1 % 256 / 16, (extFields (m.env id)).1 % 256 % 16,
      (extFields (m.env id)).2.1 % 65536, (extFields (m.env id)).2.2 % W m.b64, 0⟩ : ESym) = extEnt m (m.env id) := by
  simp only [extFields, extEnt, word_eq, stInfo]
  by_cases h : (m.env id).isComm = true
  · simp [h]
  · have h' : (m.env id).isComm = false := by simpa using h
    cases ha : (m.env id).altname <;> simp [h']

/-- The entries, read with their names. -/
theorem symtab_read (m : Mod) (hm : ModOk m) (locals : List Nat) (hs : (strData m locals).length < 2 ^ 32) :
    (symtab m locals).1.map (decodeSym m.b64 (strData m locals)) = expected m locals ∧
    (∀ r ∈ (symtab m locals).1, r.length = symSize m.b64) := by
  have d0 : (strData m locals).drop 1 = m.src ++ 0 :: (locals.flatMap (fun i => (m.env i).name ++ [0])
      ++ ((m.exts.filter (fun e => usedExt (m.env e))).flatMap (fun i => (m.env i).name ++ [0])
      ++ (m.pubs.flatMap (fun i => (m.env i).name ++ [0]) ++ []))) := by
    simp [strData, exts_eq]
  have hc0 : cstr (strData m locals) 0 = [] := by simp [cstr, strData]
  generalize hT : strData m locals = T at *
  obtain ⟨a1, a2, a3, _⟩ := name_step T _ _ 1 d0 hm.src
  rw [a3, show 1 + m.src.length + 1 = 1 + (m.src.length + 1) by omega] at a2
  obtain ⟨b1, b2, b3⟩ := recsOf_spec m.b64 m.env (locFields m) T hs hm.names _ _ _ a2
  obtain ⟨c1, c2, c3⟩ := recsOf_spec m.b64 m.env extFields T hs hm.names _ _ _ b3
  obtain ⟨e1, e2, e3⟩ := recsOf_spec m.b64 m.env (pubFields m) T hs hm.names _ _ _ c3
  have hnull : decodeSym m.b64 T (List.replicate (if m.b64 then 24 else 16) (0 : Byte)) = ⟨[], 0, 0, 0, 0, 0⟩ := by
    cases m.b64 <;> simp [decodeSym, u64, u32, u16, u8, hc0]
  have hfile : decodeSym m.b64 T (symRec m.b64 1 (stInfo 0 4) 0xfff1 0) = fileEnt m := by
    rw [decode_symRec]
    simp [a1, fileEnt, stInfo]
  have hsecs : ((List.range m.secs.length).map (fun i => symRec m.b64 0 (stInfo 0 3) (i + 1) 0)).map (decodeSym m.b64 T)
      = (List.range m.secs.length).map secEnt := by
    rw [List.map_map]
    apply List.map_congr_left
    intro i hi
    have := List.mem_range.1 hi
    have hn := hm.nsecs
    simp only [Function.comp, decode_symRec, secEnt, stInfo]
    rw [Nat.mod_eq_of_lt (show i + 1 < 65536 by omega)]
    simp [hc0]
  have hloc : locals.map (fun i => (⟨(m.env i).name, (locFields m (m.env i)).1 % 256 / 16, (locFields m (m.env i)).1 % 256 % 16,
      (locFields m (m.env i)).2.1 % 65536, (locFields m (m.env i)).2.2 % W m.b64, 0⟩ : ESym)) = locals.map (fun i => locEnt m (m.env i)) :=
    List.map_congr_left (fun i _ => locFields_eq m hm i)
  have hext : (m.exts.filter (fun e => usedExt (m.env e))).map (fun i => (⟨(m.env i).name, (extFields (m.env i)).1 % 256 / 16, (extFields (m.env i)).1 % 256 % 16,
      (extFields (m.env i)).2.1 % 65536, (extFields (m.env i)).2.2 % W m.b64, 0⟩ : ESym)) = (m.exts.filter (fun e => usedExt (m.env e))).map (fun i => extEnt m (m.env i)) :=
    List.map_congr_left (fun i _ => extFields_eq m i)
  have hpub : m.pubs.map (fun i => (⟨(m.env i).name, (pubFields m (m.env i)).1 % 256 / 16, (pubFields m (m.env i)).1 % 256 % 16,
      (pubFields m (m.env i)).2.1 % 65536, (pubFields m (m.env i)).2.2 % W m.b64, 0⟩ : ESym)) = m.pubs.map (fun i => pubEnt m (m.env i)) :=
    List.map_congr_left (fun i _ => pubFields_eq m hm i)
  constructor
  · simp only [symtab, exts_eq, expected, List.map_append, List.map_cons]
    rw [hnull, hfile, hsecs, b1, c1, e1, hloc, hext, hpub]
  · intro r hr
    simp only [symtab, exts_eq, List.mem_append, List.mem_cons] at hr
    rcases hr with (((rfl | rfl | hr) | hr) | hr) | hr
    · simp [symSize]
    · exact symRec_length ..
    · obtain ⟨i, _, rfl⟩ := List.mem_map.1 hr
      exact symRec_length ..
    · exact b2 r hr
    · exact c2 r hr
    · exact e2 r hr

/-! ## Indices -/

theorem idxList_spec : ∀ (l : List Nat) (ext : Nat → Nat) (k : Nat), l.Nodup →
    (idxList ext k l).2 = k + l.length ∧ (∀ x, x ∉ l → (idxList ext k l).1 x = ext x) ∧
    (∀ x ∈ l, ∃ i : Nat, l[i]? = some x ∧ (idxList ext k l).1 x = k + i)
  | [], ext, k, _ => by simp [idxList]
  | p :: r, ext, k, hd => by
    have hd' := List.nodup_cons.1 hd
    obtain ⟨h1, h2, h3⟩ := idxList_spec r (upd ext p k) (k + 1) hd'.2
    rw [idxList]
    refine ⟨by rw [h1, List.length_cons]; omega, fun x hx => ?_, fun x hx => ?_⟩
    · rw [h2 x (fun hh => hx (by simp [hh]))]
      simp only [upd]
      rw [if_neg (fun hh => hx (by simp [hh]))]
    · rcases List.mem_cons.1 hx with h | h
      · subst h
        exact ⟨0, by simp, by rw [h2 _ hd'.1]; simp [upd]⟩
      · obtain ⟨i, a, b⟩ := h3 x h
        exact ⟨i + 1, by simpa using a, by rw [b]; omega⟩

/-- A symbol that needs a local entry. -/
def isLocal (m : Mod) (id : Nat) : Prop := (m.env id).isVar = false ∧ (m.env id).state = .internal ∧ (m.env id).isPublic = false

structure Inv (m : Mod) (done : List Fix) (st : IdxSt) : Prop where
  nodup : st.locals.Nodup
  loc : ∀ p ∈ st.locals, isLocal m p ∧ st.included p = true ∧ ∃ f ∈ done, f.sym = some p
  idx : ∀ p ∈ st.locals, ∃ i : Nat, st.locals[i]? = some p ∧ st.ext p = 2 + m.secs.length + i
  index : st.index = 2 + m.secs.length + st.locals.length
  inc : ∀ p, st.included p = true → m.included p = true ∨ p ∈ st.locals
  have_ : ∀ f ∈ done, ∀ id, f.sym = some id → isLocal m id → m.included id = false → id ∈ st.locals
  count : st.locals.length ≤ done.length

theorem addLocal_inv (m : Mod) (done : List Fix) (st : IdxSt) (f : Fix) (h : Inv m done st) :
    Inv m (done ++ [f]) (addLocal m.env st f) := by
  have lift : ∀ p, (∃ g ∈ done, g.sym = some p) → ∃ g ∈ done ++ [f], g.sym = some p := by
    rintro p ⟨g, hg, hp⟩; exact ⟨g, by simp [hg], hp⟩
  have keep : (∀ id, f.sym = some id → isLocal m id → m.included id = false → id ∈ st.locals) → Inv m (done ++ [f]) st := by
    intro hk
    refine ⟨h.nodup, fun p hp => ?_, h.idx, h.index, h.inc, ?_, ?_⟩
    · obtain ⟨a, b, c⟩ := h.loc p hp; exact ⟨a, b, lift p c⟩
    · intro g hg id hs hl hi
      rcases List.mem_append.1 hg with hg | hg
      · exact h.have_ g hg id hs hl hi
      · rcases List.mem_singleton.1 hg with rfl; exact hk id hs hl hi
    · have := h.count; simp; omega
  unfold addLocal
  cases hs : f.sym with
  | none => exact keep (by rw [hs]; simp)
  | some id =>
    simp only
    by_cases hv : (m.env id).isVar = true
    · rw [if_pos hv]
      apply keep
      intro id' h1 hl
      rw [hs] at h1; cases h1
      rw [hl.1] at hv; cases hv
    · rw [if_neg hv]
      by_cases hc : (m.env id).state = .internal ∧ st.included id = false ∧ (m.env id).isPublic = false
      · rw [if_pos hc]
        have hni : id ∉ st.locals := by
          intro hh
          have := (h.loc id hh).2.1
          rw [hc.2.1] at this; cases this
        have hl : isLocal m id := ⟨by simpa using hv, hc.1, hc.2.2⟩
        refine ⟨?_, ?_, ?_, ?_, ?_, ?_, ?_⟩
        · rw [List.nodup_append]
          refine ⟨h.nodup, by simp, ?_⟩
          intro a ha b hb e
          rcases List.mem_singleton.1 hb with rfl
          subst e; exact hni ha
        · intro p hp
          rcases List.mem_append.1 hp with hp | hp
          · obtain ⟨a, b, c⟩ := h.loc p hp
            refine ⟨a, ?_, lift p c⟩
            simp only [upd]; split <;> simp [b]
          · rcases List.mem_singleton.1 hp with rfl
            exact ⟨hl, by simp [upd], f, by simp, hs⟩
        · intro p hp
          rcases List.mem_append.1 hp with hp | hp
          · obtain ⟨i, a, b⟩ := h.idx p hp
            have hne : p ≠ id := fun e => hni (e ▸ hp)
            refine ⟨i, ?_, by simp only [upd, if_neg hne]; exact b⟩
            rw [List.getElem?_append_left (List.getElem?_eq_some_iff.1 a).1]; exact a
          · rcases List.mem_singleton.1 hp with rfl
            exact ⟨st.locals.length, by simp, by simp [upd, h.index]⟩
        · show st.index + 1 = _
          rw [h.index, List.length_append, List.length_singleton]; omega
        · intro p hp
          simp only [upd] at hp
          split at hp
          · rename_i e; subst e; right; simp
          · rcases h.inc p hp with hh | hh
            · exact Or.inl hh
            · right; simp [hh]
        · intro g hg id' h1 h2 h3
          rcases List.mem_append.1 hg with hg | hg
          · exact List.mem_append_left _ (h.have_ g hg id' h1 h2 h3)
          · rcases List.mem_singleton.1 hg with rfl
            rw [hs] at h1; cases h1
            simp
        · have := h.count; simp; omega
      · rw [if_neg hc]
        apply keep
        intro id' h1 hl hi
        rw [hs] at h1; cases h1
        have : st.included id = true := by
          cases hh : st.included id with
          | true => rfl
          | false => exact absurd ⟨hl.2.1, hh, hl.2.2⟩ hc
        rcases h.inc id this with hh | hh
        · rw [hi] at hh; cases hh
        · exact hh

theorem fold_inv (m : Mod) : ∀ (l done : List Fix) (st : IdxSt), Inv m done st → Inv m (done ++ l) (l.foldl (addLocal m.env) st)
  | [], done, st, h => by simpa using h
  | f :: r, done, st, h => by
    have := fold_inv m r (done ++ [f]) (addLocal m.env st f) (addLocal_inv m done st f h)
    simpa using this

theorem local_inv (m : Mod) : Inv m (m.secs.flatMap (fun s => s.fixups)) (localSt m) := by
  have := fold_inv m (m.secs.flatMap (fun s => s.fixups)) [] ⟨fun _ => 0, [], m.included, 2 + m.secs.length⟩
    ⟨by simp, by simp, by simp, by simp, fun p hp => Or.inl hp, by simp, by simp⟩
  simpa [localSt] using this

theorem extIdx_count (m : Mod) (hm : ModOk m) : (extIdx m).2 = (symtab m (localSt m).locals).1.length := by
  have h := local_inv m
  have he := idxList_spec (m.exts.filter (fun e => usedExt (m.env e))) (localSt m).ext (localSt m).index (hm.extNodup.filter _)
  have hp := idxList_spec m.pubs (idxList (localSt m).ext (localSt m).index (m.exts.filter (fun e => usedExt (m.env e)))).1
    (idxList (localSt m).ext (localSt m).index (m.exts.filter (fun e => usedExt (m.env e)))).2 hm.pubNodup
  rw [symtab_count]
  simp only [extIdx, exts_eq]
  rw [hp.1, he.1, h.index]

/-- The index in a relocation is that of its target's entry. -/
theorem fixIdx_spec (m : Mod) (hm : ModOk m) (s : Sec) (hs : s ∈ m.secs) (f : Fix) (hf : f ∈ s.fixups) :
    ∃ id e, f.sym = some id ∧ target m f id = some e ∧ (expected m (localSt m).locals)[fixIdx m (extIdx m).1 f]? = some e ∧
      fixIdx m (extIdx m).1 f < (extIdx m).2 := by
  obtain ⟨id, h1, h2⟩ := hm.fixSym s hs f hf
  have inv := local_inv m
  obtain ⟨e1, e2, e3⟩ := idxList_spec (m.exts.filter (fun e => usedExt (m.env e))) (localSt m).ext (localSt m).index (hm.extNodup.filter _)
  obtain ⟨p1, p2, p3⟩ := idxList_spec m.pubs (idxList (localSt m).ext (localSt m).index (m.exts.filter (fun e => usedExt (m.env e)))).1
    (idxList (localSt m).ext (localSt m).index (m.exts.filter (fun e => usedExt (m.env e)))).2 hm.pubNodup
  have hext : (extIdx m).1 = (idxList (idxList (localSt m).ext (localSt m).index (m.exts.filter (fun e => usedExt (m.env e)))).1
    (idxList (localSt m).ext (localSt m).index (m.exts.filter (fun e => usedExt (m.env e)))).2 m.pubs).1 := by
    simp only [extIdx, exts_eq]
  have hcnt : (extIdx m).2 = (expected m (localSt m).locals).length := by
    rw [extIdx_count m hm, symtab_count]
    simp only [expected, List.length_append, List.length_cons, List.length_map, List.length_range]
    omega
  rw [e1] at p3
  suffices h : ∃ e, target m f id = some e ∧ (expected m (localSt m).locals)[fixIdx m (extIdx m).1 f]? = some e by
    obtain ⟨e, ha, hb⟩ := h
    exact ⟨id, e, h1, ha, hb, by rw [hcnt]; exact (List.getElem?_eq_some_iff.1 hb).1⟩
  have pos : ∀ (A B C D : List ESym) (a b : ESym), (a :: b :: A ++ B ++ C ++ D).length = 2 + A.length + B.length + C.length + D.length := by
    intros; simp; omega
  have getA : ∀ (i : Nat), i < m.secs.length → (expected m (localSt m).locals)[2 + i]? = some (secEnt i) := by
    intro i hi
    simp only [expected, List.cons_append]
    rw [show 2 + i = i + 1 + 1 by omega, List.getElem?_cons_succ, List.getElem?_cons_succ, List.append_assoc, List.append_assoc,
      List.getElem?_append_left (by simpa using hi)]
    simp [hi]
  have getB : ∀ (i : Nat) x, (localSt m).locals[i]? = some x →
      (expected m (localSt m).locals)[2 + m.secs.length + i]? = some (locEnt m (m.env x)) := by
    intro i x hi
    have hlt := (List.getElem?_eq_some_iff.1 hi).1
    simp only [expected, List.cons_append]
    rw [show 2 + m.secs.length + i = m.secs.length + i + 1 + 1 by omega, List.getElem?_cons_succ, List.getElem?_cons_succ, List.append_assoc, List.append_assoc,
      List.getElem?_append_right (by simp)]
    simp only [List.length_map, List.length_range, Nat.add_sub_cancel_left]
    rw [List.getElem?_append_left (by simpa using hlt), List.getElem?_map, hi]; rfl
  have getC : ∀ (i : Nat) x, (m.exts.filter (fun e => usedExt (m.env e)))[i]? = some x →
      (expected m (localSt m).locals)[(localSt m).index + i]? = some (extEnt m (m.env x)) := by
    intro i x hi
    have hlt := (List.getElem?_eq_some_iff.1 hi).1
    rw [inv.index]
    simp only [expected, List.cons_append]
    rw [show 2 + m.secs.length + (localSt m).locals.length + i = m.secs.length + ((localSt m).locals.length + i) + 1 + 1 by omega, List.getElem?_cons_succ,
      List.getElem?_cons_succ, List.append_assoc, List.append_assoc, List.getElem?_append_right (by simp)]
    simp only [List.length_map, List.length_range, Nat.add_sub_cancel_left]
    rw [List.getElem?_append_right (by simp)]
    simp only [List.length_map, Nat.add_sub_cancel_left]
    rw [List.getElem?_append_left (by simpa using hlt), List.getElem?_map, hi]; rfl
  have getD : ∀ (i : Nat) x, m.pubs[i]? = some x →
      (expected m (localSt m).locals)[(localSt m).index + (m.exts.filter (fun e => usedExt (m.env e))).length + i]? = some (pubEnt m (m.env x)) := by
    intro i x hi
    rw [inv.index]
    simp only [expected, List.cons_append]
    rw [show 2 + m.secs.length + (localSt m).locals.length + (m.exts.filter (fun e => usedExt (m.env e))).length + i
      = m.secs.length + ((localSt m).locals.length + ((m.exts.filter (fun e => usedExt (m.env e))).length + i)) + 1 + 1 by omega, List.getElem?_cons_succ,
      List.getElem?_cons_succ, List.append_assoc, List.append_assoc, List.getElem?_append_right (by simp)]
    simp only [List.length_map, List.length_range, Nat.add_sub_cancel_left]
    rw [List.getElem?_append_right (by simp)]
    simp only [List.length_map, Nat.add_sub_cancel_left]
    rw [List.getElem?_append_right (by simp)]
    simp only [List.length_map, Nat.add_sub_cancel_left]
    rw [List.getElem?_map, hi]; rfl
  simp only [fixIdx, h1, target]
  simp only [TargetOk] at h2
  by_cases hv : (m.env id).isVar = true
  · simp only [hv, if_true] at h2 ⊢
    exact ⟨_, by rw [if_pos h2], getA _ h2⟩
  · have hv' : (m.env id).isVar = false := by simpa using hv
    simp only [hv', Bool.false_eq_true, if_false] at h2 ⊢
    cases hst : (m.env id).state with
    | other => rw [hst] at h2; exact h2.elim
    | seg i =>
      rw [hst] at h2
      exact ⟨_, by simp only [if_pos h2], getA _ h2⟩
    | external =>
      rw [hst] at h2
      obtain ⟨h3, h4⟩ := h2
      refine ⟨_, rfl, ?_⟩
      obtain ⟨i, a, b⟩ := e3 id (List.mem_filter.2 ⟨h3, h4⟩)
      rw [hext, p2 id (hm.extState id h3).2, b]
      exact getC i id a
    | internal =>
      rw [hst] at h2
      cases hp : (m.env id).isPublic with
      | true =>
        simp only [hp, if_true] at h2
        refine ⟨_, rfl, ?_⟩
        obtain ⟨i, a, b⟩ := p3 id h2
        rw [hext, e1, b]
        simp only [if_true]
        exact getD i id a
      | false =>
        simp only [hp, Bool.false_eq_true, if_false] at h2
        refine ⟨_, rfl, ?_⟩
        have hl : isLocal m id := ⟨hv', hst, hp⟩
        have hmem := inv.have_ f (List.mem_flatMap.2 ⟨s, hs, hf⟩) id h1 hl h2
        obtain ⟨i, a, b⟩ := inv.idx id hmem
        have hnp : id ∉ m.pubs := by
          intro hh; have := hm.pubMarked id hh; rw [hp] at this; cases this
        have hne : id ∉ m.exts.filter (fun e => usedExt (m.env e)) := by
          intro hh
          have := (hm.extState id (List.mem_filter.1 hh).1).1
          rw [hst] at this; cases this
        rw [hext, p2 id hnp, e2 id hne, b]
        simp only [Bool.false_eq_true, if_false]
        exact getB i id a

end Verif.Elf
