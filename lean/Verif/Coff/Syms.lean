import Verif.Coff.Strings
/-! The symbol table records decode to the expected entries. -/
namespace Verif.Coff

def width : List Ent → Nat
  | [] => 0
  | e :: r => 1 + e.aux + width r

theorem number_append (k : Nat) (a b : List Ent) : number k (a ++ b) = number k a ++ number (k + width a) b := by
  induction a generalizing k with
  | nil => simp [number, width]
  | cons e r ih => simp [number, width, ih, Nat.add_assoc]

theorem width_append (a b : List Ent) : width (a ++ b) = width a + width b := by
  induction a with
  | nil => simp [width]
  | cons e r ih => simp [width, ih, Nat.add_assoc]

/-- The records are those of the entries. -/
structure Seg (tab : List Byte) (recs : List (List Byte)) (ents : List Ent) : Prop where
  walk : ∀ k rest, walk tab k 0 (recs ++ rest) = number k ents ++ Coff.walk tab (k + width ents) 0 rest
  len : recs.length = width ents
  size : ∀ r ∈ recs, r.length = 18

theorem Seg.nil (tab : List Byte) : Seg tab [] [] := ⟨by simp [number, width], rfl, by simp⟩

theorem Seg.append {tab : List Byte} {r1 r2 : List (List Byte)} {e1 e2 : List Ent} (h1 : Seg tab r1 e1) (h2 : Seg tab r2 e2) :
    Seg tab (r1 ++ r2) (e1 ++ e2) := by
  refine ⟨fun k rest => ?_, ?_, ?_⟩
  · rw [List.append_assoc, h1.walk, h2.walk, number_append, width_append, List.append_assoc, Nat.add_assoc]
  · simp [h1.len, h2.len, width_append]
  · intro r hr
    rcases List.mem_append.1 hr with h | h
    · exact h1.size r h
    · exact h2.size r h

theorem walk_skip (tab : List Byte) (k : Nat) (auxs rest : List (List Byte)) :
    walk tab k auxs.length (auxs ++ rest) = walk tab (k + auxs.length) 0 rest := by
  induction auxs generalizing k with
  | nil => rfl
  | cons a r ih =>
    show walk tab (k + 1) r.length (r ++ rest) = _
    rw [ih]
    congr 1
    simp only [List.length_cons]; omega

/-- One entry with its auxiliary records. -/
theorem Seg.one {tab x : List Byte} {auxs : List (List Byte)} {e : Ent} (hd : decode tab x = e) (hl : x.length = 18)
    (ha : auxs.length = e.aux) (hs : ∀ r ∈ auxs, r.length = 18) : Seg tab (x :: auxs) [e] := by
  refine ⟨fun k rest => ?_, ?_, ?_⟩
  · show (k, decode tab x) :: Coff.walk tab (k + 1) (decode tab x).aux (auxs ++ rest) = _
    rw [hd, ← ha, walk_skip]
    simp only [number, width, List.cons_append, List.nil_append, ← ha]
    congr 2
    omega
  · simp only [List.length_cons, width, ha]; omega
  · intro r hr
    rcases List.mem_cons.1 hr with h | h
    · subst h; exact hl
    · exact hs r h

/-- One entry written by coff_write_symbol. -/
theorem Seg.ofRec {ln fin : LN} {n : List Byte} {v s t c : Nat} {auxs : List (List Byte)} {e : Ent} (hl : LNOk ln)
    (he : Ext (symRec ln n v s t c auxs.length).2 fin) (hn : NameOk n) (hsz : fin.size < 2 ^ 32)
    (ha : auxs.length < 256) (hs : ∀ r ∈ auxs, r.length = 18)
    (heq : e = ⟨n, v % 2 ^ 32, s % 65536, t % 65536, c % 256, auxs.length⟩) :
    Seg (strTable fin) ((symRec ln n v s t c auxs.length).1 :: auxs) [e] := by
  refine Seg.one ?_ (symRec_length ..) (by rw [heq]) hs
  rw [decode_symRec hl he hn hsz, heq, Nat.mod_eq_of_lt ha]

/-! ## Extension of the string table -/

theorem secSyms_ext (o : Opt) : ∀ (l : List (Sec × Nat)) (ln : LN) (i : Nat), LNOk ln → Ext ln (secSyms o ln i l).2
  | [], ln, i, h => Ext.refl h
  | (s, n) :: r, ln, i, h => by
    simp only [secSyms]
    have h1 := symRec_ext h s.name 0 i 0 3 (if o.noSecAux then 0 else 1)
    exact h1.trans (secSyms_ext o r _ _ h1.2.1)

theorem extSyms_ext (m : Mod) (ext : Nat → Nat) : ∀ (l : List Nat) (ln : LN), LNOk ln → Ext ln (extSyms m ext ln l).2
  | [], ln, h => Ext.refl h
  | e :: r, ln, h => by
    simp only [extSyms]
    split
    · exact extSyms_ext m ext r ln h
    · have h1 := symRec_ext h (m.env e).name (if (m.env e).isComm then (m.env e).totalSize else (m.env e).offset) 0
        (symType (m.env e)) (symClass (m.env e)) (if (m.env e).isComm = false ∧ (m.env e).altname.isSome then 1 else 0)
      exact h1.trans (extSyms_ext m ext r _ h1.2.1)

theorem pubSyms_ext (m : Mod) : ∀ (l : List Nat) (ln : LN), LNOk ln → Ext ln (pubSyms m ln l).2
  | [], ln, h => Ext.refl h
  | e :: r, ln, h => by
    simp only [pubSyms]
    have h1 := symRec_ext h (m.env e).name (m.env e).offset
      (if (m.env e).state = .internal then (match (m.env e).secNo with | some n => n | none => 0xffff) else 0)
      (symType (m.env e)) (symClass (m.env e)) 0
    exact h1.trans (pubSyms_ext m r _ h1.2.1)

theorem aliasSyms_ext (m : Mod) (ext : Nat → Nat) : ∀ (l : List (Nat × Option Nat)) (ln : LN), LNOk ln →
    Ext ln (aliasSyms m ext ln l).2
  | [], ln, h => Ext.refl h
  | (a, sub) :: r, ln, h => by
    simp only [aliasSyms]
    have h1 := symRec_ext h (m.env a).name 0 0 0 105 1
    exact h1.trans (aliasSyms_ext m ext r _ h1.2.1)

/-! ## Entries -/

theorem secAux_length (s : Sec) (n : Nat) : (secAux s n).length = 18 := by
  simp only [secAux]
  by_cases h : s.comdat ≠ 0
  · rw [if_pos h]; simp
  · rw [if_neg h]; simp

theorem secSyms_seg (m : Mod) (fin : LN) (hsz : fin.size < 2 ^ 32) :
    ∀ (l : List (Sec × Nat)) (ln : LN) (i : Nat), LNOk ln → Ext (secSyms m.opt ln (i + 1) l).2 fin →
    (∀ x ∈ l, NameOk x.1.name) → (m.opt.noSecAux = true → ∀ x ∈ l, x.1.comdat = 0) → i + l.length < 65536 →
    Seg (strTable fin) (secSyms m.opt ln (i + 1) l).1 ((l.map (·.1)).mapIdx (fun j s => secEnt m (i + j) s))
  | [], ln, i, _, _, _, _, _ => Seg.nil _
  | (s, n) :: r, ln, i, h, he, hn, hc, hi => by
    simp only [secSyms] at he ⊢
    have h1 := symRec_ext h s.name 0 (i + 1) 0 3 (if m.opt.noSecAux then 0 else 1)
    have ih := secSyms_seg m fin hsz r _ (i + 1) h1.2.1 he (fun x hx => hn x (by simp [hx]))
      (fun hh x hx => hc hh x (by simp [hx])) (by simp at hi; omega)
    have hst := (secSyms_ext m.opt r _ (i + 1 + 1) h1.2.1).trans he
    simp only [List.map_cons, List.mapIdx_cons]
    rw [show (fun j s' => secEnt m (i + (j + 1)) s') = (fun j s' => secEnt m (i + 1 + j) s') from by
      funext j s'; congr 1; omega]
    rw [show ∀ (x : Ent) (y : List Ent), x :: y = [x] ++ y from fun _ _ => rfl]
    refine Seg.append ?_ ih
    by_cases ho : m.opt.noSecAux = true
    · have hc0 : s.comdat = 0 := hc ho (s, n) (by simp)
      simp only [ho, hc0, if_true] at hst ⊢
      refine Seg.ofRec (auxs := []) h hst (hn (s, n) (by simp)) hsz (by simp) (by simp) ?_
      simp only [secEnt, ho, if_true]
      simp at hi ⊢
      omega
    · simp only [Bool.not_eq_true] at ho
      simp only [ho] at hst ⊢
      refine Seg.ofRec (auxs := [secAux s n]) h hst (hn (s, n) (by simp)) hsz (by simp) (by simp [secAux_length]) ?_
      simp only [secEnt, ho]
      simp at hi ⊢
      omega

theorem weakAux_length (a b : Nat) : (weakAux a b).length = 18 := by simp [weakAux]

theorem symType_eq (y : Sym) : symType y % 65536 = if y.isProc then 0x20 else 0 := by
  simp only [symType]; split <;> rfl

theorem symClass_eq (y : Sym) : symClass y % 256 = if y.state = .external then (if isAlt y then 105 else 2)
    else if y.isPublic then 2 else if y.near && !y.isProc then 6 else 3 := by
  simp only [symClass, isAlt]
  rcases y with ⟨_, st, pb, _, pr, ne, _, _, _, cm, _, al⟩
  cases cm <;> cases al <;> cases ne <;> cases pr <;> cases pb <;> by_cases h : st = .external <;> simp [h]

theorem extSyms_seg (m : Mod) (ext : Nat → Nat) (fin : LN) (hsz : fin.size < 2 ^ 32) (hn : ∀ id, NameOk (m.env id).name) :
    ∀ (l : List Nat) (ln : LN), LNOk ln → Ext (extSyms m ext ln l).2 fin →
    Seg (strTable fin) (extSyms m ext ln l).1
      ((l.filter (fun e => usedExt (m.env e))).map (fun e => extEnt (m.env e)))
  | [], ln, _, _ => Seg.nil _
  | e :: r, ln, h, he => by
    simp only [extSyms] at he ⊢
    by_cases hw : (m.env e).isComm = false ∧ (m.env e).weak = true
    · rw [if_pos hw] at he ⊢
      have : usedExt (m.env e) = false := by simp [usedExt, hw]
      rw [List.filter_cons_of_neg (by simp [this])]
      exact extSyms_seg m ext fin hsz hn r ln h he
    · rw [if_neg hw] at he ⊢
      have hu : usedExt (m.env e) = true := by
        simp only [usedExt]
        cases h1 : (m.env e).isComm <;> cases h2 : (m.env e).weak <;> simp_all
      rw [List.filter_cons_of_pos (by simpa using hu), List.map_cons]
      have h1 := symRec_ext h (m.env e).name (if (m.env e).isComm then (m.env e).totalSize else (m.env e).offset) 0
        (symType (m.env e)) (symClass (m.env e)) (if (m.env e).isComm = false ∧ (m.env e).altname.isSome then 1 else 0)
      have ih := extSyms_seg m ext fin hsz hn r _ h1.2.1 he
      have hst := (extSyms_ext m ext r _ h1.2.1).trans he
      rw [show ∀ (x : Ent) (y : List Ent), x :: y = [x] ++ y from fun _ _ => rfl]
      refine Seg.append ?_ ih
      by_cases ha : (m.env e).isComm = false ∧ (m.env e).altname.isSome
      · rw [if_pos ha] at hst ⊢
        rw [if_pos ha]
        refine Seg.ofRec (auxs := [weakAux _ _]) h hst (hn e) hsz (by simp) (by simp [weakAux_length]) ?_
        rw [symType_eq, symClass_eq]
        simp [extEnt, isAlt, ha]
      · rw [if_neg ha] at hst ⊢
        rw [if_neg ha]
        refine Seg.ofRec (auxs := []) h hst (hn e) hsz (by simp) (by simp) ?_
        rw [symType_eq, symClass_eq]
        have : isAlt (m.env e) = false := by
          simp only [isAlt]
          cases h1 : (m.env e).isComm <;> cases h2 : (m.env e).altname <;> simp_all
        simp [extEnt, this]

theorem pubSyms_seg (m : Mod) (fin : LN) (hsz : fin.size < 2 ^ 32) (hn : ∀ id, NameOk (m.env id).name) :
    ∀ (l : List Nat) (ln : LN), LNOk ln → Ext (pubSyms m ln l).2 fin →
    Seg (strTable fin) (pubSyms m ln l).1 (l.map (fun e => pubEnt (m.env e)))
  | [], ln, _, _ => Seg.nil _
  | e :: r, ln, h, he => by
    simp only [pubSyms] at he ⊢
    have h1 := symRec_ext h (m.env e).name (m.env e).offset
      (if (m.env e).state = .internal then (match (m.env e).secNo with | some n => n | none => 0xffff) else 0)
      (symType (m.env e)) (symClass (m.env e)) 0
    have ih := pubSyms_seg m fin hsz hn r _ h1.2.1 he
    have hst := (pubSyms_ext m r _ h1.2.1).trans he
    rw [List.map_cons, show ∀ (x : Ent) (y : List Ent), x :: y = [x] ++ y from fun _ _ => rfl]
    refine Seg.append (r1 := [_]) ?_ ih
    refine Seg.ofRec (auxs := []) h hst (hn e) hsz (by simp) (by simp) ?_
    rw [symType_eq, symClass_eq]
    simp only [pubEnt, List.length_nil]
    congr 1
    split
    · cases (m.env e).secNo <;> rfl
    · rfl

theorem aliasSyms_seg (m : Mod) (ext : Nat → Nat) (fin : LN) (hsz : fin.size < 2 ^ 32) (hn : ∀ id, NameOk (m.env id).name) :
    ∀ (l : List (Nat × Option Nat)) (ln : LN), LNOk ln → Ext (aliasSyms m ext ln l).2 fin →
    Seg (strTable fin) (aliasSyms m ext ln l).1 (l.map (fun a => aliasEnt (m.env a.1)))
  | [], ln, _, _ => Seg.nil _
  | (a, sub) :: r, ln, h, he => by
    simp only [aliasSyms] at he ⊢
    have h1 := symRec_ext h (m.env a).name 0 0 0 105 1
    have ih := aliasSyms_seg m ext fin hsz hn r _ h1.2.1 he
    have hst := (aliasSyms_ext m ext r _ h1.2.1).trans he
    rw [List.map_cons, show ∀ (x : Ent) (y : List Ent), x :: y = [x] ++ y from fun _ _ => rfl]
    refine Seg.append (r1 := [_, _]) ?_ ih
    exact Seg.ofRec (auxs := [weakAux _ _]) h hst (hn a) hsz (by simp) (by simp [weakAux_length]) (by simp [aliasEnt])

theorem fileAux_length : ∀ (n : Nat) (p : List Byte), (fileAux n p).length = n
  | 0, _ => rfl
  | n + 1, p => by simp [fileAux, fileAux_length n]

theorem fileAux_size : ∀ (n : Nat) (p r : List Byte), r ∈ fileAux n p → r.length = 18
  | 0, _, r, h => by simp [fileAux] at h
  | n + 1, p, r, h => by
    simp only [fileAux, List.mem_cons] at h
    rcases h with h | h
    · subst h; exact strncpy_length _ _
    · exact fileAux_size n _ r h

/-- The file name is spread over the auxiliary records. -/
theorem fileAux_read : ∀ (n : Nat) (p : List Byte), p.length ≤ 18 * n → (0 : Byte) ∉ p →
    ((fileAux n p).flatten).takeWhile (· ≠ 0) = p
  | 0, p, h, _ => by
    have : p = [] := List.eq_nil_of_length_eq_zero (by omega)
    subst this; rfl
  | n + 1, p, h, hp => by
    simp only [fileAux, List.flatten_cons]
    by_cases hl : p.length < 18
    · have e : strncpy 18 p = p ++ 0 :: List.replicate (17 - p.length) 0 := by
        simp only [strncpy]
        rw [List.take_append, List.take_of_length_le (by omega), List.take_replicate,
          show min (18 - p.length) 18 = (17 - p.length) + 1 by omega, List.replicate_succ]
      rw [e, List.append_assoc, List.cons_append]
      exact takeWhile_append_stop p _ hp
    · have e : strncpy 18 p = p.take 18 := by
        simp only [strncpy]
        rw [List.take_append_of_le_length (by omega)]
      have h0 : (0 : Byte) ∉ p.take 18 := fun hh => hp (List.mem_of_mem_take hh)
      rw [e, List.takeWhile_append_of_pos, fileAux_read n (p.drop 18) (by simp; omega)
        (fun hh => hp (List.mem_of_mem_drop hh)), List.take_append_drop]
      intro x hx
      simp only [ne_eq, decide_eq_true_eq]
      intro hz; subst hz; exact h0 hx

theorem symRec_short (ln : LN) (n : List Byte) (v s t c a : Nat) (h : n.length ≤ 8) : (symRec ln n v s t c a).2 = ln := by
  simp only [symRec]
  rw [if_neg (by omega)]

theorem writeSymbols_ext (m : Mod) (st : IdxSt) (l : List (Sec × Nat)) (ln : LN) (h : LNOk ln) :
    Ext ln (writeSymbols m st l ln).2 := by
  simp only [writeSymbols]
  have h1 := secSyms_ext m.opt l ln 1 h
  have h2 := extSyms_ext m st.ext m.exts _ h1.2.1
  have h3 := pubSyms_ext m st.pubs _ h2.2.1
  have h4 := aliasSyms_ext m st.ext m.aliases _ h3.2.1
  exact ((h1.trans h2).trans h3).trans h4

/-- The whole symbol table. -/
theorem writeSymbols_seg (m : Mod) (st : IdxSt) (l : List (Sec × Nat)) (ln fin : LN) (h : LNOk ln)
    (he : Ext (writeSymbols m st l ln).2 fin) (hsz : fin.size < 2 ^ 32) (hn : ∀ id, NameOk (m.env id).name)
    (hs : ∀ x ∈ l, NameOk x.1.name) (hl : l.map (·.1) = m.secs)
    (hc : m.opt.noSecAux = true → ∀ x ∈ l, x.1.comdat = 0) (hi : l.length < 65536) (hf : m.file.length < 4000) :
    Seg (strTable fin) (writeSymbols m st l ln).1 (expected m st.pubs) := by
  simp only [writeSymbols] at he ⊢
  have h1 := secSyms_ext m.opt l ln 1 h
  have h2 := extSyms_ext m st.ext m.exts _ h1.2.1
  have h3 := pubSyms_ext m st.pubs _ h2.2.1
  have h4 := aliasSyms_ext m st.ext m.aliases _ h3.2.1
  refine Seg.append (Seg.append (Seg.append (Seg.append (Seg.append ?_ ?_) ?_) ?_) ?_) ?_
  · by_cases ho : m.opt.safeseh = true
    · rw [if_pos ho, if_pos ho]
      refine Seg.ofRec (auxs := []) h ?_ ⟨by decide, by decide⟩ hsz (by simp) (by simp) (by simp)
      rw [symRec_short _ _ _ _ _ _ _ (by decide)]
      exact (((h1.trans h2).trans h3).trans h4).trans he
    · rw [if_neg ho, if_neg ho]; exact Seg.nil _
  · by_cases ho : m.opt.noFile = true
    · rw [if_pos ho, if_pos ho]; exact Seg.nil _
    · rw [if_neg ho, if_neg ho]
      have := Seg.ofRec (fin := fin) (auxs := fileAux (auxCount m.file) m.file) (ln := ln) (n := ascii ".file") (v := 0) (s := 0xfffe)
        (t := 0) (c := 103) (e := ⟨ascii ".file", 0, 0xfffe, 0, 103, auxCount m.file⟩) h
        (by rw [symRec_short _ _ _ _ _ _ _ (by decide)]; exact (((h1.trans h2).trans h3).trans h4).trans he)
        ⟨by decide, by decide⟩ hsz (by rw [fileAux_length]; simp only [auxCount]; split <;> omega) (fileAux_size _ _)
        (by simp [fileAux_length])
      rw [fileAux_length] at this
      exact this
  · have := secSyms_seg m fin hsz l ln 0 h (((h2.trans h3).trans h4).trans he) hs hc (by omega)
    simpa [hl] using this
  · exact extSyms_seg m st.ext fin hsz hn _ _ h1.2.1 ((h3.trans h4).trans he)
  · exact pubSyms_seg m fin hsz hn _ _ h2.2.1 (h4.trans he)
  · exact aliasSyms_seg m st.ext fin hsz hn _ _ h3.2.1 he

end Verif.Coff
