import Verif.ResWords.Spec
/-! # The hash table represents the set of usable keywords -/

namespace Verif.ResWords

open Verif.Symbols (Name lower)

/-- `v` heads a chain through `l`. -/
def Chain (next : Tok → Tok) : Tok → List Tok → Prop
  | v, [] => v = 0
  | v, p :: ps => v = p ∧ p ≠ 0 ∧ Chain next (next p) ps

theorem chain_congr {n n' : Tok → Tok} {v l} (hc : ∀ x ∈ l, n' x = n x) (H : Chain n v l) :
    Chain n' v l := by
  induction l generalizing v with
  | nil => exact H
  | cons p ps ih =>
    refine ⟨H.1, H.2.1, ?_⟩
    rw [hc p (by simp)]
    exact ih (fun x hx => hc x (by simp [hx])) H.2.2

theorem chain_upd {n : Tok → Tok} {v l t x} (ht : t ∉ l) (H : Chain n v l) : Chain (upd n t x) v l :=
  chain_congr (fun y hy => by unfold upd; rw [if_neg]; rintro rfl; exact ht hy) H

theorem chain_nz {n v l t} (H : Chain n v l) (ht : t ∈ l) : t ≠ 0 := by
  induction l generalizing v with
  | nil => simp at ht
  | cons p ps ih =>
    rcases List.mem_cons.1 ht with rfl | h
    · exact H.2.1
    · exact ih H.2.2 h

/-- insert `t` after `o` -/
theorem chain_insert {n : Tok → Tok} {v l1 o l2 t} (H : Chain n v (l1 ++ o :: l2))
    (hn : (l1 ++ o :: l2).Nodup) (ht : t ∉ l1 ++ o :: l2) (h0 : t ≠ 0) :
    Chain (upd (upd n t (n o)) o t) v (l1 ++ o :: t :: l2) := by
  induction l1 generalizing v with
  | nil =>
    simp only [List.nil_append, List.mem_cons, not_or] at H ht hn ⊢
    simp only [List.nodup_cons] at hn
    refine ⟨H.1, H.2.1, by simp [upd], h0, ?_⟩
    have hto : t ≠ o := ht.1
    have e : upd (upd n t (n o)) o t t = n o := by simp [upd, hto]
    rw [e]
    exact chain_upd hn.1 (chain_upd ht.2 H.2.2)
  | cons p l1 ih =>
    simp only [List.cons_append, List.mem_cons, not_or, List.nodup_cons] at H ht hn ⊢
    refine ⟨H.1, H.2.1, ?_⟩
    have e : upd (upd n t (n o)) o t p = n p := by
      have h1 : p ≠ o := by rintro rfl; exact hn.1 (by simp)
      have h2 : p ≠ t := fun h => ht.1 h.symm
      simp [upd, h1, h2]
    rw [e]
    exact ih H.2.2 hn.2 ht.2

/-- unlink the element after `o` -/
theorem chain_unlink {n : Tok → Tok} {v l1 o t l2} (H : Chain n v (l1 ++ o :: t :: l2))
    (hn : (l1 ++ o :: t :: l2).Nodup) : Chain (upd n o (n t)) v (l1 ++ o :: l2) := by
  induction l1 generalizing v with
  | nil =>
    simp only [List.nil_append, List.nodup_cons, List.mem_cons, not_or] at H hn ⊢
    refine ⟨H.1, H.2.1, ?_⟩
    have e : upd n o (n t) o = n t := by simp [upd]
    rw [e]
    exact chain_upd hn.1.2 H.2.2.2.2
  | cons p l1 ih =>
    simp only [List.cons_append, List.nodup_cons] at H hn ⊢
    refine ⟨H.1, H.2.1, ?_⟩
    have e : upd n o (n t) p = n p := by
      have h1 : p ≠ o := by rintro rfl; exact hn.1 (by simp)
      simp [upd, h1]
    rw [e]
    exact ih H.2.2 hn.2

theorem chain_append {n : Tok → Tok} {v l t} (H : Chain n v l) (hl : l ≠ []) (hn : l.Nodup) (ht : t ∉ l) (h0 : t ≠ 0)
    (hz : n t = 0) : Chain (upd n (l.getLast hl) t) v (l ++ [t]) := by
  induction l generalizing v with
  | nil => exact absurd rfl hl
  | cons p l ih =>
    simp only [List.nodup_cons, List.mem_cons, not_or] at hn ht
    cases l with
    | nil =>
      refine ⟨H.1, H.2.1, ?_, h0, ?_⟩
      · simp [upd]
      · simp [upd, ht.1, hz, Chain]
    | cons q l =>
      refine ⟨H.1, H.2.1, ?_⟩
      rw [List.getLast_cons (by simp)]
      have e : upd n ((q :: l).getLast (by simp)) t p = n p := by
        have : p ≠ (q :: l).getLast (by simp) := by
          intro h; apply hn.1; rw [h]; exact List.getLast_mem _
        simp [upd, this]
      rw [e]
      exact ih H.2.2 (by simp) hn.2 (by simpa using ht.2)

/-! ## the table -/

structure Tbl (st : St) (P : Tok → Prop) (D : List Tok) : Prop where
  bk : ∀ i, ∃ l, Chain st.next (st.tab i) l ∧ l.Nodup ∧ ∀ t, t ∈ l ↔ P t ∧ getHash (st.word t) = i
  rem : Chain st.next st.head D
  tl : ∀ h : D ≠ [], st.tail = D.getLast h
  dn : D.Nodup
  disj : ∀ t ∈ D, ¬ P t

theorem Tbl.nz {st P D} (H : Tbl st P D) {t} (h : P t) : t ≠ 0 := by
  obtain ⟨l, a, _, c⟩ := H.bk (getHash (st.word t))
  exact chain_nz a ((c t).2 ⟨h, rfl⟩)

theorem Tbl.congr {st P Q D} (H : Tbl st P D) (h : ∀ t, P t ↔ Q t) : Tbl st Q D := by
  have : P = Q := funext fun t => propext (h t)
  subst this; exact H

theorem same_iff (a b : Name) : same a b = true ↔ SameWord a b := by
  unfold same SameWord
  simp only [Bool.and_eq_true, beq_iff_eq]
  constructor
  · exact fun h => h.2
  · intro h
    have := congrArg List.length h
    simp only [List.length_map] at this
    exact ⟨this, h⟩

theorem hash_same {a b : Name} (h : SameWord a b) : getHash a = getHash b := by
  have key : ∀ (a b : Name) (x : BitVec 64), a.map lower = b.map lower →
      a.foldl (fun h c => (h ^^^ ((c ||| 0x20#8).signExtend 64)) * 1099511628211#64) x =
      b.foldl (fun h c => (h ^^^ ((c ||| 0x20#8).signExtend 64)) * 1099511628211#64) x := by
    intro a
    induction a with
    | nil => intro b x h; cases b with
      | nil => rfl
      | cons => simp at h
    | cons c a ih => intro b x h; cases b with
      | nil => simp at h
      | cons d b =>
        simp only [List.map_cons, List.cons.injEq] at h
        simp only [List.foldl_cons]
        have hl : c ||| 0x20#8 = d ||| 0x20#8 := by
          have key : ∀ c : BitVec 8, lower c ||| 0x20#8 = c ||| 0x20#8 := by decide +kernel
          rw [← key c, ← key d, h.1]
        rw [hl]
        exact ih b _ h.2
  unfold getHash
  rw [key a b _ h]

theorem findLoop_spec (st : St) (n : Name) (l : List Tok) : ∀ v, Chain st.next v l →
    ∃ r, findLoop st n v = some r ∧
      ((r ∈ l ∧ same n (st.word r) = true) ∨ (r = 0 ∧ ∀ t ∈ l, same n (st.word t) = false)) := by
  induction l with
  | nil =>
    intro v h
    refine ⟨0, ?_, .inr ⟨rfl, by simp⟩⟩
    rw [findLoop.eq_def, if_pos (show v = 0 from h)]
  | cons p l ih =>
    intro v h
    obtain ⟨rfl, h1, h2⟩ := h
    rw [findLoop.eq_def, if_neg h1]
    rcases Bool.eq_false_or_eq_true (same n (st.word v)) with hs | hs
    · exact ⟨v, by simp [hs], .inl ⟨by simp, hs⟩⟩
    · obtain ⟨r, e, hr⟩ := ih _ h2
      refine ⟨r, by simp [hs, e], ?_⟩
      rcases hr with ⟨a, b⟩ | ⟨a, b⟩
      · exact .inl ⟨by simp [a], b⟩
      · refine .inr ⟨a, ?_⟩
        intro t ht
        rcases List.mem_cons.1 ht with rfl | h
        · exact hs
        · exact b t h

theorem find_spec {st P D} (H : Tbl st P D) (n : Name) : ∃ r, findResWord st n = some r ∧
    ((r ≠ 0 ∧ P r ∧ SameWord n (st.word r)) ∨ (r = 0 ∧ ∀ t, P t → ¬ SameWord n (st.word t))) := by
  obtain ⟨l, a, b, c⟩ := H.bk (getHash n)
  obtain ⟨r, e, hr⟩ := findLoop_spec st n l _ a
  refine ⟨r, e, ?_⟩
  rcases hr with ⟨h1, h2⟩ | ⟨h1, h2⟩
  · exact .inl ⟨chain_nz a h1, ((c r).1 h1).1, (same_iff _ _).1 h2⟩
  · refine .inr ⟨h1, fun t ht hs => ?_⟩
    have := h2 t ((c t).2 ⟨ht, (hash_same hs).symm⟩)
    rw [(same_iff _ _).2 hs] at this
    cases this

theorem addLoop_spec (st : St) (token : Tok) (l : List Tok) : ∀ v old, Chain st.next v l →
    ∃ l1 l2, l = l1 ++ l2 ∧ addLoop st token v old = some (l1.getLast?.getD old) := by
  induction l with
  | nil =>
    intro v old h
    refine ⟨[], [], rfl, ?_⟩
    rw [addLoop.eq_def, if_neg]; rfl
    simp only [Chain] at h
    simp [h]
  | cons p l ih =>
    intro v old h
    obtain ⟨rfl, h1, h2⟩ := h
    rw [addLoop.eq_def]
    by_cases hl : st.len v ≤ st.len token
    · rw [if_pos ⟨h1, hl⟩]
      obtain ⟨l1, l2, e, f⟩ := ih _ v h2
      refine ⟨v :: l1, l2, by simp [e], ?_⟩
      rw [f]
      cases l1 <;> simp [List.getLast?_cons]
    · rw [if_neg (fun h => hl h.2)]
      exact ⟨[], v :: l, rfl, rfl⟩

theorem add_spec {st P D} (H : Tbl st P D) {t} (hp : ¬ P t) (hd : t ∉ D) (h0 : t ≠ 0) :
    ∃ nx tb, addResWord st t = some { st with next := nx, tab := tb } ∧
      Tbl { st with next := nx, tab := tb } (fun u => u = t ∨ P u) D := by
  obtain ⟨l, a, b, c⟩ := H.bk (getHash (st.word t))
  obtain ⟨l1, l2, e, f⟩ := addLoop_spec st t l _ 0 a
  have htl : t ∉ l := fun h => hp ((c t).1 h).1
  unfold addResWord
  simp only [f, Option.map_some]
  rcases List.eq_nil_or_concat l1 with rfl | ⟨l1', o, rfl⟩
  · -- at the head
    simp only [List.nil_append] at e; subst e
    refine ⟨upd st.next t (st.tab (getHash (st.word t))), upd st.tab (getHash (st.word t)) t, by simp, ?_⟩
    refine ⟨?_, chain_upd hd H.rem, H.tl, H.dn, ?_⟩
    · intro i
      by_cases hi : i = getHash (st.word t)
      · subst hi
        refine ⟨t :: l, ⟨by simp [upd], h0, ?_⟩, by simp [htl, b], ?_⟩
        · simp only [upd, if_true]
          exact chain_upd htl a
        · intro u
          simp only [List.mem_cons, c u]
          constructor
          · rintro (rfl | ⟨x, y⟩)
            · exact ⟨.inl rfl, rfl⟩
            · exact ⟨.inr x, y⟩
          · rintro ⟨rfl | x, y⟩
            · exact .inl rfl
            · exact .inr ⟨x, y⟩
      · obtain ⟨l', a', b', c'⟩ := H.bk i
        refine ⟨l', ?_, b', ?_⟩
        · have ht' : t ∉ l' := fun h => hp ((c' t).1 h).1
          simp only [upd, if_neg hi]
          exact chain_upd ht' a'
        · intro u
          rw [c' u]
          constructor
          · rintro ⟨x, y⟩; exact ⟨.inr x, y⟩
          · rintro ⟨rfl | x, y⟩
            · exact absurd y.symm hi
            · exact ⟨x, y⟩
    · rintro u hu (rfl | h)
      · exact hd hu
      · exact H.disj u hu h
  · -- after o
    simp only [List.concat_eq_append, List.append_assoc, List.cons_append, List.nil_append] at e
    subst e
    have ho0 : o ≠ 0 := chain_nz a (by simp)
    have hoP : P o := ((c o).1 (by simp)).1
    have hto : o ≠ t := by rintro rfl; exact htl (by simp)
    refine ⟨upd (upd st.next t (st.next o)) o t, st.tab, by simp [ho0], ?_⟩
    refine ⟨?_, chain_upd (fun h => H.disj o h hoP) (chain_upd hd H.rem), H.tl, H.dn, ?_⟩
    · intro i
      by_cases hi : i = getHash (st.word t)
      · subst hi
        refine ⟨l1' ++ o :: t :: l2, chain_insert a b htl h0, ?_, ?_⟩
        · have : (l1' ++ o :: t :: l2).Perm (t :: (l1' ++ o :: l2)) := by
            have := @List.perm_middle _ t (l1' ++ [o]) l2
            simpa using this
          rw [this.nodup_iff]
          exact List.nodup_cons.2 ⟨htl, b⟩
        · intro u
          have := c u
          simp only [List.mem_append, List.mem_cons] at this ⊢
          constructor
          · rintro (h | h | h | h)
            · exact ⟨.inr (this.1 (.inl h)).1, (this.1 (.inl h)).2⟩
            · exact ⟨.inr (this.1 (.inr (.inl h))).1, (this.1 (.inr (.inl h))).2⟩
            · subst h; exact ⟨.inl rfl, rfl⟩
            · exact ⟨.inr (this.1 (.inr (.inr h))).1, (this.1 (.inr (.inr h))).2⟩
          · rintro ⟨rfl | x, y⟩
            · simp
            · rcases this.2 ⟨x, y⟩ with h | h | h
              · exact .inl h
              · exact .inr (.inl h)
              · exact .inr (.inr (.inr h))
      · obtain ⟨l', a', b', c'⟩ := H.bk i
        refine ⟨l', ?_, b', ?_⟩
        · have ht' : t ∉ l' := fun h => hp ((c' t).1 h).1
          have ho' : o ∉ l' := fun h => hi (((c' o).1 h).2.symm.trans ((c o).1 (by simp)).2)
          exact chain_upd ho' (chain_upd ht' a')
        · intro u
          rw [c' u]
          constructor
          · rintro ⟨x, y⟩; exact ⟨.inr x, y⟩
          · rintro ⟨rfl | x, y⟩
            · exact absurd y.symm hi
            · exact ⟨x, y⟩
    · rintro u hu (rfl | h)
      · exact hd hu
      · exact H.disj u hu h

theorem removeLoop_absent (st : St) (token : Tok) (i : Nat) (l : List Tok) : ∀ v old, Chain st.next v l →
    token ∉ l → removeLoop st token i v old = some st := by
  induction l with
  | nil => intro v old h _; rw [removeLoop.eq_def, if_pos (show v = 0 from h)]
  | cons p l ih =>
    intro v old h hn
    obtain ⟨rfl, h1, h2⟩ := h
    simp only [List.mem_cons, not_or] at hn
    rw [removeLoop.eq_def, if_neg h1, if_neg (fun h => hn.1 h.symm)]
    exact ih _ _ h2 hn.2

theorem removeLoop_found (st : St) (token : Tok) (i : Nat) (l2 l1 : List Tok) : ∀ v old,
    Chain st.next v (l1 ++ token :: l2) → token ∉ l1 →
    removeLoop st token i v old =
      if l1.getLast?.getD old ≠ 0 then some { st with next := upd st.next (l1.getLast?.getD old) (st.next token) }
      else some { st with tab := upd st.tab i (st.next token) } := by
  induction l1 with
  | nil =>
    intro v old h _
    obtain ⟨rfl, h1, h2⟩ := h
    rw [removeLoop.eq_def, if_neg h1, if_pos rfl]
    rfl
  | cons p l ih =>
    intro v old h hn
    obtain ⟨rfl, h1, h2⟩ := h
    simp only [List.mem_cons, not_or] at hn
    rw [removeLoop.eq_def, if_neg h1, if_neg (fun h => hn.1 h.symm)]
    rw [ih _ v h2 hn.2]
    have : (v :: l).getLast?.getD old = l.getLast?.getD v := by cases l <;> simp [List.getLast?_cons]
    rw [this]

theorem rem_spec {st P D} (H : Tbl st P D) (t) :
    ∃ nx tb, removeResWord st t = some { st with next := nx, tab := tb } ∧
      Tbl { st with next := nx, tab := tb } (fun u => u ≠ t ∧ P u) D := by
  obtain ⟨l, a, b, c⟩ := H.bk (getHash (st.word t))
  unfold removeResWord
  by_cases htl : t ∈ l
  · obtain ⟨l1, l2, rfl⟩ := List.append_of_mem htl
    have hn1 : t ∉ l1 := by
      rw [List.nodup_append] at b
      intro h
      exact b.2.2 t h t (by simp) rfl
    have hmem : ∀ u, u ∈ l1 ++ l2 ↔ u ≠ t ∧ u ∈ l1 ++ t :: l2 := by
      intro u
      have h2 : t ∉ l2 := by
        rw [List.nodup_append] at b
        exact (List.nodup_cons.1 b.2.1).1
      simp only [List.mem_append, List.mem_cons]
      constructor
      · rintro (h | h)
        · exact ⟨by rintro rfl; exact hn1 h, .inl h⟩
        · exact ⟨by rintro rfl; exact h2 h, .inr (.inr h)⟩
      · rintro ⟨h, h' | h' | h'⟩
        · exact .inl h'
        · exact absurd h' h
        · exact .inr h'
    have hnd : (l1 ++ l2).Nodup := by
      refine List.Nodup.sublist ?_ b
      exact List.Sublist.append_left (List.sublist_cons_self _ _) _
    have hother : ∀ i, i ≠ getHash (st.word t) → ∀ l' : List Tok, (∀ u, u ∈ l' ↔ P u ∧ getHash (st.word u) = i) →
        ∀ u, u ∈ l' ↔ (u ≠ t ∧ P u) ∧ getHash (st.word u) = i := by
      intro i hi l' c' u
      rw [c' u]
      constructor
      · rintro ⟨x, y⟩
        exact ⟨⟨by rintro rfl; exact hi y.symm, x⟩, y⟩
      · rintro ⟨⟨_, x⟩, y⟩; exact ⟨x, y⟩
    simp only [removeLoop_found st t _ l2 l1 _ 0 a hn1]
    rcases List.eq_nil_or_concat l1 with rfl | ⟨l1', o, rfl⟩
    · simp only [List.nil_append, List.getLast?_nil, Option.getD_none, ne_eq, not_true_eq_false, if_false]
      refine ⟨st.next, upd st.tab (getHash (st.word t)) (st.next t), rfl, ?_⟩
      refine ⟨?_, H.rem, H.tl, H.dn, fun u hu h => H.disj u hu h.2⟩
      intro i
      by_cases hi : i = getHash (st.word t)
      · subst hi
        refine ⟨l2, ?_, by simpa using hnd, ?_⟩
        · simp only [upd, if_true]
          exact a.2.2
        · intro u
          have h1 := hmem u
          simp only [List.nil_append] at h1
          rw [h1]
          have := c u
          simp only [List.nil_append] at this
          rw [this]
          exact and_assoc.symm
      · obtain ⟨l', a', b', c'⟩ := H.bk i
        exact ⟨l', by simpa only [upd, if_neg hi] using a', b', hother i hi l' c'⟩
    · simp only [List.concat_eq_append, List.append_assoc, List.cons_append, List.nil_append] at *
      have ho0 : o ≠ 0 := chain_nz a (by simp)
      have hoP : P o := ((c o).1 (by simp)).1
      refine ⟨upd st.next o (st.next t), st.tab, by simp [ho0], ?_⟩
      refine ⟨?_, chain_upd (fun h => H.disj o h hoP) H.rem, H.tl, H.dn, fun u hu h => H.disj u hu h.2⟩
      intro i
      by_cases hi : i = getHash (st.word t)
      · subst hi
        refine ⟨l1' ++ o :: l2, chain_unlink a b, hnd, ?_⟩
        intro u
        rw [hmem u, c u]
        exact and_assoc.symm
      · obtain ⟨l', a', b', c'⟩ := H.bk i
        have ho' : o ∉ l' := fun h => hi (((c' o).1 h).2.symm.trans ((c o).1 (by simp)).2)
        exact ⟨l', chain_upd ho' a', b', hother i hi l' c'⟩
  · refine ⟨st.next, st.tab, removeLoop_absent st t _ l _ 0 a htl, H.congr fun u => ?_⟩
    constructor
    · intro h
      refine ⟨?_, h⟩
      rintro rfl
      exact htl ((c u).2 ⟨h, rfl⟩)
    · exact fun h => h.2

theorem setName_spec {st P D} (H : Tbl st P D) {t} (hp : ¬ P t) (nm lc ln) :
    Tbl (setName st t nm lc ln) P D := by
  refine ⟨?_, H.rem, H.tl, H.dn, H.disj⟩
  intro i
  obtain ⟨l, a, b, c⟩ := H.bk i
  refine ⟨l, a, b, fun u => ?_⟩
  rw [c u]
  have : ∀ h : P u, (setName st t nm lc ln).word u = st.word u := by
    intro h
    have : u ≠ t := by rintro rfl; exact hp h
    simp [setName, St.word, upd, this]
  constructor
  · rintro ⟨x, y⟩; exact ⟨x, by rw [this x]; exact y⟩
  · rintro ⟨x, y⟩; exact ⟨x, by rw [← this x]; exact y⟩

/-- the words added by the loop of Set64Bit -/
theorem forAdd_spec {D} (dis : Tok → Bool) (l : List Tok) : ∀ {st P}, Tbl st P D → st.disabled = dis →
    l.Nodup → (∀ t ∈ l, t ≠ 0 ∧ ¬ P t) → (∀ t ∈ l, dis t = false → t ∉ D) →
    ∃ nx tb, forToks addResWord st l = some { st with next := nx, tab := tb } ∧
      Tbl { st with next := nx, tab := tb } (fun u => (u ∈ l ∧ dis u = false) ∨ P u) D := by
  induction l with
  | nil =>
    intro st P H _ _ _ _
    exact ⟨st.next, st.tab, rfl, H.congr (by simp)⟩
  | cons t l ih =>
    intro st P H hd hn hp hD
    simp only [List.nodup_cons] at hn
    unfold forToks
    rcases Bool.eq_false_or_eq_true (dis t) with h | h
    · rw [if_pos (show st.disabled t = true by rw [hd]; exact h)]
      obtain ⟨nx, tb, e, H'⟩ := ih H hd hn.2 (fun u hu => hp u (by simp [hu])) (fun u hu => hD u (by simp [hu]))
      refine ⟨nx, tb, e, H'.congr fun u => ?_⟩
      simp only [List.mem_cons]
      constructor
      · rintro (⟨a, b⟩ | a)
        · exact .inl ⟨.inr a, b⟩
        · exact .inr a
      · rintro (⟨rfl | a, b⟩ | a)
        · rw [h] at b; cases b
        · exact .inl ⟨a, b⟩
        · exact .inr a
    · rw [if_neg (show ¬ st.disabled t = true by rw [hd]; simp [h])]
      have ht := hp t (by simp)
      obtain ⟨nx, tb, e, H'⟩ := add_spec H ht.2 (hD t (by simp) h) ht.1
      obtain ⟨nx', tb', e', H''⟩ := ih H' hd hn.2
        (fun u hu => ⟨(hp u (by simp [hu])).1, by
          rintro (rfl | hh)
          · exact hn.1 hu
          · exact (hp u (by simp [hu])).2 hh⟩) (fun u hu => hD u (by simp [hu]))
      refine ⟨nx', tb', by rw [e]; exact e', H''.congr fun u => ?_⟩
      simp only [List.mem_cons]
      constructor
      · rintro (⟨a, b⟩ | rfl | a)
        · exact .inl ⟨.inr a, b⟩
        · exact .inl ⟨.inl rfl, h⟩
        · exact .inr a
      · rintro (⟨rfl | a, b⟩ | a)
        · exact .inr (.inl rfl)
        · exact .inl ⟨a, b⟩
        · exact .inr (.inr a)

/-- the words removed by the loop of Set64Bit -/
theorem forRem_spec {D} (dis : Tok → Bool) (l : List Tok) : ∀ {st P}, Tbl st P D → st.disabled = dis →
    ∃ nx tb, forToks removeResWord st l = some { st with next := nx, tab := tb } ∧
      Tbl { st with next := nx, tab := tb } (fun u => ¬ (u ∈ l ∧ dis u = false) ∧ P u) D := by
  induction l with
  | nil =>
    intro st P H _
    exact ⟨st.next, st.tab, rfl, H.congr (by simp)⟩
  | cons t l ih =>
    intro st P H hd
    unfold forToks
    rcases Bool.eq_false_or_eq_true (dis t) with h | h
    · rw [if_pos (show st.disabled t = true by rw [hd]; exact h)]
      obtain ⟨nx, tb, e, H'⟩ := ih H hd
      refine ⟨nx, tb, e, H'.congr fun u => ?_⟩
      simp only [List.mem_cons]
      constructor
      · rintro ⟨a, b⟩
        refine ⟨?_, b⟩
        rintro ⟨rfl | c, d⟩
        · rw [h] at d; cases d
        · exact a ⟨c, d⟩
      · rintro ⟨a, b⟩
        exact ⟨fun c => a ⟨.inr c.1, c.2⟩, b⟩
    · rw [if_neg (show ¬ st.disabled t = true by rw [hd]; simp [h])]
      obtain ⟨nx, tb, e, H'⟩ := rem_spec H t
      obtain ⟨nx', tb', e', H''⟩ := ih H' hd
      refine ⟨nx', tb', by rw [e]; exact e', H''.congr fun u => ?_⟩
      simp only [List.mem_cons]
      constructor
      · rintro ⟨a, b, c⟩
        refine ⟨?_, c⟩
        rintro ⟨rfl | d, d'⟩
        · exact b rfl
        · exact a ⟨d, d'⟩
      · rintro ⟨a, b⟩
        refine ⟨fun c => a ⟨.inr c.1, c.2⟩, ?_, b⟩
        rintro rfl
        exact a ⟨.inl rfl, h⟩

/-- The state after disabling a keyword. -/
def afterDisable (st : St) (t : Tok) (nx : Tok → Tok) (tb : Nat → Tok) (hh tt : Tok) : St :=
  { st with next := nx, tab := tb, head := hh, tail := tt, disabled := upd st.disabled t true }

theorem disable_spec {st P D} (H : Tbl st P D) {t} (hd : st.disabled t = false) (h0 : t ≠ 0) (hD : t ∉ D) :
    ∃ nx tb hh tt, disableKeyword st t = some (afterDisable st t nx tb hh tt) ∧
      Tbl (afterDisable st t nx tb hh tt) (fun u => u ≠ t ∧ P u) (D ++ [t]) := by
  obtain ⟨nx, tb, e, H'⟩ := rem_spec H t
  unfold disableKeyword
  rw [if_neg (by simp [hd]), e]
  have bk' : ∀ nx', (∀ u, u ≠ t → u ∉ D → nx' u = nx u) →
      ∀ i, ∃ l, Chain nx' (tb i) l ∧ l.Nodup ∧ ∀ u, u ∈ l ↔ (u ≠ t ∧ P u) ∧ getHash (st.word u) = i := by
    intro nx' hx i
    obtain ⟨l, a, b, c⟩ := H'.bk i
    refine ⟨l, chain_congr (fun x hx' => hx x ?_ ?_) a, b, c⟩
    · exact ((c x).1 hx').1.1
    · intro h; exact H.disj x h ((c x).1 hx').1.2
  by_cases hh : st.head = 0
  · have hDn : D = [] := by
      have := H.rem
      cases hD' : D with
      | nil => rfl
      | cons p D => rw [hD'] at this; exact absurd (this.1.symm.trans hh) this.2.1
    subst hDn
    refine ⟨upd nx t 0, tb, t, t, by simp [hh, afterDisable], ?_⟩
    refine ⟨bk' (upd nx t 0) (fun u h _ => by simp [upd, h]), ⟨rfl, h0, by simp [upd, Chain, afterDisable]⟩, by simp [afterDisable], by simp, ?_⟩
    intro u hu h
    simp only [List.nil_append, List.mem_singleton] at hu
    exact h.1 hu
  · have hDn : D ≠ [] := by
      rintro rfl; exact hh H.rem
    have htl := H.tl hDn
    refine ⟨upd (upd nx t 0) st.tail t, tb, st.head, t, by simp [hh, afterDisable], ?_⟩
    refine ⟨bk' (upd (upd nx t 0) st.tail t) ?_, ?_, by simp [afterDisable], ?_, ?_⟩
    · intro u h h'
      have : u ≠ st.tail := by
        rintro rfl; rw [htl] at h'; exact h' (List.getLast_mem _)
      simp [upd, h, this]
    · have h1 : Chain (upd nx t 0) st.head D := chain_upd hD H'.rem
      have := chain_append h1 hDn H.dn hD h0 (by simp [upd])
      rw [← htl] at this
      exact this
    · rw [List.nodup_append]
      exact ⟨H.dn, by simp, by rintro a ha b hb rfl; simp only [List.mem_singleton] at hb; subst hb; exact hD ha⟩
    · intro u hu h
      rcases List.mem_append.1 hu with hu | hu
      · exact H.disj u hu h.2
      · simp only [List.mem_singleton] at hu; exact h.1 hu

end Verif.ResWords
