import Mathlib.Data.List.Forall2
import Verif.Coff.Syms
/-! The indices stored in relocations are those of the entries. -/
namespace Verif.Coff

theorem number_mono_right {k i : Nat} {e : Ent} {a b : List Ent} (h : (i, e) ∈ number k a) : (i, e) ∈ number k (a ++ b) := by
  rw [number_append]; exact List.mem_append_left _ h

theorem number_right {k i : Nat} {e : Ent} {a b : List Ent} (h : (i, e) ∈ number (k + width a) b) : (i, e) ∈ number k (a ++ b) := by
  rw [number_append]; exact List.mem_append_right _ h

theorem number_lt {k i : Nat} {e : Ent} {a : List Ent} (h : (i, e) ∈ number k a) : i < k + width a := by
  induction a generalizing k with
  | nil => simp [number] at h
  | cons x r ih =>
    simp only [number, List.mem_cons] at h
    simp only [width]
    rcases h with h | h
    · cases h; omega
    · have := ih h; omega

/-! ## Sections -/

theorem width_secs (m : Mod) : ∀ (l : List Sec) (b : Nat), width (l.mapIdx (fun j s => secEnt m (b + j) s))
    = l.length + (if m.opt.noSecAux then 0 else l.length)
  | [], _ => by simp [width]
  | s :: r, b => by
    rw [List.mapIdx_cons, show (fun j s' => secEnt m (b + (j + 1)) s') = (fun j s' => secEnt m (b + 1 + j) s') from by
      funext j s'; congr 1; omega]
    simp only [width, width_secs m r (b + 1), List.length_cons]
    rw [show (secEnt m (b + 0) s).aux = if m.opt.noSecAux then 0 else 1 from rfl]
    split <;> omega

theorem sec_number (m : Mod) : ∀ (l : List Sec) (b k i : Nat) (s : Sec), l[i]? = some s →
    (k + i + (if m.opt.noSecAux then 0 else i), secEnt m (b + i) s) ∈ number k (l.mapIdx (fun j s => secEnt m (b + j) s))
  | [], _, _, i, s, h => by simp at h
  | x :: r, b, k, 0, s, h => by
    simp at h
    subst h
    simp [List.mapIdx_cons, number]
  | x :: r, b, k, i + 1, s, h => by
    rw [List.mapIdx_cons, show (fun j s' => secEnt m (b + (j + 1)) s') = (fun j s' => secEnt m (b + 1 + j) s') from by
      funext j s'; congr 1; omega]
    simp only [number, List.mem_cons]
    right
    have := sec_number m r (b + 1) (k + 1 + (secEnt m (b + 0) x).aux) i s (by simpa using h)
    rw [show b + 1 + i = b + (i + 1) by omega, show k + 1 + (secEnt m (b + 0) x).aux + i + (if m.opt.noSecAux then 0 else i)
      = k + (i + 1) + (if m.opt.noSecAux then 0 else i + 1) by
        rw [show (secEnt m (b + 0) x).aux = if m.opt.noSecAux then 0 else 1 from rfl]
        split <;> omega] at this
    exact this

/-! ## Externals and publics -/

def extEnts (m : Mod) : List Ent := (m.exts.filter (fun e => usedExt (m.env e))).map (fun e => extEnt (m.env e))

theorem idxExts_spec (env : Nat → Sym) : ∀ (l : List Nat) (ext : Nat → Nat) (k : Nat), l.Nodup →
    (idxExts env ext k l).2 = k + width ((l.filter (fun e => usedExt (env e))).map (fun e => extEnt (env e))) ∧
    (∀ x, x ∉ l → (idxExts env ext k l).1 x = ext x) ∧
    (∀ e ∈ l, usedExt (env e) = true → ((idxExts env ext k l).1 e, extEnt (env e)) ∈
      number k ((l.filter (fun e => usedExt (env e))).map (fun e => extEnt (env e))))
  | [], ext, k, _ => by simp [idxExts, width]
  | e :: r, ext, k, hd => by
    have hd' := List.nodup_cons.1 hd
    by_cases hw : (env e).isComm = false ∧ (env e).weak = true
    · have hu : usedExt (env e) = false := by simp [usedExt, hw]
      obtain ⟨h1, h2, h3⟩ := idxExts_spec env r ext k hd'.2
      rw [idxExts, if_pos hw, List.filter_cons_of_neg (by simp [hu])]
      refine ⟨h1, fun x hx => h2 x (fun hh => hx (by simp [hh])), fun x hx hux => ?_⟩
      rcases List.mem_cons.1 hx with h | h
      · subst h; rw [hu] at hux; cases hux
      · exact h3 x h hux
    · have hu : usedExt (env e) = true := by
        simp only [usedExt]
        cases h1 : (env e).isComm <;> cases h2 : (env e).weak <;> simp_all
      have haux : (extEnt (env e)).aux = if (env e).isComm = false ∧ (env e).altname.isSome then 1 else 0 := by
        simp [extEnt, isAlt]
      obtain ⟨h1, h2, h3⟩ := idxExts_spec env r (upd ext e k)
        (k + 1 + (if (env e).isComm = false ∧ (env e).altname.isSome then 1 else 0)) hd'.2
      rw [idxExts, if_neg hw, List.filter_cons_of_pos (by simpa using hu), List.map_cons]
      simp only [width, number, List.mem_cons, haux]
      refine ⟨by omega, fun x hx => ?_, fun x hx hux => ?_⟩
      · rw [h2 x (fun hh => hx (by simp [hh]))]
        simp only [upd]
        rw [if_neg (fun hh => hx (by simp [hh]))]
      · rcases hx with h | h
        · subst h
          left
          rw [h2 _ hd'.1]
          simp [upd]
        · right; exact h3 x h hux

def pubEnts (m : Mod) (pubs : List Nat) : List Ent := pubs.map (fun p => pubEnt (m.env p))

theorem width_pubs (m : Mod) : ∀ (l : List Nat), width (pubEnts m l) = l.length
  | [] => rfl
  | p :: r => by
    show 1 + 0 + width (pubEnts m r) = _
    rw [width_pubs m r, List.length_cons]; omega

theorem idxPubs_spec (m : Mod) : ∀ (l : List Nat) (ext : Nat → Nat) (k : Nat), l.Nodup →
    (idxPubs ext k l).2 = k + l.length ∧ (∀ x, x ∉ l → (idxPubs ext k l).1 x = ext x) ∧
    (∀ p ∈ l, ((idxPubs ext k l).1 p, pubEnt (m.env p)) ∈ number k (pubEnts m l))
  | [], ext, k, _ => by simp [idxPubs]
  | p :: r, ext, k, hd => by
    have hd' := List.nodup_cons.1 hd
    obtain ⟨h1, h2, h3⟩ := idxPubs_spec m r (upd ext p k) (k + 1) hd'.2
    rw [idxPubs]
    refine ⟨by rw [h1, List.length_cons]; omega, fun x hx => ?_, fun x hx => ?_⟩
    · rw [h2 x (fun hh => hx (by simp [hh]))]
      simp only [upd]
      rw [if_neg (fun hh => hx (by simp [hh]))]
    · rw [show pubEnts m (p :: r) = pubEnt (m.env p) :: pubEnts m r from rfl]
      simp only [number, List.mem_cons]
      rcases List.mem_cons.1 hx with h | h
      · subst h
        left
        rw [h2 _ hd'.1]
        simp [upd]
      · right; exact h3 x h

/-- Entries before the aliases. -/
def preEnts (m : Mod) (pubs : List Nat) : List Ent :=
  (if m.opt.safeseh then [⟨ascii "@feat.00", 1, 0xffff, 0, 3, 0⟩] else []) ++
  (if m.opt.noFile then [] else [⟨ascii ".file", 0, 0xfffe, 0, 103, auxCount m.file⟩]) ++
  m.secs.mapIdx (secEnt m) ++ extEnts m ++ pubEnts m pubs

theorem expected_eq (m : Mod) (pubs : List Nat) : expected m pubs = preEnts m pubs ++ m.aliases.map (fun a => aliasEnt (m.env a.1)) := rfl

theorem width_head (m : Mod) : width ((if m.opt.safeseh then [⟨ascii "@feat.00", 1, 0xffff, 0, 3, 0⟩] else []) ++
  (if m.opt.noFile then [] else [⟨ascii ".file", 0, 0xfffe, 0, 103, auxCount m.file⟩]) : List Ent) = sectionStart m := by
  rw [width_append]
  simp only [sectionStart, auxCount]
  cases m.opt.safeseh <;> cases m.opt.noFile <;> simp [width] <;> omega

theorem pre_mono (m : Mod) (pubs more : List Nat) {x : Nat × Ent} (h : x ∈ number 0 (preEnts m pubs)) :
    x ∈ number 0 (preEnts m (pubs ++ more)) := by
  have : preEnts m (pubs ++ more) = preEnts m pubs ++ pubEnts m more := by simp [preEnts, pubEnts]
  rw [this]
  exact number_mono_right h

theorem secs_mapIdx (m : Mod) : m.secs.mapIdx (fun j s => secEnt m (0 + j) s) = m.secs.mapIdx (secEnt m) := by
  congr 1; funext j s; rw [Nat.zero_add]

theorem secIdx_pre (m : Mod) (pubs : List Nat) (i : Nat) (s : Sec) (h : m.secs[i]? = some s) :
    (secIdx m i, secEnt m i s) ∈ number 0 (preEnts m pubs) := by
  have h1 := sec_number m m.secs 0 (sectionStart m) i s h
  simp only [Nat.zero_add] at h1
  rw [preEnts]
  apply number_mono_right
  apply number_mono_right
  apply number_right
  rw [width_head, Nat.zero_add]
  exact h1

/-- First index of the externals, and of the publics. -/
def baseE (m : Mod) : Nat := sectionStart m + m.secs.length + (if m.opt.noSecAux then 0 else m.secs.length)
def baseP (m : Mod) : Nat := baseE m + width (extEnts m)

theorem width_upto (m : Mod) : width ((if m.opt.safeseh then [⟨ascii "@feat.00", 1, 0xffff, 0, 3, 0⟩] else []) ++
  (if m.opt.noFile then [] else [⟨ascii ".file", 0, 0xfffe, 0, 103, auxCount m.file⟩]) ++ m.secs.mapIdx (secEnt m) : List Ent) = baseE m := by
  rw [width_append, width_head, ← secs_mapIdx, width_secs, baseE]; omega

theorem ext_pre (m : Mod) (pubs : List Nat) {x : Nat × Ent} (h : x ∈ number (baseE m) (extEnts m)) :
    x ∈ number 0 (preEnts m pubs) := by
  rw [preEnts]
  apply number_mono_right
  apply number_right
  rw [width_upto, Nat.zero_add]
  exact h

theorem pub_pre (m : Mod) (pubs : List Nat) {x : Nat × Ent} (h : x ∈ number (baseP m) (pubEnts m pubs)) :
    x ∈ number 0 (preEnts m pubs) := by
  rw [preEnts]
  apply number_right
  rw [width_append, width_upto, Nat.zero_add]
  exact h

/-! ## The invariant -/

/-- What holds of the symbol index state. -/
structure Inv (m : Mod) (st : IdxSt) : Prop where
  nodup : st.pubs.Nodup
  more : ∃ r, st.pubs = m.pubs ++ r ∧ ∀ p ∈ r, (m.env p).state = .internal ∧ (m.env p).isPublic = false ∧ m.included p = false
  pub : ∀ p ∈ st.pubs, (st.ext p, pubEnt (m.env p)) ∈ number (baseP m) (pubEnts m st.pubs)
  ext : ∀ e ∈ m.exts, usedExt (m.env e) = true → (st.ext e, extEnt (m.env e)) ∈ number (baseE m) (extEnts m)
  index : st.index = baseP m + st.pubs.length
  marked : ∀ p ∈ st.pubs, (m.env p).isPublic = true ∨ st.included p = true
  inc : ∀ p, st.included p = true → m.included p = true ∨ p ∈ st.pubs

theorem addProcs_spec (env : Nat → Sym) : ∀ (l : List Nat) (inc : Nat → Bool) (pubs : List Nat), pubs.Nodup →
    (∀ p ∈ pubs, (env p).isPublic = true ∨ inc p = true) →
    ∃ r, (addProcs env inc pubs l).2 = pubs ++ r ∧ (pubs ++ r).Nodup ∧
      (∀ p ∈ r, (env p).state = .internal ∧ (env p).isPublic = false ∧ inc p = false) ∧
      (∀ p ∈ pubs ++ r, (env p).isPublic = true ∨ (addProcs env inc pubs l).1 p = true) ∧
      (∀ p, (addProcs env inc pubs l).1 p = true → inc p = true ∨ p ∈ pubs ++ r)
  | [], inc, pubs, hd, hm => ⟨[], by simp [addProcs, hd], by simpa using hd, by simp, by simpa [addProcs] using hm,
      by intro p hp; left; exact hp⟩
  | p :: l, inc, pubs, hd, hm => by
    by_cases hc : (env p).state = .internal ∧ (env p).isPublic = false ∧ inc p = false
    · have hnp : p ∉ pubs := by
        intro hp
        rcases hm p hp with h | h
        · rw [hc.2.1] at h; cases h
        · rw [hc.2.2] at h; cases h
      have hd2 : (pubs ++ [p]).Nodup := by
        rw [List.nodup_append]
        refine ⟨hd, by simp, ?_⟩
        intro a ha b hb
        rcases List.mem_singleton.1 hb with rfl
        intro e; subst e; exact hnp ha
      obtain ⟨r, h1, h2, h3, h4, h5⟩ := addProcs_spec env l (upd inc p true) (pubs ++ [p]) hd2 (by
        intro q hq
        rcases List.mem_append.1 hq with h | h
        · rcases hm q h with h | h
          · exact Or.inl h
          · right; simp only [upd]; split <;> simp [h]
        · right
          rcases List.mem_singleton.1 h with rfl
          simp [upd])
      refine ⟨p :: r, ?_, ?_, ?_, ?_, ?_⟩
      · rw [addProcs, if_pos hc, h1]; simp
      · simpa using h2
      · intro q hq
        rcases List.mem_cons.1 hq with h | h
        · subst h; exact hc
        · obtain ⟨a, b, c⟩ := h3 q h
          refine ⟨a, b, ?_⟩
          simp only [upd] at c
          split at c
          · cases c
          · exact c
      · rw [addProcs, if_pos hc]
        intro q hq
        exact h4 q (by simpa using hq)
      · rw [addProcs, if_pos hc]
        intro q hq
        rcases h5 q hq with h | h
        · simp only [upd] at h
          split at h
          · subst_vars; right; simp
          · exact Or.inl h
        · right; simpa using h
    · rw [addProcs, if_neg hc]
      exact addProcs_spec env l inc pubs hd hm

theorem inv_init (m : Mod) (hm : ModOk m) : Inv m (setSymbolIndices m) := by
  obtain ⟨h1, h2, h3⟩ := idxExts_spec m.env m.exts (fun _ => 0) (baseE m) hm.extNodup
  have hp : ∃ r, (if m.opt.noStaticProcs then (m.included, m.pubs) else addProcs m.env m.included m.pubs m.procs).2 = m.pubs ++ r ∧
      (m.pubs ++ r).Nodup ∧ (∀ p ∈ r, (m.env p).state = .internal ∧ (m.env p).isPublic = false ∧ m.included p = false) ∧
      (∀ p ∈ m.pubs ++ r, (m.env p).isPublic = true ∨
        (if m.opt.noStaticProcs then (m.included, m.pubs) else addProcs m.env m.included m.pubs m.procs).1 p = true) ∧
      (∀ p, (if m.opt.noStaticProcs then (m.included, m.pubs) else addProcs m.env m.included m.pubs m.procs).1 p = true →
        m.included p = true ∨ p ∈ m.pubs ++ r) := by
    split
    · exact ⟨[], by simp, by simpa using hm.pubNodup, by simp, by simpa using hm.pubMarked, fun p hp => Or.inl hp⟩
    · exact addProcs_spec m.env m.procs m.included m.pubs hm.pubNodup hm.pubMarked
  obtain ⟨r, hr, hnd, hint, hmark, hinc⟩ := hp
  have hq := idxPubs_spec m (m.pubs ++ r) (idxExts m.env (fun _ => 0) (baseE m) m.exts).1
    (idxExts m.env (fun _ => 0) (baseE m) m.exts).2 hnd
  obtain ⟨q1, q2, q3⟩ := hq
  have hbase : (idxExts m.env (fun _ => 0) (baseE m) m.exts).2 = baseP m := by rw [h1]; rfl
  have hst : setSymbolIndices m = ⟨(idxPubs (idxExts m.env (fun _ => 0) (baseE m) m.exts).1
    (idxExts m.env (fun _ => 0) (baseE m) m.exts).2 (m.pubs ++ r)).1, m.pubs ++ r,
    (if m.opt.noStaticProcs then (m.included, m.pubs) else addProcs m.env m.included m.pubs m.procs).1,
    (idxPubs (idxExts m.env (fun _ => 0) (baseE m) m.exts).1
    (idxExts m.env (fun _ => 0) (baseE m) m.exts).2 (m.pubs ++ r)).2, false⟩ := by
    rw [← hr]; rfl
  rw [hst]
  refine ⟨hnd, ⟨r, rfl, hint⟩, ?_, ?_, ?_, hmark, hinc⟩
  · rw [← hbase]; exact q3
  · intro e he hu
    have hne : e ∉ m.pubs ++ r := by
      intro hh
      rcases List.mem_append.1 hh with h | h
      · exact (hm.extState e he).2 h
      · have := (hint e h).1
        rw [(hm.extState e he).1] at this
        cases this
    show ((idxPubs _ _ _).1 e, _) ∈ _
    rw [q2 e hne]
    exact h3 e he hu
  · show (idxPubs _ _ _).2 = _
    rw [q1, hbase]

/-- The relocation's index is that of its target, the invariant is kept and no entry changes its index. -/
theorem fixIndex_spec (m : Mod) (hm : ModOk m) (st : IdxSt) (hi : Inv m st) (f : Fix) (id : Nat) (ht : TargetOk m f id) :
    Inv m (fixIndex m st f id).2 ∧ (∃ r, (fixIndex m st f id).2.pubs = st.pubs ++ r) ∧
    ∃ e, target m f id = some e ∧ ((fixIndex m st f id).1, e) ∈ number 0 (preEnts m (fixIndex m st f id).2.pubs) := by
  have hsec : ∀ i, i < m.secs.length → ∃ e, m.secs[i]?.map (secEnt m i) = some e ∧ (secIdx m i, e) ∈ number 0 (preEnts m st.pubs) := by
    intro i hlt
    have : m.secs[i]? = some m.secs[i] := List.getElem?_eq_getElem hlt
    exact ⟨secEnt m i m.secs[i], by rw [this]; rfl, secIdx_pre m _ i _ this⟩
  by_cases hv : (m.env id).isVar = true
  · simp only [fixIndex, TargetOk, target, hv, if_true] at ht ⊢
    exact ⟨hi, ⟨[], by simp⟩, hsec _ ht⟩
  · have hv' : (m.env id).isVar = false := by simpa using hv
    by_cases hc : (m.env id).state = .internal ∧ st.included id = false ∧ (m.env id).isPublic = false
    · have hf : fixIndex m st f id = (st.index, ⟨upd st.ext id st.index, st.pubs ++ [id], upd st.included id true, st.index + 1, st.err⟩) := by
        simp only [fixIndex, hv']
        rw [if_neg (by simp), if_pos hc]
      have hnp : id ∉ st.pubs := by
        intro hp
        rcases hi.marked id hp with h | h
        · rw [hc.2.2] at h; cases h
        · rw [hc.2.1] at h; cases h
      have hni : m.included id = false := by
        cases hh : m.included id with
        | false => rfl
        | true =>
          exfalso
          simp only [TargetOk, hv', hc.1] at ht
          have := ht (Or.inr hh)
          obtain ⟨r, hr, _⟩ := hi.more
          exact hnp (by rw [hr]; exact List.mem_append_left _ this)
      have hself : (st.index, pubEnt (m.env id)) ∈ number (baseP m) (pubEnts m (st.pubs ++ [id])) := by
        rw [pubEnts, List.map_append]
        apply number_right
        have := width_pubs m st.pubs
        rw [pubEnts] at this
        rw [this, hi.index]
        simp [number]
      rw [hf]
      refine ⟨⟨?_, ?_, ?_, ?_, ?_, ?_, ?_⟩, ⟨[id], rfl⟩, pubEnt (m.env id), ?_, pub_pre m _ hself⟩
      · show (st.pubs ++ [id]).Nodup
        rw [List.nodup_append]
        refine ⟨hi.nodup, by simp, ?_⟩
        intro a ha b hb
        rcases List.mem_singleton.1 hb with rfl
        intro e; subst e; exact hnp ha
      · obtain ⟨r, hr, hrr⟩ := hi.more
        refine ⟨r ++ [id], by show st.pubs ++ [id] = _; rw [hr, List.append_assoc], ?_⟩
        intro p hp
        rcases List.mem_append.1 hp with h | h
        · exact hrr p h
        · rcases List.mem_singleton.1 h with rfl
          exact ⟨hc.1, hc.2.2, hni⟩
      · intro p hp
        show (upd st.ext id st.index p, _) ∈ _
        simp only [upd]
        split
        · subst_vars; exact hself
        · rename_i hne
          rcases List.mem_append.1 hp with h | h
          · show _ ∈ number (baseP m) (pubEnts m (st.pubs ++ [id]))
            rw [pubEnts, List.map_append]
            exact number_mono_right (hi.pub p h)
          · exact absurd (List.mem_singleton.1 h) hne
      · intro e he hu
        show (upd st.ext id st.index e, _) ∈ _
        have : e ≠ id := by
          intro h; subst h
          rw [(hm.extState e he).1] at hc
          exact absurd hc.1 (by simp)
        simp only [upd, this, if_false]
        exact hi.ext e he hu
      · show st.index + 1 = baseP m + (st.pubs ++ [id]).length
        rw [hi.index, List.length_append, List.length_singleton]; omega
      · intro p hp
        show _ ∨ upd st.included id true p = true
        simp only [upd]
        rcases List.mem_append.1 hp with h | h
        · rcases hi.marked p h with h | h
          · exact Or.inl h
          · right; split <;> simp [h]
        · right; rw [if_pos (List.mem_singleton.1 h)]
      · intro p hp
        change upd st.included id true p = true at hp
        show _ ∨ p ∈ st.pubs ++ [id]
        simp only [upd] at hp
        split at hp
        · subst_vars; right; simp
        · rcases hi.inc p hp with h | h
          · exact Or.inl h
          · right; exact List.mem_append_left _ h
      · simp [target, hv', hc.1]
    · cases hs : (m.env id).state with
      | seg i =>
        have hf : fixIndex m st f id = (secIdx m i, st) := by
          simp only [fixIndex, hv']
          rw [if_neg (by simp), if_neg hc, hs]
        simp only [TargetOk, hv', hs] at ht
        rw [hf]
        refine ⟨hi, ⟨[], by simp⟩, ?_⟩
        simp only [target, hv', hs]
        exact hsec i ht
      | external =>
        have hf : fixIndex m st f id = (st.ext id, st) := by
          simp only [fixIndex, hv']
          rw [if_neg (by simp), if_neg hc, hs]
        simp only [TargetOk, hv', hs] at ht
        rw [hf]
        refine ⟨hi, ⟨[], by simp⟩, extEnt (m.env id), by simp [target, hv', hs], ?_⟩
        exact ext_pre m _ (hi.ext id ht.1 ht.2)
      | internal =>
        have hf : fixIndex m st f id = (st.ext id, st) := by
          simp only [fixIndex, hv']
          rw [if_neg (by simp), if_neg hc, hs]
        simp only [TargetOk, hv', hs] at ht
        rw [hf]
        refine ⟨hi, ⟨[], by simp⟩, pubEnt (m.env id), by simp [target, hv', hs], ?_⟩
        apply pub_pre
        apply hi.pub
        obtain ⟨r, hr, _⟩ := hi.more
        have hmem : (m.env id).isPublic = true ∨ m.included id = true → id ∈ st.pubs := fun h => by
          rw [hr]; exact List.mem_append_left _ (ht h)
        cases hp : (m.env id).isPublic with
        | true => exact hmem (Or.inl hp)
        | false =>
          cases hinc : st.included id with
          | true =>
            rcases hi.inc id hinc with h | h
            · exact hmem (Or.inr h)
            · exact h
          | false => exact absurd ⟨hs, hinc, hp⟩ hc
      | other => simp [TargetOk, hv', hs] at ht

theorem relType_eq (u : Bool) (f : Fix) (t : Nat) (h : relocTypeOf u f = some t) : relType u f = .ok t := by
  cases u <;> cases hf : f.type <;> simp_all [relocTypeOf, relType]

/-- What a relocation must be. -/
def RelOk (m : Mod) (use64 : Bool) (syms : List (Nat × Ent)) (r : Nat × Nat × Nat) (f : Fix) : Prop :=
  r.1 = f.locofs ∧ relocTypeOf use64 f = some r.2.2 ∧
  ∃ id e, f.sym = some id ∧ target m f id = some e ∧ (r.2.1, e) ∈ syms

theorem RelOk.mono {m : Mod} {u : Bool} {s1 s2 : List (Nat × Ent)} (h : ∀ x ∈ s1, x ∈ s2) {r f} (hr : RelOk m u s1 r f) :
    RelOk m u s2 r f := by
  obtain ⟨a, b, id, e, c, d, g⟩ := hr
  exact ⟨a, b, id, e, c, d, h _ g⟩

theorem writeFixups_spec (m : Mod) (hm : ModOk m) (u : Bool) : ∀ (l : List Fix) (st : IdxSt), Inv m st →
    (∀ f ∈ l, f.sym.isSome → ∃ t, relocTypeOf u f = some t ∧ t < 65536) → (∀ f ∈ l, ∀ id, f.sym = some id → TargetOk m f id) →
    Inv m (writeFixups m u st l).2 ∧ (∃ r, (writeFixups m u st l).2.pubs = st.pubs ++ r) ∧
    List.Forall₂ (RelOk m u (number 0 (preEnts m (writeFixups m u st l).2.pubs))) (writeFixups m u st l).1
      (l.filter (fun f => f.sym.isSome)) ∧ (writeFixups m u st l).2.err = st.err
  | [], st, hi, _, _ => ⟨hi, ⟨[], by simp [writeFixups]⟩, List.Forall₂.nil, rfl⟩
  | f :: l, st, hi, ht, hg => by
    have ht' := fun g hg' => ht g (List.mem_cons_of_mem _ hg')
    have hg'' := fun g hg' => hg g (List.mem_cons_of_mem _ hg')
    cases hs : f.sym with
    | none =>
      simp only [writeFixups, hs]
      rw [List.filter_cons_of_neg (by simp [hs])]
      exact writeFixups_spec m hm u l st hi ht' hg''
    | some id =>
      obtain ⟨t, h1, h2⟩ := ht f (by simp) (by simp [hs])
      simp only [writeFixups, hs, relType_eq u f t h1]
      rw [List.filter_cons_of_pos (by simp [hs])]
      obtain ⟨a1, ⟨r1, a2⟩, e, a3, a4⟩ := fixIndex_spec m hm st hi f id (hg f (by simp) id hs)
      obtain ⟨b1, ⟨r2, b2⟩, b3, b4⟩ := writeFixups_spec m hm u l _ a1 ht' hg''
      refine ⟨b1, ⟨r1 ++ r2, by rw [b2, a2, List.append_assoc]⟩, List.Forall₂.cons ?_ b3, ?_⟩
      · refine ⟨rfl, h1, id, e, hs, a3, ?_⟩
        rw [b2]
        exact pre_mono m _ _ a4
      · rw [b4]
        simp only [fixIndex]
        split
        · rfl
        · split
          · rfl
          · split <;> rfl

end Verif.Coff
