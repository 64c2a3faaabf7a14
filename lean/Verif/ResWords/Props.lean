import Verif.ResWords.Proofs
/-! # C12: keywords under NOKEYWORD, RENAMEKEYWORD and mode switches -/

namespace Verif.ResWords

open Verif.Symbols (Name lower)

/-- The C state represents the user's view. -/
structure Rep (cfg : Cfg) (st : St) (k : Kw) : Prop where
  tbl : ∃ D, Tbl st (k.Avail cfg) D ∧ ∀ t ∈ D, st.disabled t = true
  dis : ∀ t, st.disabled t = true ↔ k.off t
  b64 : st.b64 = k.m64
  word : ∀ t, 0 < t → t < cfg.count → st.word t = k.word t
  ren : st.renamed.map Ren.tok = k.ren
  orig : ∀ r ∈ st.renamed, r.name.take r.len = cfg.keyword r.tok ∧ r.len = (cfg.keyword r.tok).length
  rdup : k.ren.Nodup
  loc : ∀ t, 0 < t → t < cfg.count → (st.loc t = .heap ↔ t ∈ k.ren)
  same : ∀ t, 0 < t → t < cfg.count → t ∉ k.ren → t ≠ cfg.sysTok →
    (st.name t).take (st.len t) = cfg.keyword t ∧ st.len t = (cfg.keyword t).length
  sysR : cfg.sysTok ∉ k.ren
  sysOn : ¬ k.off cfg.sysTok
  sysLen : st.len cfg.sysTok = (cfg.keyword cfg.sysTok).length + (if k.m64 then 1 else 0)
  sys64 : k.m64 = true → k.word cfg.sysTok = cfg.strSyscall_ ∧
    st.sysName.take (cfg.keyword cfg.sysTok).length = cfg.keyword cfg.sysTok
  sys32 : k.m64 = false → k.word cfg.sysTok = cfg.keyword cfg.sysTok

theorem rep_find {cfg st k} (H : Rep cfg st k) (n) :
    ∃ r, findResWord st n = some r ∧ k.Finds cfg n r := by
  obtain ⟨D, T, _⟩ := H.tbl
  obtain ⟨r, e, h⟩ := find_spec T n
  refine ⟨r, e, ?_⟩
  rcases h with ⟨a, b, c⟩ | ⟨a, b⟩
  · exact .inl ⟨a, b, by rwa [← H.word r b.1 b.2.1]⟩
  · exact .inr ⟨a, fun t ht => by rw [← H.word t ht.1 ht.2.1]; exact b t ht⟩

theorem rep_disable {cfg st k} (H : Rep cfg st k) {t} (ht : k.Avail cfg t) (hs : t ≠ cfg.sysTok) :
    ∃ st', disableKeyword st t = some st' ∧ Rep cfg st' (k.disable t) := by
  obtain ⟨D, T, hD⟩ := H.tbl
  have hd : st.disabled t = false := by
    have := ht.2.2.1
    rw [← H.dis] at this
    simpa using this
  obtain ⟨nx, tb, hh, tt, e, T'⟩ := disable_spec T hd (T.nz ht) (fun h => T.disj t h ht)
  refine ⟨_, e, ?_⟩
  refine { tbl := ⟨D ++ [t], T'.congr ?_, ?_⟩, dis := ?_, b64 := H.b64, word := H.word, ren := H.ren, orig := H.orig,
           rdup := H.rdup, loc := H.loc, same := H.same, sysR := H.sysR, sysOn := ?_, sysLen := H.sysLen,
           sys64 := H.sys64, sys32 := H.sys32 }
  · intro u
    simp only [Kw.Avail, Kw.disable, not_or]
    constructor
    · rintro ⟨a, b, c, d, f⟩; exact ⟨b, c, ⟨a, d⟩, f⟩
    · rintro ⟨b, c, ⟨a, d⟩, f⟩; exact ⟨a, b, c, d, f⟩
  · intro u hu
    rcases List.mem_append.1 hu with h | h
    · have := hD u h
      simp only [afterDisable, upd]; split <;> simp [this]
    · simp only [List.mem_singleton] at h
      simp [afterDisable, upd, h]
  · intro u
    simp only [afterDisable, upd, Kw.disable, ← H.dis u]
    split <;> simp [*]
  · simp only [Kw.disable, not_or]
    exact ⟨fun h => hs h.symm, H.sysOn⟩

/-- What `renSearch` returns when it returns: the token is the first of the list. -/
theorem renSearch_head (r : Ren) (rs : List Ren) (new : Name) :
    renSearch (r :: rs) r.tok new =
      if r.len = new.length ∧ r.name.take new.length = new then some (some (r, rs)) else some none := by
  rw [renSearch.eq_def]; simp

theorem avail_rename_other {cfg : Cfg} {k : Kw} {t new u} :
    (k.rename cfg t new).Avail cfg u ↔ k.Avail cfg u := by
  unfold Kw.rename Kw.Avail
  split <;> simp

theorem word_setName_self (st : St) (t nm lc) : (setName st t nm lc nm.length).word t = nm := by
  simp [setName, St.word, upd]

theorem word_setName_other (st : St) {t u} (nm lc ln) (h : u ≠ t) : (setName st t nm lc ln).word u = st.word u := by
  simp [setName, St.word, upd, h]

theorem rep_rename {cfg st k} (H : Rep cfg st k) {t} (ht : k.Avail cfg t) (hs : t ≠ cfg.sysTok) (new : Name)
    (hsafe : t ∈ k.ren → ¬ SameWord new (k.word t) → k.ren.head? = some t) :
    ∃ st', renameKeyword st t new = some st' ∧ Rep cfg st' (k.rename cfg t new) := by
  obtain ⟨D, T, hD⟩ := H.tbl
  have h0 : t ≠ 0 := T.nz ht
  have htD : t ∉ D := fun h => T.disj t h ht
  unfold renameKeyword
  by_cases hsame : SameWord new (k.word t)
  · rw [← H.word t ht.1 ht.2.1] at hsame
    refine ⟨st, by rw [if_pos ((same_iff _ _).2 hsame)], ?_⟩
    rw [H.word t ht.1 ht.2.1] at hsame
    unfold Kw.rename
    rw [if_pos hsame]
    exact H
  · have hsame' := hsame
    rw [← H.word t ht.1 ht.2.1] at hsame'
    rw [if_neg (fun h => hsame' ((same_iff _ _).1 h))]
    obtain ⟨nx, tb, e, T1⟩ := rem_spec T t
    rw [e]
    have hk : k.rename cfg t new = { k with
        word := upd k.word t new
        ren := if t ∈ k.ren then (if new = cfg.keyword t then k.ren.filter (fun u => decide (u ≠ t)) else k.ren)
           else k.ren ++ [t] } := by
      unfold Kw.rename; rw [if_neg hsame]
    have hav : ∀ u, (u = t ∨ (u ≠ t ∧ k.Avail cfg u)) ↔ (k.rename cfg t new).Avail cfg u := by
      intro u
      rw [avail_rename_other]
      constructor
      · rintro (rfl | h)
        · exact ht
        · exact h.2
      · intro h
        by_cases hu : u = t
        · exact .inl hu
        · exact .inr ⟨hu, h⟩
    have hnt : ¬ (t ≠ t ∧ k.Avail cfg t) := fun h => h.1 rfl
    -- the final step, common to the three paths
    have fin : ∀ (nm : Name) (lc : Where) (ln : Nat) (rn : List Ren), nm.take ln = new → ln = new.length →
        rn.map Ren.tok = (k.rename cfg t new).ren →
        (∀ r ∈ rn, r.name.take r.len = cfg.keyword r.tok ∧ r.len = (cfg.keyword r.tok).length) →
        (k.rename cfg t new).ren.Nodup →
        (lc = .heap ↔ t ∈ (k.rename cfg t new).ren) →
        (t ∉ (k.rename cfg t new).ren → new = cfg.keyword t) →
        (∀ u, u ≠ t → (u ∈ (k.rename cfg t new).ren ↔ u ∈ k.ren)) →
        ∃ st', addResWord (setName { st with next := nx, tab := tb, renamed := rn } t nm lc ln) t = some st' ∧
          Rep cfg st' (k.rename cfg t new) := by
      intro nm lc ln rn h1 h2 h3 h4 h5 h6 h7 h8
      have T2 : Tbl { st with next := nx, tab := tb, renamed := rn } (fun u => u ≠ t ∧ k.Avail cfg u) D :=
        ⟨T1.bk, T1.rem, T1.tl, T1.dn, T1.disj⟩
      obtain ⟨nx', tb', e', T3⟩ := add_spec (setName_spec T2 hnt nm lc ln) hnt htD h0
      refine ⟨_, e', ?_⟩
      have hw : (k.rename cfg t new).word = upd k.word t new := by rw [hk]
      have hoff : (k.rename cfg t new).off = k.off := by rw [hk]
      have hm : (k.rename cfg t new).m64 = k.m64 := by rw [hk]
      have hsys : (k.rename cfg t new).word cfg.sysTok = k.word cfg.sysTok := by
        rw [hw]; unfold upd; rw [if_neg (fun h => hs h.symm)]
      refine { tbl := ⟨D, T3.congr hav, hD⟩, dis := (by rw [hoff]; exact H.dis), b64 := (by rw [hm]; exact H.b64), word := ?_, ren := h3, orig := h4,
               rdup := h5, loc := ?_, same := ?_, sysR := ?_, sysOn := (by rw [hoff]; exact H.sysOn), sysLen := ?_,
               sys64 := (by rw [hm, hsys]; exact H.sys64), sys32 := (by rw [hm, hsys]; exact H.sys32) }
      · intro u a b
        rw [hw]
        by_cases hu : u = t
        · subst hu
          simp only [upd, if_true]
          simp only [St.word, setName, upd, if_true]
          exact h1
        · simp only [upd, if_neg hu]
          simp only [St.word, setName, upd, if_neg hu]
          exact H.word u a b
      · intro u a b
        by_cases hu : u = t
        · subst hu
          simp only [setName, upd, if_true]
          exact h6
        · simp only [setName, upd, if_neg hu]
          rw [h8 u hu]
          exact H.loc u a b
      · intro u a b c d
        by_cases hu : u = t
        · subst hu
          simp only [setName, upd, if_true]
          rw [h1, h2, ← h7 c]
          exact ⟨rfl, rfl⟩
        · simp only [setName, upd, if_neg hu]
          exact H.same u a b (fun h => c ((h8 u hu).2 h)) d
      · intro h
        exact H.sysR ((h8 _ (fun h => hs h.symm)).1 h)
      · rw [hm]
        simp only [setName, upd, if_neg (fun h : cfg.sysTok = t => hs h.symm)]
        exact H.sysLen
    by_cases hr : t ∈ k.ren
    · have hl : st.loc t = .heap := (H.loc t ht.1 ht.2.1).2 hr
      have hh := hsafe hr hsame
      obtain ⟨r, rs, hrn⟩ : ∃ r rs, st.renamed = r :: rs := by
        cases hc : st.renamed with
        | nil => rw [← H.ren, hc] at hh; simp at hh
        | cons r rs => exact ⟨r, rs, rfl⟩
      have hrt : r.tok = t := by rw [← H.ren, hrn] at hh; simpa using hh
      have ho := H.orig r (by rw [hrn]; simp)
      simp only [Option.bind_eq_bind, Option.bind_some, hl, hrn]
      have hs := renSearch_head r rs new
      rw [hrt] at hs
      simp only [hs]
      rw [hrt] at ho
      have hrd := H.rdup
      rw [← H.ren, hrn] at hrd
      simp only [List.map_cons, List.nodup_cons, hrt] at hrd
      by_cases hc : r.len = new.length ∧ r.name.take new.length = new
      · have hnew : new = cfg.keyword t := by
          rw [← ho.1, hc.1]; exact hc.2.symm
        rw [if_pos hc]
        have hren : (k.rename cfg t new).ren = rs.map Ren.tok := by
          rw [hk]
          simp only [if_pos hr, if_pos hnew]
          rw [← H.ren, hrn]
          simp only [List.map_cons, hrt, List.filter_cons]
          simp only [ne_eq, not_true_eq_false, decide_false, Bool.false_eq_true, if_false]
          rw [List.filter_eq_self]
          intro a ha
          simp only [decide_eq_true_eq]
          rintro rfl
          exact hrd.1 ha
        refine fin r.name .table r.len rs (by rw [ho.1, hnew]) (by rw [ho.2, hnew]) hren.symm
          (fun x hx => H.orig x (by rw [hrn]; simp [hx])) (by rw [hren]; exact hrd.2) ?_ (fun _ => hnew) ?_
        · rw [hren]; simp [hrd.1]
        · intro u hu
          rw [hren, ← H.ren, hrn]
          simp [hrt, hu]
      · have hnew : new ≠ cfg.keyword t := by
          intro h
          apply hc
          rw [ho.2, h]
          refine ⟨rfl, ?_⟩
          rw [← ho.2]; exact ho.1
        rw [if_neg hc]
        have hren : (k.rename cfg t new).ren = k.ren := by
          rw [hk]; simp only [if_pos hr, if_neg hnew]
        refine fin new .heap new.length (r :: rs) (by simp) rfl (by rw [hren, ← hrn]; exact H.ren)
          (by rw [← hrn]; exact H.orig) (by rw [hren]; exact H.rdup) (by rw [hren]; simp [hr]) (by rw [hren]; exact fun h => absurd hr h)
          (fun u _ => by rw [hren])
    · have hl : st.loc t = .table := by
        cases h : st.loc t with
        | table => rfl
        | heap => exact absurd ((H.loc t ht.1 ht.2.1).1 h) hr
      simp only [Option.bind_eq_bind, Option.bind_some, hl]
      have hren : (k.rename cfg t new).ren = k.ren ++ [t] := by
        rw [hk]; simp only [if_neg hr]
      have hsm := H.same t ht.1 ht.2.1 hr hs
      refine fin new .heap new.length (st.renamed ++ [⟨t, st.name t, st.len t⟩]) (by simp) rfl
        (by rw [hren]; simp [H.ren]) ?_ ?_ (by rw [hren]; simp) (by rw [hren]; simp) (fun u hu => by rw [hren]; simp [hu])
      · intro r hr'
        rcases List.mem_append.1 hr' with h | h
        · exact H.orig r h
        · simp only [List.mem_singleton] at h
          subst h
          exact hsm
      · rw [hren, List.nodup_append]
        refine ⟨H.rdup, by simp, ?_⟩
        rintro a ha b hb rfl
        simp only [List.mem_singleton] at hb
        subst hb
        exact hr ha

theorem rep_set64 {cfg st k} (ok : cfg.Ok) (H : Rep cfg st k) (b : Bool) :
    ∃ st', set64Bit cfg st b = some st' ∧ Rep cfg st' (k.set64 cfg b) := by
  obtain ⟨D, T, hD⟩ := H.tbl
  have hsys := ok.sys
  have hs0 : cfg.sysTok ≠ 0 := Nat.ne_of_gt hsys.1
  have hsA : ∀ k' : Kw, k'.off = k.off → k'.Avail cfg cfg.sysTok := by
    intro k' h
    exact ⟨hsys.1, hsys.2.1, by rw [h]; exact H.sysOn, by simp [hsys.2.2.1], by simp [hsys.2.2.2]⟩
  have hsD : cfg.sysTok ∉ D := fun h => T.disj _ h (hsA k rfl)
  have hoff : ∀ u, st.disabled u = false ↔ ¬ k.off u := by
    intro u; rw [← H.dis u]; simp
  unfold set64Bit
  by_cases hb : b = st.b64
  · rw [if_pos hb]
    refine ⟨st, rfl, ?_⟩
    have : k.set64 cfg b = k := by
      rw [hb, H.b64]
      unfold Kw.set64
      cases k with
      | mk word off m64 ren =>
        simp only [Kw.mk.injEq, and_true, true_and]
        funext u
        unfold upd
        split
        · next h =>
          subst h
          cases m64 with
          | false => exact (H.sys32 rfl).symm
          | true => exact (H.sys64 rfl).1.symm
        · rfl
    rw [this]; exact H
  · rw [if_neg hb]
    cases b with
    | true =>
      have hm : k.m64 = false := by rw [← H.b64]; simpa using hb
      have hl : st.len cfg.sysTok = (cfg.keyword cfg.sysTok).length := by
        have := H.sysLen; rw [hm] at this; simpa using this
      obtain ⟨nx, tb, e, T1⟩ := rem_spec T cfg.sysTok
      have hn1 : ¬ (cfg.sysTok ≠ cfg.sysTok ∧ k.Avail cfg cfg.sysTok) := fun h => h.1 rfl
      have T2 : Tbl { st with next := nx, tab := tb, sysName := st.name cfg.sysTok }
          (fun u => u ≠ cfg.sysTok ∧ k.Avail cfg u) D := ⟨T1.bk, T1.rem, T1.tl, T1.dn, T1.disj⟩
      obtain ⟨nx2, tb2, e2, T3⟩ := add_spec (setName_spec T2 hn1 cfg.strSyscall_ .table (st.len cfg.sysTok + 1)) hn1 hsD hs0
      have T3' := T3.congr (Q := k.Avail cfg) (fun u => by
        constructor
        · rintro (rfl | h)
          · exact hsA k rfl
          · exact h.2
        · intro h
          by_cases hu : u = cfg.sysTok
          · exact .inl hu
          · exact .inr ⟨hu, h⟩)
      obtain ⟨nx3, tb3, e3, T4⟩ := forAdd_spec st.disabled cfg.patch64 T3' rfl ok.n64
        (fun u hu => by
          have := (ok.p64 u).1 hu
          exact ⟨Nat.ne_of_gt this.1, fun h => by have := h.2.2.2.1 this.2.2; rw [hm] at this; cases this⟩)
        (fun u hu hd h => by have := hD u h; rw [hd] at this; cases this)
      obtain ⟨nx4, tb4, e4, T5⟩ := forRem_spec st.disabled cfg.patch32 T4 rfl
      simp only [if_true, e, Option.bind_eq_bind, Option.bind_some, e2]
      rw [e3]
      simp only [Option.bind_some]
      rw [e4]
      simp only [Option.bind_some]
      refine ⟨_, rfl, ?_⟩
      have hword : ∀ u, u ≠ cfg.sysTok → (k.set64 cfg true).word u = k.word u := by
        intro u hu; simp [Kw.set64, upd, hu]
      refine { tbl := ⟨D, ?_, hD⟩, dis := H.dis, b64 := rfl, word := ?_, ren := H.ren, orig := H.orig, rdup := H.rdup,
               loc := ?_, same := ?_, sysR := H.sysR, sysOn := H.sysOn, sysLen := ?_, sys64 := ?_, sys32 := ?_ }
      · have := T5.congr (Q := (k.set64 cfg true).Avail cfg) (fun u => by
          simp only [ok.p32, ok.p64, Kw.Avail, Kw.set64, hm, hoff]
          constructor
          · rintro ⟨a, ⟨⟨b, c, d⟩, f⟩ | ⟨b, c, d, f, g⟩⟩
            · exact ⟨b, c, f, fun _ => by trivial, fun h => (ok.disj u d h).elim⟩
            · exact ⟨b, c, d, fun _ => by trivial, fun h => absurd ⟨⟨b, c, h⟩, d⟩ a⟩
          · rintro ⟨a, b, c, d, f⟩
            refine ⟨?_, ?_⟩
            · rintro ⟨⟨_, _, h⟩, _⟩
              exact absurd (f h) (by simp)
            · by_cases hx : cfg.x64 u = true
              · exact .inl ⟨⟨a, b, hx⟩, c⟩
              · exact .inr ⟨a, b, c, fun h => absurd h hx, fun _ => by trivial⟩)
        exact ⟨this.bk, this.rem, this.tl, this.dn, this.disj⟩
      · intro u a b
        by_cases hu : u = cfg.sysTok
        · subst hu
          simp only [St.word, setName, upd, if_true, Kw.set64, hl]
          rw [List.take_of_length_le]
          rw [ok.sysLen]; exact Nat.le_refl _
        · rw [hword u hu, ← H.word u a b]
          simp [St.word, setName, upd, hu]
      · intro u a b
        by_cases hu : u = cfg.sysTok
        · subst hu
          simp only [setName, upd, if_true, Kw.set64]
          simp [H.sysR]
        · simp only [setName, upd, if_neg hu]
          exact H.loc u a b
      · intro u a b c d
        simp only [setName, upd, if_neg d]
        exact H.same u a b c d
      · simp [setName, upd, Kw.set64, hl]
      · intro _
        refine ⟨by simp [Kw.set64, upd], ?_⟩
        have h1 := H.word cfg.sysTok hsys.1 hsys.2.1
        rw [H.sys32 hm] at h1
        simp only [St.word, hl] at h1
        exact h1
      · intro h; simp [Kw.set64] at h
    | false =>
      have hm : k.m64 = true := by
        rw [← H.b64]
        cases h : st.b64 with
        | true => rfl
        | false => rw [h] at hb; exact absurd rfl hb
      have hl : st.len cfg.sysTok = (cfg.keyword cfg.sysTok).length + 1 := by
        have := H.sysLen; rw [hm] at this; simpa using this
      obtain ⟨nx1, tb1, e1, T1⟩ := forRem_spec st.disabled cfg.patch64 T rfl
      obtain ⟨nx2, tb2, e2, T2⟩ := forAdd_spec st.disabled cfg.patch32 T1 rfl ok.n32
        (fun u hu => by
          have := (ok.p32 u).1 hu
          exact ⟨Nat.ne_of_gt this.1, fun h => by have := h.2.2.2.2.2 this.2.2; rw [hm] at this; cases this⟩)
        (fun u hu hd h => by have := hD u h; rw [hd] at this; cases this)
      obtain ⟨nx3, tb3, e3, T3⟩ := rem_spec T2 cfg.sysTok
      have hn1 : ∀ Q : Prop, ¬ (cfg.sysTok ≠ cfg.sysTok ∧ Q) := fun Q h => h.1 rfl
      obtain ⟨nx4, tb4, e4, T4⟩ := add_spec (setName_spec T3 (hn1 _) st.sysName .table (st.len cfg.sysTok - 1)) (hn1 _) hsD hs0
      simp only [Bool.false_eq_true, if_false, e1, Option.bind_eq_bind, Option.bind_some]
      rw [e2]
      simp only [Option.bind_some]
      rw [e3]
      simp only [Option.bind_some]
      rw [e4]
      simp only [Option.bind_some]
      refine ⟨_, rfl, ?_⟩
      have hword : ∀ u, u ≠ cfg.sysTok → (k.set64 cfg false).word u = k.word u := by
        intro u hu; simp [Kw.set64, upd, hu]
      refine { tbl := ⟨D, ?_, hD⟩, dis := H.dis, b64 := rfl, word := ?_, ren := H.ren, orig := H.orig, rdup := H.rdup,
               loc := ?_, same := ?_, sysR := H.sysR, sysOn := H.sysOn, sysLen := ?_, sys64 := ?_, sys32 := ?_ }
      · have := T4.congr (Q := (k.set64 cfg false).Avail cfg) (fun u => by
          have hss := hsA (k.set64 cfg false) rfl
          simp only [ok.p32, ok.p64, Kw.Avail, Kw.set64, hm, hoff] at hss ⊢
          constructor
          · rintro (rfl | ⟨_, ⟨⟨b, c, d⟩, f⟩ | ⟨a, b, c, d, f, g⟩⟩)
            · exact hss
            · exact ⟨b, c, f, fun h => (ok.disj u h d).elim, fun _ => by trivial⟩
            · exact ⟨b, c, d, fun h => absurd ⟨⟨b, c, h⟩, d⟩ a, fun _ => by trivial⟩
          · rintro ⟨a, b, c, d, f⟩
            by_cases hu : u = cfg.sysTok
            · exact .inl hu
            · refine .inr ⟨hu, ?_⟩
              by_cases hx : cfg.ia32 u = true
              · exact .inl ⟨⟨a, b, hx⟩, c⟩
              · refine .inr ⟨?_, a, b, c, fun _ => by trivial, fun h => absurd h hx⟩
                rintro ⟨⟨_, _, h⟩, _⟩
                exact absurd (d h) (by simp))
        exact ⟨this.bk, this.rem, this.tl, this.dn, this.disj⟩
      · intro u a b
        by_cases hu : u = cfg.sysTok
        · subst hu
          simp only [St.word, setName, upd, if_true, Kw.set64, hl, Nat.add_sub_cancel]
          exact (H.sys64 hm).2
        · rw [hword u hu, ← H.word u a b]
          simp [St.word, setName, upd, hu]
      · intro u a b
        by_cases hu : u = cfg.sysTok
        · subst hu
          simp only [setName, upd, if_true, Kw.set64]
          simp [H.sysR]
        · simp only [setName, upd, if_neg hu]
          exact H.loc u a b
      · intro u a b c d
        simp only [setName, upd, if_neg d]
        exact H.same u a b c d
      · simp [setName, upd, Kw.set64, hl]
      · intro h; simp [Kw.set64] at h
      · intro _; simp [Kw.set64, upd]

theorem initLoop_spec (cfg : Cfg) (ts : List Tok) : ∀ {st P}, Tbl st P [] → ts.Nodup →
    (∀ t ∈ ts, t ≠ 0 ∧ ¬ P t) →
    ∃ nx tb, initLoop cfg st ts = some { st with
        next := nx
        tab := tb
        name := fun t => if t ∈ ts then cfg.keyword t else st.name t
        loc := fun t => if t ∈ ts then .table else st.loc t
        len := fun t => if t ∈ ts then (cfg.keyword t).length else st.len t } ∧
      Tbl { st with
        next := nx
        tab := tb
        name := fun t => if t ∈ ts then cfg.keyword t else st.name t
        loc := fun t => if t ∈ ts then .table else st.loc t
        len := fun t => if t ∈ ts then (cfg.keyword t).length else st.len t }
        (fun u => (u ∈ ts ∧ cfg.x64 u = false) ∨ P u) [] := by
  induction ts with
  | nil =>
    intro st P H _ _
    refine ⟨st.next, st.tab, ?_, ?_⟩
    · simp [initLoop]
    · simp only [List.not_mem_nil, if_false, false_and, false_or]
      exact H
  | cons t ts ih =>
    intro st P H hn hp
    simp only [List.nodup_cons] at hn
    have ht := hp t (by simp)
    have H1 := setName_spec H ht.2 (cfg.keyword t) .table (cfg.keyword t).length
    unfold initLoop
    have key : ∀ {α : Type} (f g : Tok → α), (fun u => if u ∈ ts then f u else upd g t (f t) u) =
        (fun u => if u ∈ t :: ts then f u else g u) := by
      intro α f g
      funext u
      by_cases h : u = t
      · subst h; simp [hn.1, upd]
      · simp [h, upd]
    rcases Bool.eq_false_or_eq_true (cfg.x64 t) with hx | hx
    · simp only [hx, if_true]
      obtain ⟨nx, tb, e, T⟩ := ih H1 hn.2 (fun u hu => hp u (by simp [hu]))
      simp only [setName] at e T
      rw [key cfg.keyword st.name, key (fun _ => Where.table) st.loc, key (fun t => (cfg.keyword t).length) st.len] at e T
      refine ⟨nx, tb, e, T.congr fun u => ?_⟩
      simp only [List.mem_cons]
      constructor
      · rintro (⟨a, b⟩ | a)
        · exact .inl ⟨.inr a, b⟩
        · exact .inr a
      · rintro (⟨rfl | a, b⟩ | a)
        · rw [hx] at b; cases b
        · exact .inl ⟨a, b⟩
        · exact .inr a
    · simp only [hx, Bool.false_eq_true, if_false]
      obtain ⟨nx0, tb0, e0, T0⟩ := add_spec H1 ht.2 (by simp) ht.1
      obtain ⟨nx, tb, e, T⟩ := ih T0 hn.2 (fun u hu => ⟨(hp u (by simp [hu])).1, by
          rintro (rfl | hh)
          · exact hn.1 hu
          · exact (hp u (by simp [hu])).2 hh⟩)
      rw [e0]
      simp only [setName] at e T
      rw [key cfg.keyword st.name, key (fun _ => Where.table) st.loc, key (fun t => (cfg.keyword t).length) st.len] at e T
      refine ⟨nx, tb, e, T.congr fun u => ?_⟩
      simp only [List.mem_cons]
      constructor
      · rintro (⟨a, b⟩ | rfl | a)
        · exact .inl ⟨.inr a, b⟩
        · exact .inl ⟨.inl rfl, hx⟩
        · exact .inr a
      · rintro (⟨rfl | a, b⟩ | a)
        · exact .inr (.inl rfl)
        · exact .inl ⟨a, b⟩
        · exact .inr (.inr a)

theorem mem_toks (cfg : Cfg) (t : Tok) : t ∈ cfg.toks ↔ 0 < t ∧ t < cfg.count := by
  simp only [Cfg.toks, List.mem_filter, List.mem_range, decide_eq_true_eq]
  constructor
  · rintro ⟨a, b⟩; exact ⟨Nat.pos_of_ne_zero b, a⟩
  · rintro ⟨a, b⟩; exact ⟨b, Nat.ne_of_gt a⟩

theorem rep_init (cfg : Cfg) (ok : cfg.Ok) :
    ∃ st, resWordsInit cfg = some st ∧ Rep cfg st (Kw.init cfg) := by
  have T0 : Tbl ⟨fun _ => 0, fun _ => 0, fun _ => [], fun _ => .table, fun _ => 0, fun _ => false,
      0, 0, [], false, []⟩ (fun _ => False) [] :=
    ⟨fun i => ⟨[], rfl, by simp, by simp⟩, rfl, fun h => absurd rfl h, by simp, by simp⟩
  obtain ⟨nx, tb, e, T⟩ := initLoop_spec cfg cfg.toks T0
    (List.Nodup.sublist List.filter_sublist List.nodup_range)
    (fun t ht => ⟨Nat.ne_of_gt ((mem_toks cfg t).1 ht).1, by simp⟩)
  refine ⟨_, e, ?_⟩
  have hm : ∀ t, 0 < t → t < cfg.count → t ∈ cfg.toks := fun t a b => (mem_toks cfg t).2 ⟨a, b⟩
  refine { tbl := ⟨[], T.congr ?_, by simp⟩, dis := by simp [Kw.init], b64 := rfl, word := ?_, ren := rfl,
           orig := by simp, rdup := by simp [Kw.init], loc := ?_, same := ?_, sysR := by simp [Kw.init],
           sysOn := by simp [Kw.init], sysLen := ?_, sys64 := by simp [Kw.init], sys32 := fun _ => rfl }
  · intro u
    simp only [mem_toks, Kw.Avail, Kw.init, or_false, not_false_eq_true, true_and, Bool.false_eq_true, imp_false,
      Bool.not_eq_true, implies_true, and_true, and_assoc]
  · intro t a b
    simp [St.word, hm t a b, Kw.init]
  · intro t a b
    simp [hm t a b, Kw.init]
  · intro t a b _ _
    simp [hm t a b]
  · simp [hm _ ok.sys.1 ok.sys.2.1, Kw.init]

theorem rep_step {cfg st k} (ok : cfg.Ok) (H : Rep cfg st k) (o : Op) (hs : k.SafeOp cfg o) :
    ∃ st' k' r, step cfg st o = some (st', r) ∧ k.Step cfg o k' r ∧ Rep cfg st' k' := by
  cases o with
  | find n =>
    obtain ⟨r, e, f⟩ := rep_find H n
    exact ⟨st, k, r, by simp [step, e], .find f, H⟩
  | noKeyword n =>
    obtain ⟨r, e, f⟩ := rep_find H n
    by_cases h0 : r = 0
    · subst h0
      exact ⟨st, k, 0, by simp [step, e], .noKeyword0 f, H⟩
    · have ha : k.Avail cfg r := by
        rcases f with f | f
        · exact f.2.1
        · exact absurd f.1 h0
      obtain ⟨st', e', R⟩ := rep_disable H ha (by rintro rfl; exact hs f)
      exact ⟨st', _, r, by simp [step, e, h0, e'], .noKeyword f h0, R⟩
  | rename old new =>
    obtain ⟨r, e, f⟩ := rep_find H old
    by_cases h0 : r = 0
    · subst h0
      exact ⟨st, k, 0, by simp [step, e], .rename0 f, H⟩
    · have ha : k.Avail cfg r := by
        rcases f with f | f
        · exact f.2.1
        · exact absurd f.1 h0
      obtain ⟨st', e', R⟩ := rep_rename H ha (by rintro rfl; exact hs.1 f) new (fun a b => hs.2 r f h0 a b)
      exact ⟨st', _, r, by simp [step, e, h0, e'], .rename f h0, R⟩
  | set64 b =>
    obtain ⟨st', e', R⟩ := rep_set64 ok H b
    exact ⟨st', _, 0, by simp [step, e'], .set64, R⟩

theorem rep_run {cfg} (ok : cfg.Ok) (ops : List Op) : ∀ {st k}, Rep cfg st k → k.Safe cfg ops →
    ∃ st' k' rs, run cfg st ops = some (st', rs) ∧ Kw.Run cfg k ops k' rs ∧ Rep cfg st' k' := by
  induction ops with
  | nil => intro st k H _; exact ⟨st, k, [], rfl, .nil, H⟩
  | cons o os ih =>
    intro st k H hs
    obtain ⟨st1, k1, r, e1, s1, R1⟩ := rep_step ok H o hs.1
    obtain ⟨st2, k2, rs, e2, s2, R2⟩ := ih R1 (hs.2 k1 r s1)
    exact ⟨st2, k2, r :: rs, by simp [run, e1, e2], .cons s1 s2, R2⟩

/-- **C12.** From program start, every history of keyword lookups, OPTION NOKEYWORD, OPTION
RENAMEKEYWORD and mode switches that is `Safe` (SYSCALL untouched, no re-renaming of a keyword other
than the one renamed first) terminates, and every lookup in it is answered correctly: the answer is a
keyword that is enabled, belongs to the current mode and is currently spelled that way; the answer is
"no keyword" only if there is none. -/
theorem C12_keywords_partial (cfg : Cfg) (ok : cfg.Ok) :
    ∃ st0, resWordsInit cfg = some st0 ∧ ∀ ops, (Kw.init cfg).Safe cfg ops →
      ∃ st rs k, run cfg st0 ops = some (st, rs) ∧ Kw.Run cfg (Kw.init cfg) ops k rs ∧
        ∀ n, ∃ r, findResWord st n = some r ∧ k.Finds cfg n r := by
  obtain ⟨st0, e, R⟩ := rep_init cfg ok
  refine ⟨st0, e, fun ops hs => ?_⟩
  obtain ⟨st, k, rs, a, b, c⟩ := rep_run ok ops R hs
  exact ⟨st, rs, k, a, b, rep_find c⟩

/-- If only one available keyword is spelled `n`, that is the one found. -/
theorem finds_unique {cfg : Cfg} {k : Kw} {n r t} (h : k.Finds cfg n r) (ha : k.Avail cfg t)
    (hw : SameWord n (k.word t)) (hu : ∀ u, k.Avail cfg u → SameWord n (k.word u) → u = t) : r = t := by
  rcases h with ⟨_, a, b⟩ | ⟨_, b⟩
  · exact hu r a b
  · exact absurd hw (b t ha)

/-! ## The defect of RENAMEKEYWORD -/

/-- The search of `RenameKeyword` in the list of renamed keywords does not end if the first node is not
the one sought. -/
theorem renSearch_hangs (r : Ren) (rs : List Ren) (t : Tok) (new : Name) (h : r.tok ≠ t) :
    renSearch (r :: rs) t new = none := by
  have := renSearch.partial_correctness (r :: rs) t new (motive := fun _ => False) ?_
  · cases hr : renSearch (r :: rs) t new with
    | none => rfl
    | some v => exact (this _ hr).elim
  · intro f ih v hv
    simp only [if_neg h] at hv
    exact ih _ hv

/-- **C12, refuted part.** In every state: renaming a keyword that already has a user-defined name but
was not the first keyword renamed never returns. -/
theorem C12_rename_again_hangs {cfg st k} (H : Rep cfg st k) {t} (ht : k.Avail cfg t) (hr : t ∈ k.ren)
    (hh : k.ren.head? ≠ some t) (new : Name) (hn : ¬ SameWord new (k.word t)) :
    renameKeyword st t new = none := by
  obtain ⟨D, T, hD⟩ := H.tbl
  unfold renameKeyword
  rw [← H.word t ht.1 ht.2.1] at hn
  rw [if_neg (fun h => hn ((same_iff _ _).1 h))]
  obtain ⟨nx, tb, e, T1⟩ := rem_spec T t
  have hl : st.loc t = .heap := (H.loc t ht.1 ht.2.1).2 hr
  simp only [e, Option.bind_eq_bind, Option.bind_some, hl]
  cases hc : st.renamed with
  | nil => rw [← H.ren, hc] at hr; simp at hr
  | cons r rs =>
    rw [renSearch_hangs]; rfl
    intro h
    apply hh
    rw [← H.ren, hc]
    simp [h]

/-! ## A concrete configuration: hypotheses are met -/

/-- Keywords `aa`, `bb` (64-bit only), `cc` (not in 64-bit), `sy`, `dd`. -/
def exCfg : Cfg where
  count := 6
  keyword t := match t with
    | 1 => [97, 97] | 2 => [98, 98] | 3 => [99, 99] | 4 => [115, 121] | 5 => [100, 100] | _ => []
  ia32 t := t == 3
  x64 t := t == 2
  patch64 := [2]
  patch32 := [3]
  sysTok := 4
  strSyscall_ := [115, 121, 95]

theorem exCfg_ok : exCfg.Ok where
  p64 t := by
    simp only [exCfg, List.mem_singleton, beq_iff_eq]
    exact ⟨fun h => by subst h; decide, fun h => h.2.2⟩
  p32 t := by
    simp only [exCfg, List.mem_singleton, beq_iff_eq]
    exact ⟨fun h => by subst h; decide, fun h => h.2.2⟩
  n64 := by simp [exCfg]
  n32 := by simp [exCfg]
  disj t h h' := by
    have h : t = 2 := by simpa [exCfg] using h
    have h' : t = 3 := by simpa [exCfg] using h'
    rw [h] at h'; cases h'
  sys := by decide
  sysLen := by decide

theorem ex_word (t : Tok) (h : 0 < t) (h' : t < 6) : t = 1 ∨ t = 2 ∨ t = 3 ∨ t = 4 ∨ t = 5 := by
  have : ∀ n : Nat, 0 < n → n < 6 → n = 1 ∨ n = 2 ∨ n = 3 ∨ n = 4 ∨ n = 5 := by omega
  exact this t h h'

/-- The history: rename `aa` to `zz`, switch to 64-bit, look up `bb`. -/
example : (Kw.init exCfg).Safe exCfg [.rename [97, 97] [122, 122], .set64 true, .find [66, 98]] := by
  refine ⟨⟨?_, ?_⟩, fun _ _ _ => ⟨trivial, fun _ _ _ => ⟨trivial, fun _ _ _ => trivial⟩⟩⟩
  · rintro (⟨_, _, h⟩ | ⟨h, _⟩)
    · exact absurd h (by unfold SameWord; decide +kernel)
    · exact absurd h (by decide)
  · intro r _ _ h; simp [Kw.init] at h

/-- The defect is reachable: two renames followed by renaming the second again hang the assembler. -/
theorem C12_hang_reachable : ∃ st0, resWordsInit exCfg = some st0 ∧
    run exCfg st0 [.rename [97, 97] [122, 122], .rename [100, 100] [120, 120], .rename [120, 120] [121, 121]] = none := by
  obtain ⟨st0, e, R0⟩ := rep_init exCfg exCfg_ok
  refine ⟨st0, e, ?_⟩
  -- lookups have unique answers here
  have uniq : ∀ (k : Kw) (n : Name) (t : Tok), k.off = (fun _ => False) → k.m64 = false → 0 < t → t < 6 → t ≠ 2 →
      SameWord n (k.word t) → (∀ u, 0 < u → u < 6 → u ≠ 2 → SameWord n (k.word u) → u = t) →
      ∀ r, k.Finds exCfg n r → r = t := by
    intro k n t h1 h2 h3 h4 h5 h6 h7 r hr
    refine finds_unique hr ⟨h3, h4, by simp [h1], ?_, fun _ => h2⟩ h6 ?_
    · intro h; exact absurd (by simpa [exCfg] using h) h5
    · intro u hu hw
      refine h7 u hu.1 hu.2.1 ?_ hw
      rintro rfl
      have := hu.2.2.2.1 rfl
      rw [h2] at this; cases this
  have step1 : ∀ {st k} (R : Rep exCfg st k) (old new : Name) (t : Tok), (∀ r, k.Finds exCfg old r → r = t) →
      t ≠ 0 → k.Avail exCfg t → t ≠ 4 → t ∉ k.ren → ∃ st', step exCfg st (.rename old new) = some (st', t) ∧
        Rep exCfg st' (k.rename exCfg t new) := by
    intro st k R old new t hu h0 ha h4 hr
    obtain ⟨r, e, f⟩ := rep_find R old
    have := hu r f; subst this
    obtain ⟨st', e', R'⟩ := rep_rename R ha h4 new (fun h => absurd h hr)
    exact ⟨st', by simp [step, e, h0, e'], R'⟩
  have av : ∀ (k : Kw) (t : Tok), k.off = (fun _ => False) → k.m64 = false → 0 < t → t < 6 → t ≠ 2 → k.Avail exCfg t := by
    intro k t h1 h2 h3 h4 h5
    exact ⟨h3, h4, by simp [h1], fun h => absurd (by simpa [exCfg] using h) h5, fun _ => h2⟩
  have nsame : ∀ {a b : Name}, a.map lower ≠ b.map lower → ¬ SameWord a b := fun h => h
  let k1 := (Kw.init exCfg).rename exCfg 1 [122, 122]
  have hk1 : k1 = ⟨upd exCfg.keyword 1 [122, 122], fun _ => False, false, [1]⟩ := by
    show Kw.rename _ _ _ _ = _
    unfold Kw.rename
    rw [if_neg (nsame (by decide +kernel))]
    simp [Kw.init]
  let k2 := k1.rename exCfg 5 [120, 120]
  have hk2 : k2 = ⟨upd (upd exCfg.keyword 1 [122, 122]) 5 [120, 120], fun _ => False, false, [1, 5]⟩ := by
    show Kw.rename _ _ _ _ = _
    rw [hk1]
    unfold Kw.rename
    rw [if_neg (nsame (by decide +kernel))]
    simp
  obtain ⟨st1, e1, R1⟩ := step1 R0 [97, 97] [122, 122] 1
    (uniq _ _ 1 rfl rfl (by decide) (by decide) (by decide) rfl (by
      intro u a b c h
      rcases ex_word u a b with rfl | rfl | rfl | rfl | rfl
      · rfl
      all_goals exact absurd h (nsame (by decide +kernel)))) (by decide) (av _ 1 rfl rfl (by decide) (by decide) (by decide))
    (by decide) (by simp [Kw.init])
  change Rep exCfg st1 k1 at R1
  have R1' := R1
  rw [hk1] at R1'
  obtain ⟨st2, e2, R2⟩ := step1 R1' [100, 100] [120, 120] 5
    (uniq _ _ 5 rfl rfl (by decide) (by decide) (by decide) rfl (by
      intro u a b c h
      rcases ex_word u a b with rfl | rfl | rfl | rfl | rfl
      · exact absurd h (nsame (by decide +kernel))
      · exact absurd h (nsame (by decide +kernel))
      · exact absurd h (nsame (by decide +kernel))
      · exact absurd h (nsame (by decide +kernel))
      · rfl)) (by decide) (av _ 5 rfl rfl (by decide) (by decide) (by decide))
    (by decide) (by simp)
  rw [← hk1] at R2
  change Rep exCfg st2 k2 at R2
  rw [hk2] at R2
  obtain ⟨r, e3, f3⟩ := rep_find R2 [120, 120]
  have hr : r = 5 := uniq _ _ 5 rfl rfl (by decide) (by decide) (by decide) rfl (by
      intro u a b c h
      rcases ex_word u a b with rfl | rfl | rfl | rfl | rfl
      · exact absurd h (nsame (by decide +kernel))
      · exact absurd h (nsame (by decide +kernel))
      · exact absurd h (nsame (by decide +kernel))
      · exact absurd h (nsame (by decide +kernel))
      · rfl) r f3
  subst hr
  have hang := C12_rename_again_hangs R2 (t := 5) (av _ 5 rfl rfl (by decide) (by decide) (by decide)) (by simp)
    (by simp) [121, 121] (nsame (by decide +kernel))
  have e4 : step exCfg st2 (.rename [120, 120] [121, 121]) = none := by
    simp only [step, e3, Option.bind_eq_bind, Option.bind_some, hang]
    rfl
  simp only [run, e1, e2, e4, Option.bind_eq_bind, Option.bind_some, Option.bind_none]

end Verif.ResWords
