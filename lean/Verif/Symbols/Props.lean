import Verif.Symbols.Update
/-!
# C11: the symbol table behaves as a finite map with scoping

For every history of references, labels, locals, procedures (nested or not), case-mapping changes
and passes, the chained hash tables give exactly the answers of the abstract table of `Spec`.
-/

namespace Verif.Symbols

theorem find_mem {t : Tab} {n s} (h : t.find n = some s) :
    (t.findLocal n = some s ∧ s ∈ t.curLocals) ∨ (t.findLocal n = none ∧ s ∈ t.globals) := by
  rw [tab_find] at h
  cases hl : t.findLocal n with
  | some s' =>
    rw [hl] at h
    simp at h
    subst h
    exact Or.inl ⟨rfl, List.mem_of_find?_eq_some hl⟩
  | none =>
    rw [hl] at h
    exact Or.inr ⟨rfl, List.mem_of_find?_eq_some (by simpa using h)⟩

theorem curLocals_undef {t : Tab} (D : LDef t) {s} (h : s ∈ t.curLocals) : s.undef = false := by
  unfold Tab.curLocals at h
  split at h
  · simp at h
  · exact D _ s h

theorem find_hash {t : Tab} {n s} (h : t.find n = some s) : hashpjw n = hashpjw s.name := by
  have := List.find?_some h
  exact hash_same (by simpa using this)

/-- Result and cursors of `SymLookup`. -/
theorem symLookup_spec {c t} (R : Rep c t) (n : Name) :
    (∀ s, t.find n = some s → ∃ c', symLookup c n = some (c', s.id) ∧ Rep c' t) ∧
    (t.find n = none → ∃ c', symLookup c n = some (c', t.fresh) ∧ Rep c' (t.addGlobal n true)) := by
  obtain ⟨k1, k2, he, _, hk2, _⟩ := symFind_spec R n
  constructor
  · intro s hs
    rw [hs] at he
    refine ⟨_, ?_, rep_cursor R k1 k2⟩
    simp [symLookup, he]
  · intro hn
    have R1 := rep_cursor R k1 k2
    have R2 := rep_alloc R1 n
    have hk := hk2 hn
    rw [hn] at he
    have R3 := ins_g R2 ⟨c.brk, n, true⟩ hk (show Free t c.brk from free_fresh R) (Nat.lt_succ_self _)
      (by simp [symAlloc]) (by simp [symAlloc]) (by simp [symAlloc]) (by simp [symAlloc])
    rw [show (t.addGlobal n true) = { { t with fresh := t.fresh + 1 } with
        globals := t.globals ++ [⟨c.brk, n, true⟩] } by rw [R.brk]; rfl]
    refine ⟨_, ?_, R3⟩
    simp only [symLookup, he, bind, Option.bind, Option.map_none, ← R.brk]
    rfl

theorem symCreate_spec {c t} (R : Rep c t) (n : Name) :
    (∀ s, t.find n = some s → ∃ c', symCreate c n = some (c', none) ∧ Rep c' t) ∧
    (t.find n = none → ∃ c', symCreate c n = some (c', some t.fresh) ∧ Rep c' (t.addGlobal n true)) := by
  obtain ⟨k1, k2, he, _, hk2, _⟩ := symFind_spec R n
  constructor
  · intro s hs
    rw [hs] at he
    refine ⟨_, ?_, rep_cursor R k1 k2⟩
    simp [symCreate, he]
  · intro hn
    have R1 := rep_cursor R k1 k2
    have R2 := rep_alloc R1 n
    have hk := hk2 hn
    rw [hn] at he
    have R3 := ins_g R2 ⟨c.brk, n, true⟩ hk (show Free t c.brk from free_fresh R) (Nat.lt_succ_self _)
      (by simp [symAlloc]) (by simp [symAlloc]) (by simp [symAlloc]) (by simp [symAlloc])
    rw [show (t.addGlobal n true) = { { t with fresh := t.fresh + 1 } with
        globals := t.globals ++ [⟨c.brk, n, true⟩] } by rw [R.brk]; rfl]
    refine ⟨_, ?_, R3⟩
    simp only [symCreate, he, bind, Option.bind, Option.map_none, ← R.brk]
    rfl

theorem not_mem_findLocal_none {t : Tab} (D : LDef t) {n s} (h : t.find n = some s)
    (hu : s.undef = true) : t.findLocal n = none ∧ s ∈ t.globals := by
  rcases find_mem h with h | h
  · rw [curLocals_undef D h.2] at hu; simp at hu
  · exact h

/-- Result of `SymLCreate`. -/
theorem symLCreate_spec {c t} (R : Rep c t) (D : LDef t) (p : Proc) (hp : t.cur = some p)
    (h1 : t.pass1 = true) (n : Name) :
    (∀ s, t.find n = some s → s.undef = false → ∃ c', symLCreate c n = some (c', none) ∧ Rep c' t) ∧
    ((∀ s, t.find n = some s → s.undef = true) → ∃ c', symLCreate c n = some (c', some t.fresh) ∧
      Rep c' (({ t with fresh := t.fresh + 1 }).addLocal p ⟨t.fresh, n, true⟩)) := by
  obtain ⟨k1, k2, he, hk1, _, _⟩ := symFind_spec R n
  have hud : ∀ s, t.find n = some s → (c.heap s.id).undef = s.undef := by
    intro s hs
    rcases find_mem hs with h | h
    · have : s ∈ t.locals p := by have := h.2; simpa [Tab.curLocals, hp] using this
      exact (R.lnode p s this).2
    · exact (R.gnode s h.2).2.1
  constructor
  · intro s hs hu
    refine ⟨_, ?_, rep_cursor R k1 k2⟩
    have := hud s hs
    rw [hs] at he
    simp [symLCreate, isDefined, he, this, hu]
  · intro hall
    have hl : t.findLocal n = none := by
      cases hf : t.find n with
      | none => rw [tab_find] at hf; simp at hf; exact hf.1
      | some s => exact (not_mem_findLocal_none D hf (hall s hf)).1
    have R1 := rep_cursor R k1 k2
    have R2 := rep_alloc R1 n
    have hk := hk1 p hp hl
    have R3 := ins_l R2 p ⟨c.brk, n, true⟩ hp h1 hk (show Free t c.brk from free_fresh R) (Nat.lt_succ_self _)
      (by simp [symAlloc]) (by simp [symAlloc]) (by simp [symAlloc])
    rw [show (⟨t.fresh, n, true⟩ : Sym) = ⟨c.brk, n, true⟩ by rw [R.brk]]
    refine ⟨_, ?_, R3⟩
    · have hcond : isDefined { c with lsym := k1, gsym := k2 } ((t.find n).map Sym.id) = false := by
        cases hf : t.find n with
        | none => rfl
        | some s => simp [isDefined, hud s hf, hall s hf]
      unfold symLCreate
      rw [he]
      simp only [bind, Option.bind]
      rw [hcond, ← R.brk]
      rfl

/-- Result of `SymLookupLocal` in pass 1. -/
theorem symLookupLocal_spec {c t} (R : Rep c t) (D : LDef t) (p : Proc) (hp : t.cur = some p)
    (n : Name) :
    (∀ s, t.find n = some s → s.undef = false → ∃ c', symLookupLocal c n = some (c', s.id) ∧ Rep c' t) ∧
    (∀ s, t.find n = some s → s.undef = true → t.pass1 = true →
      ∃ c', symLookupLocal c n = some (c', s.id) ∧
      Rep c' (({ t with globals := t.globals.filter (fun x => decide (x.id ≠ s.id)) }).addLocal p s)) ∧
    (t.find n = none → t.pass1 = true → ∃ c', symLookupLocal c n = some (c', t.fresh) ∧
      Rep c' (({ t with fresh := t.fresh + 1 }).addLocal p ⟨t.fresh, n, true⟩)) := by
  obtain ⟨k1, k2, he, hk1, _, hk3⟩ := symFind_spec R n
  refine ⟨?_, ?_, ?_⟩
  · intro s hs hu
    refine ⟨_, ?_, rep_cursor R k1 k2⟩
    have hun : (c.heap s.id).undef = false := by
      rw [← hu]
      rcases find_mem hs with h | h
      · have : s ∈ t.locals p := by have := h.2; simpa [Tab.curLocals, hp] using this
        exact (R.lnode p s this).2
      · exact (R.gnode s h.2).2.1
    rw [hs] at he
    simp [symLookupLocal, he, hun]
  · intro s hs hu h1
    obtain ⟨hl, hg⟩ := not_mem_findLocal_none D hs hu
    obtain ⟨pre, post, hb, hk2⟩ := hk3 s hl hs
    have hh := find_hash hs
    have R1 := rep_cursor R k1 k2
    rw [hh] at hb hk2
    have R2 := rem_g R1 s hg pre post hb hk2
    have hgn := R.gnode s hg
    rw [hs] at he
    have hfree : Free { t with globals := t.globals.filter (fun x => decide (x.id ≠ s.id)) } s.id := by
      refine ⟨fun x hx => ?_, fun q x hx h => R.dgl q s hg x hx h.symm⟩
      have := (List.mem_filter.1 hx).2
      simpa using this
    have R3 := rep_upd R2 s.id hfree (fun nd => { nd with isScoped := true })
    have R4 := rep_upd R3 s.id hfree (fun nd => { nd with next := none })
    -- the shape of the state after the write through gsym
    have hfr := set_frame { c with lsym := k1, gsym := k2 } (.g (hashpjw s.name % GHASH)) pre
      (c.heap s.id).next
    obtain ⟨hp', gt, hsh, _⟩ := set_shape_g { c with lsym := k1, gsym := k2 } (hashpjw s.name % GHASH)
      pre (c.heap s.id).next
    rw [← hk2] at hfr hsh
    rw [hsh] at hfr
    simp only [hsh] at R4
    obtain ⟨y, hy⟩ := hfr.1 s.id
    have hy : hp' s.id = { c.heap s.id with next := y } := hy
    have hkl := hk1 p hp hl
    rw [hh] at hkl
    have R5 := ins_l R4 p s hp h1 hkl hfree (R.glt s hg)
      (by simp [St.upd, hy, hgn.1]) (by simp [St.upd, hy, hgn.2.1]) (by simp [St.upd])
    refine ⟨_, ?_, R5⟩
    simp only [symLookupLocal, he, bind, Option.bind, Option.map_some, hgn.2.1, hgn.2.2, hu]
    simp only [hsh]
    rfl
  · intro hn h1
    have hl : t.findLocal n = none := by rw [tab_find] at hn; simp at hn; exact hn.1
    have R1 := rep_cursor R k1 k2
    have R2 := rep_alloc R1 n
    have R2' := rep_upd R2 c.brk (show Free t c.brk from free_fresh R) (fun nd => { nd with isScoped := true })
    have hk := hk1 p hp hl
    have R3 := ins_l R2' p ⟨c.brk, n, true⟩ hp h1 hk (show Free t c.brk from free_fresh R) (Nat.lt_succ_self _)
      (by simp [symAlloc, St.upd]) (by simp [symAlloc, St.upd]) (by simp [symAlloc, St.upd])
    rw [hn] at he
    rw [show (⟨t.fresh, n, true⟩ : Sym) = ⟨c.brk, n, true⟩ by rw [R.brk]]
    refine ⟨_, ?_, R3⟩
    · simp only [symLookupLocal, he, bind, Option.bind, Option.map_none, ← R.brk]
      rfl

/-- Defining the symbol just entered. -/
theorem define_addGlobal {c t} (R : Rep c t) (n : Name) :
    ({ t.addGlobal n true with
        globals := defineIn t.fresh (t.addGlobal n true).globals
        locals := fun p => defineIn t.fresh ((t.addGlobal n true).locals p) } : Tab) =
    t.addGlobal n false := by
  have hf := free_fresh R
  rw [R.brk] at hf
  have h1 : defineIn t.fresh (t.globals ++ [⟨t.fresh, n, true⟩]) =
      t.globals ++ [⟨t.fresh, n, false⟩] := by
    unfold defineIn
    rw [List.map_append]
    congr 1
    · exact defineIn_free hf.1
    · simp
  have h2 : (fun p => defineIn t.fresh (t.locals p)) = t.locals := by
    funext p; exact defineIn_free (hf.2 p)
  simp only [Tab.addGlobal, h1, h2]

theorem define_addLocal (t : Tab) (p : Proc) (s : Sym) (hf : Free t s.id) :
    ({ t.addLocal p s with
        globals := defineIn s.id (t.addLocal p s).globals
        locals := fun q => defineIn s.id ((t.addLocal p s).locals q) } : Tab) =
    t.addLocal p { s with undef := false } := by
  have h1 : defineIn s.id t.globals = t.globals := defineIn_free hf.1
  have h2 : ∀ q, defineIn s.id (t.locals q) = t.locals q := fun q => defineIn_free (hf.2 q)
  simp only [Tab.addLocal, h1]
  congr 1
  funext q
  split
  · unfold defineIn
    rw [List.map_append]
    congr 1
    · exact h2 p
    · simp
  · exact h2 q

theorem ldef_addLocal {t : Tab} (D : LDef t) (p : Proc) (s : Sym) (hs : s.undef = false) :
    LDef (t.addLocal p s) := by
  intro q x hx
  simp only [Tab.addLocal] at hx
  split at hx
  · simp only [List.mem_append, List.mem_singleton] at hx
    rcases hx with hx | rfl
    · exact D p x hx
    · exact hs
  · exact D q x hx

/-- A global label. -/
theorem glabel_step {c t} (R : Rep c t) (D : LDef t) (n : Name) :
    ∃ c', (symLookup c n).map (fun x => defineLabel x.1 x.2) = some (c', (t.glabel n).2) ∧
      Rep c' (t.glabel n).1 ∧ LDef (t.glabel n).1 := by
  obtain ⟨ha, hb⟩ := symLookup_spec R n
  cases hf : t.find n with
  | some s =>
    obtain ⟨c', he, R'⟩ := ha s hf
    rw [he]
    simp only [Option.map_some, defineLabel, R'.pass1, Tab.glabel, hf]
    cases h1 : t.pass1
    · exact ⟨c', rfl, R', D⟩
    · cases hu : s.undef
      · have hun : (c'.heap s.id).undef = false := by
          rw [← hu]
          rcases find_mem hf with h | h
          · cases hc : t.cur with
            | none => have := h.2; simp [Tab.curLocals, hc] at this
            | some p =>
              exact (R'.lnode p s (by simpa [Tab.curLocals, hc] using h.2)).2
          · exact (R'.gnode s h.2).2.1
        simp only [hun]
        exact ⟨c', rfl, R', D⟩
      · have hg := (not_mem_findLocal_none D hf hu).2
        have hun : (c'.heap s.id).undef = true := by rw [← hu]; exact (R'.gnode s hg).2.1
        simp only [hun]
        have R2 := rep_define R' s.id
        have hl : (fun p => defineIn s.id (t.locals p)) = t.locals := by
          funext p
          exact defineIn_free (fun x hx h => R'.dgl p s hg x hx h.symm)
        simp only [hl, h1] at R2
        simp only [if_true]
        exact ⟨_, rfl, R2, D⟩
  | none =>
    obtain ⟨c', he, R'⟩ := hb hf
    rw [he]
    simp only [Option.map_some, defineLabel, R'.pass1, Tab.glabel, hf,
      show (t.addGlobal n true).pass1 = t.pass1 from rfl]
    cases h1 : t.pass1
    · exact ⟨c', rfl, R', D⟩
    · have hun : (c'.heap t.fresh).undef = true :=
        (R'.gnode ⟨t.fresh, n, true⟩ (by simp [Tab.addGlobal])).2.1
      simp only [hun]
      have R2 := rep_define R' t.fresh
      rw [define_addGlobal R n] at R2
      exact ⟨_, rfl, R2, D⟩

/-- A label inside a procedure. -/
theorem llabel_step {c t} (R : Rep c t) (D : LDef t) (p : Proc) (hp : t.cur = some p) (n : Name)
    (hr : t.pass1 = false → ∃ s, t.find n = some s ∧ s.undef = false) :
    ∃ c', (symLookupLocal c n).map (fun x => defineLabel x.1 x.2) = some (c', (t.llabel p n).2) ∧
      Rep c' (t.llabel p n).1 ∧ LDef (t.llabel p n).1 := by
  obtain ⟨ha, hb, hc⟩ := symLookupLocal_spec R D p hp n
  cases hf : t.find n with
  | some s =>
    cases hu : s.undef
    · obtain ⟨c', he, R'⟩ := ha s hf hu
      rw [he]
      simp only [Option.map_some, defineLabel, R'.pass1, Tab.llabel, hf, hu]
      cases h1 : t.pass1
      · exact ⟨c', rfl, R', D⟩
      · have hun : (c'.heap s.id).undef = false := by
          rw [← hu]
          rcases find_mem hf with h | h
          · exact (R'.lnode p s (by simpa [Tab.curLocals, hp] using h.2)).2
          · exact (R'.gnode s h.2).2.1
        simp only [hun]
        exact ⟨c', rfl, R', D⟩
    · have h1 : t.pass1 = true := by
        cases h1 : t.pass1
        · obtain ⟨s', hs', hu'⟩ := hr h1
          rw [hf] at hs'
          rw [Option.some.inj hs', hu'] at hu
          simp at hu
        · rfl
      obtain ⟨c', he, R'⟩ := hb s hf hu h1
      have hg := (not_mem_findLocal_none D hf hu).2
      rw [he]
      have hfree : Free { t with globals := t.globals.filter (fun x => decide (x.id ≠ s.id)) } s.id := by
        refine ⟨fun x hx => ?_, fun q x hx h => R.dgl q s hg x hx h.symm⟩
        have := (List.mem_filter.1 hx).2
        simpa using this
      have hun : (c'.heap s.id).undef = true := by
        rw [← hu]
        exact (R'.lnode p s (by simp [Tab.addLocal])).2
      have hpass : c'.pass1 = true := R'.pass1.trans h1
      have R2 := rep_define R' s.id
      rw [define_addLocal _ p s hfree] at R2
      have e : t.llabel p n = (({ t with globals := t.globals.filter (fun x => decide (x.id ≠ s.id)) }).addLocal p
          { s with undef := false }, .sym (some s.id)) := by
        simp [Tab.llabel, hf, hu, h1]
      rw [e]
      simp only [Option.map_some, defineLabel, hpass, hun, if_true]
      exact ⟨_, rfl, R2, ldef_addLocal (t := { t with globals := _ }) D p _ rfl⟩
  | none =>
    have h1 : t.pass1 = true := by
      cases h1 : t.pass1
      · obtain ⟨s', hs', hu'⟩ := hr h1
        rw [hf] at hs'; simp at hs'
      · rfl
    obtain ⟨c', he, R'⟩ := hc hf h1
    rw [he]
    have hun : (c'.heap t.fresh).undef = true :=
      (R'.lnode p ⟨t.fresh, n, true⟩ (by simp [Tab.addLocal])).2
    have hpass : c'.pass1 = true := R'.pass1.trans h1
    have R2 := rep_define R' t.fresh
    have hfree := free_fresh R
    rw [R.brk] at hfree
    have hd := define_addLocal { t with fresh := t.fresh + 1 } p ⟨t.fresh, n, true⟩ hfree
    simp only at hd
    rw [hd] at R2
    have e : t.llabel p n = (({ t with fresh := t.fresh + 1 }).addLocal p ⟨t.fresh, n, false⟩,
        .sym (some t.fresh)) := by
      simp [Tab.llabel, hf, h1]
    rw [e]
    simp only [Option.map_some, defineLabel, hpass, hun, if_true]
    exact ⟨_, rfl, R2, ldef_addLocal (t := { t with fresh := _ }) D p _ rfl⟩

/-- Entering a procedure in pass 1: everything saved, empty local table. -/
theorem enter1 {c t} (R : Rep c t) (p : Proc) (h1 : t.pass1 = true) (hk : t.known p = false)
    (hsav : ∀ q, t.known q = true → Saved c.heap (c.labellist q) (t.locals q)) (stk : List Proc)
    (hstk : stk = t.cur.toList ++ t.outer) :
    Rep { symClearLocal { c with stack := stk } with
            cur := some p
            known := fun q => if q = p then true else c.known q }
      { t with
          cur := some p
          outer := t.cur.toList ++ t.outer
          known := fun q => if q = p then true else t.known q } := by
  have hout : ∀ q ∈ t.cur.toList ++ t.outer, t.known q = true := by
    intro q hq
    simp only [List.mem_append, Option.mem_toList] at hq
    rcases hq with hq | hq
    · exact R.ck q hq
    · exact R.ok q hq
  refine ⟨R.gch, ?_, ?_, R.gnode, R.lnode, R.glt, R.llt, R.gnd, R.lnd, R.dgl, R.dll, R.brk, rfl,
    hstk, ?_, R.cs, R.pass1, ?_, ?_, ?_, ?_, R.count⟩
  · intro q hq i
    have hq : p = q := Option.some.inj hq
    subst hq
    simp only [R.unk p hk]
    rfl
  · intro q hq hc
    by_cases hqp : q = p
    · subst hqp
      rcases hc with h | h
      · exact absurd rfl h
      · rw [show t.pass1 = false from h] at h1; simp at h1
    · simp only [hqp, if_false] at hq
      exact hsav q hq
  · simp only [R.known]
  · intro q hq
    have hq : p = q := Option.some.inj hq
    simp [hq]
  · intro q hq
    simp only
    split
    · rfl
    · exact hout q hq
  · intro q hq
    simp only at hq
    split at hq
    · simp at hq
    · exact R.unk q hq
  · intro _
    show ((some p).toList ++ (t.cur.toList ++ t.outer)).Nodup
    simp only [Option.toList_some, List.singleton_append, List.nodup_cons]
    refine ⟨?_, R.nest h1⟩
    intro h
    rw [hout p h] at hk; simp at hk

/-- Making the saved procedure `p` current. -/
theorem restore {c t} (R : Rep c t) (p : Proc) (stk : List Proc) (kn : t.known p = true)
    (hsav : ∀ q, t.known q = true → Saved c.heap (c.labellist q) (t.locals q))
    (hok : ∀ q ∈ stk, t.known q = true) (hnest : t.pass1 = true → (p :: stk).Nodup)
    (c0 : St) (hc0 : c0 = { c with stack := stk, cur := c0.cur }) :
    ∃ c', symSetLocal c0 p = some c' ∧
      Rep { c' with cur := some p } { t with cur := some p, outer := stk } := by
  obtain ⟨lt, he, hch⟩ := setLocal_spec c p (t.locals p) (hsav p kn)
    (fun s hs => (R.lnode p s hs).1)
  obtain ⟨lt, he, hch⟩ := setLocal_spec c0 p (t.locals p) (by rw [hc0]; exact hsav p kn)
    (by rw [hc0]; exact fun s hs => (R.lnode p s hs).1)
  refine ⟨_, he, ?_⟩
  rw [hc0] at hch ⊢
  refine ⟨R.gch, ?_, ?_, R.gnode, R.lnode, R.glt, R.llt, R.gnd, R.lnd, R.dgl, R.dll, R.brk, rfl,
    rfl, R.known, R.cs, R.pass1, ?_, hok, R.unk, ?_, R.count⟩
  · intro q hq i
    have hq : p = q := Option.some.inj hq
    subst hq
    exact hch i
  · intro q hq _
    exact hsav q hq
  · intro q hq
    have hq : p = q := Option.some.inj hq
    rw [← hq]; exact kn
  · intro h; exact hnest h

theorem leave_saved {c t} (R : Rep c t) (p : Proc) (hp : t.cur = some p) :
    Rep (if t.pass1 = true then symGetLocal c p else c) t ∧
    (∀ q, t.known q = true → Saved (if t.pass1 = true then symGetLocal c p else c).heap
      ((if t.pass1 = true then symGetLocal c p else c).labellist q) (t.locals q)) ∧
    (if t.pass1 = true then symGetLocal c p else c).stack = t.outer := by
  cases h1 : t.pass1
  · simp only [Bool.false_eq_true, if_false]
    exact ⟨R, fun q hq => R.sav q hq (Or.inr h1), R.stack⟩
  · simp only [if_true]
    obtain ⟨R', hs, hst⟩ := rep_getLocal R p hp
    refine ⟨R', ?_, by rw [hst]; exact R.stack⟩
    intro q hq
    by_cases hqp : q = p
    · subst hqp; exact hs
    · exact R'.sav q hq (Or.inl (by rw [hp]; exact fun h => hqp (Option.some.inj h).symm))

/-- What is asked of one operation (see `Tab.Repeats`). -/
def Pre (t : Tab) (o : Op) : Prop :=
  match o, t.pass1, t.cur with
  | .label n, false, some _ => ∃ s, t.find n = some s ∧ s.undef = false
  | _, _, _ => True

/-- One operation. -/
theorem step_refines {c t} (R : Rep c t) (D : LDef t) (o : Op) (hpre : Pre t o) :
    ∃ c', step c o = some (c', (t.step o).2) ∧ Rep c' (t.step o).1 ∧ LDef (t.step o).1 := by
  cases o with
  | find n =>
    obtain ⟨k1, k2, he, _⟩ := symFind_spec R n
    refine ⟨_, ?_, rep_cursor R k1 k2, D⟩
    simp [step, he, Tab.step]
  | findLocal n =>
    obtain ⟨k1, he⟩ := symFindLocal_spec R n
    refine ⟨_, ?_, rep_cursor R k1 c.gsym, D⟩
    simp [step, he, Tab.step]
  | ref n =>
    obtain ⟨ha, hb⟩ := symLookup_spec R n
    simp only [step, Tab.step]
    cases hf : t.find n with
    | some s =>
      obtain ⟨c', he, R'⟩ := ha s hf
      exact ⟨c', by simp [he], R', D⟩
    | none =>
      obtain ⟨c', he, R'⟩ := hb hf
      exact ⟨c', by simp [he], R', D⟩
  | glabel n =>
    obtain ⟨c', he, R', D'⟩ := glabel_step R D n
    refine ⟨c', ?_, R', D'⟩
    simp only [step, Tab.step, ← he]
    cases symLookup c n <;> rfl
  | label n =>
    cases hc : t.cur with
    | none =>
      obtain ⟨c', he, R', D'⟩ := glabel_step R D n
      have hcc : c.cur = none := R.cur.trans hc
      refine ⟨c', ?_, by simp only [Tab.step, hc]; exact R', by simp only [Tab.step, hc]; exact D'⟩
      simp only [step, Tab.step, hcc, hc, ← he]
      cases symLookup c n <;> rfl
    | some p =>
      obtain ⟨c', he, R', D'⟩ := llabel_step R D p hc n (by
        intro h1; unfold Pre at hpre; rw [h1, hc] at hpre; exact hpre)
      have hcc : c.cur = some p := R.cur.trans hc
      refine ⟨c', ?_, by simp only [Tab.step, hc]; exact R', by simp only [Tab.step, hc]; exact D'⟩
      simp only [step, Tab.step, hcc, hc, ← he]
      cases symLookupLocal c n <;> rfl
  | create n =>
    obtain ⟨ha, hb⟩ := symCreate_spec R n
    simp only [step, Tab.step]
    cases hf : t.find n with
    | some s =>
      obtain ⟨c', he, R'⟩ := ha s hf
      exact ⟨c', by simp [he], R', D⟩
    | none =>
      obtain ⟨c', he, R'⟩ := hb hf
      have R2 := rep_define R' t.fresh
      rw [define_addGlobal R n] at R2
      exact ⟨_, by simp [he], R2, D⟩
  | localVar n =>
    cases h1 : t.pass1
    · have e : t.step (.localVar n) = (t, .unit) := by simp [Tab.step, h1]
      rw [e]
      exact ⟨c, by simp [step, R.pass1, h1], R, D⟩
    · cases hc : t.cur with
      | none =>
        have e : t.step (.localVar n) = (t, .error) := by simp [Tab.step, h1, hc]
        rw [e]
        exact ⟨c, by simp [step, R.pass1, h1, R.cur, hc], R, D⟩
      | some p =>
        have es : step c (.localVar n) = (symLCreate c n).bind (fun x =>
            match x.2 with
            | none => some (x.1, .error)
            | some p => some (x.1.upd p (fun nd => { nd with undef := false }), .sym (some p))) := by
          simp only [step, R.pass1, h1, R.cur, hc]
          rfl
        rw [es]
        obtain ⟨ha, hb⟩ := symLCreate_spec R D p hc h1 n
        by_cases hall : ∀ s, t.find n = some s → s.undef = true
        · have e : t.step (.localVar n) = (({ t with fresh := t.fresh + 1 }).addLocal p
              ⟨t.fresh, n, false⟩, .sym (some t.fresh)) := by
            cases hf : t.find n with
            | none => simp [Tab.step, h1, hc, hf]
            | some s =>
              have := hall s hf
              obtain ⟨i, m, u⟩ := s
              simp only at this
              subst this
              simp [Tab.step, h1, hc, hf]
          rw [e]
          obtain ⟨c', he, R'⟩ := hb hall
          have R2 := rep_define R' t.fresh
          have hfree := free_fresh R
          rw [R.brk] at hfree
          have hd := define_addLocal { t with fresh := t.fresh + 1 } p ⟨t.fresh, n, true⟩ hfree
          simp only at hd
          rw [hd] at R2
          exact ⟨_, by simp [he], R2, ldef_addLocal (t := { t with fresh := _ }) D p _ rfl⟩
        · have : ∃ s, t.find n = some s ∧ s.undef = false := by
            cases hf : t.find n with
            | none => exact absurd (by simp [hf]) hall
            | some s =>
              refine ⟨s, rfl, ?_⟩
              cases hu : s.undef
              · rfl
              · exact absurd (by intro s' hs'; rw [hf] at hs'; rw [← Option.some.inj hs', hu]) hall
          obtain ⟨s, hf, hu⟩ := this
          have e : t.step (.localVar n) = (t, .error) := by
            obtain ⟨i, m, u⟩ := s
            simp only at hu
            subst hu
            simp [Tab.step, h1, hc, hf]
          rw [e]
          obtain ⟨c', he, R'⟩ := ha _ hf hu
          exact ⟨c', by simp [he], R', D⟩
  | proc p =>
    by_cases hkp : t.known p = t.pass1
    · have e : t.step (.proc p) = (t, .error) := by simp [Tab.step, hkp]
      rw [e]
      refine ⟨c, ?_, R, D⟩
      show procDir c p = _
      unfold procDir
      rw [R.pass1, R.known]
      cases h1 : t.pass1 <;> rw [h1] at hkp <;> simp [hkp]
    · have e : t.step (.proc p) = ({ t with
              cur := some p
              outer := t.cur.toList ++ t.outer
              known := fun q => if q = p then true else t.known q }, .unit) := by
        simp [Tab.step, hkp]
      rw [e]
      rcases Bool.eq_false_or_eq_true t.pass1 with h1 | h1
      · rw [h1] at hkp
        have hk : t.known p = false := by simpa using hkp
        have a1 : c.pass1 = true := R.pass1.trans h1
        have a2 : c.known p = false := by rw [R.known]; exact hk
        have es : step c (.proc p) = some ({ symClearLocal (pushProc c) with
            cur := some p, known := fun q => if q = p then true else c.known q }, .unit) := by
          show procDir c p = _
          unfold procDir
          rw [if_pos a1, if_neg (by rw [a2]; simp)]
        rw [es]
        rcases hc : t.cur with _ | q
        · have hcc : c.cur = none := R.cur.trans hc
          have := enter1 R p h1 hk (fun q hq => R.sav q hq (Or.inl (by rw [hc]; simp))) c.stack
            (by rw [hc, R.stack]; rfl)
          rw [hc] at this
          refine ⟨_, rfl, ?_, D⟩
          have e2 : pushProc c = c := by unfold pushProc; rw [hcc]
          rw [e2]
          exact this
        · have hcc : c.cur = some q := R.cur.trans hc
          obtain ⟨R', hs, hst⟩ := leave_saved R q hc
          simp only [if_pos h1] at R' hs hst
          have := enter1 R' p h1 hk hs (q :: c.stack) (by rw [hc, R.stack]; rfl)
          rw [hc] at this
          refine ⟨_, rfl, ?_, D⟩
          have e2 : pushProc c = { symGetLocal c q with stack := q :: c.stack } := by
            unfold pushProc; simp only [hcc, a1, if_true]
          rw [e2]
          have e3 : (symGetLocal c q).known = c.known := by rw [R'.known, R.known]
          rw [← e3]
          exact this
      · rw [h1] at hkp
        have hk : t.known p = true := by simpa using hkp
        have a1 : c.pass1 = false := R.pass1.trans h1
        have a2 : c.known p = true := by rw [R.known]; exact hk
        have hsav : ∀ q, t.known q = true → Saved c.heap (c.labellist q) (t.locals q) :=
          fun q hq => R.sav q hq (Or.inr h1)
        obtain ⟨c', he, R'⟩ := restore R p (t.cur.toList ++ t.outer) hk hsav (by
            intro q hq
            simp only [List.mem_append, Option.mem_toList] at hq
            rcases hq with hq | hq
            · exact R.ck q hq
            · exact R.ok q hq) (by rw [h1]; simp)
            { c with stack := t.cur.toList ++ t.outer } rfl
        have hkk : (fun q => if q = p then true else t.known q) = t.known := by
          funext q; split
          · rename_i h; rw [h, hk]
          · rfl
        rw [hkk]
        refine ⟨{ c' with cur := some p }, ?_, R', D⟩
        have hst : pushProc c = { c with stack := t.cur.toList ++ t.outer } := by
          unfold pushProc
          have a3 : ¬ (c.pass1 = true) := by rw [a1]; simp
          simp only [if_neg a3]
          split
          · rename_i q hq
            rw [R.cur] at hq
            rw [hq, ← R.stack]; rfl
          · rename_i hq
            rw [R.cur] at hq
            rw [hq, ← R.stack]; rfl
        show procDir c p = _
        unfold procDir
        rw [if_neg (by rw [a1]; simp), if_pos a2, hst, he]
        rfl
  | endp =>
    rcases hc : t.cur with _ | p
    · have hcc : c.cur = none := R.cur.trans hc
      have e : t.step .endp = (t, .error) := by simp [Tab.step, hc]
      rw [e]
      exact ⟨c, by show endpDir c = _; unfold endpDir; rw [hcc], R, D⟩
    · have hcc : c.cur = some p := R.cur.trans hc
      have e : t.step .endp = ({ t with cur := t.outer.head?, outer := t.outer.tail }, .unit) := by
        simp [Tab.step, hc]
      rw [e]
      obtain ⟨R', hs, hst⟩ := leave_saved R p hc
      have es : step c .endp = popProc (if t.pass1 = true then symGetLocal c p else c) := by
        show endpDir c = _
        unfold endpDir
        rw [hcc, ← R.pass1]
      rw [es]
      generalize (if t.pass1 = true then symGetLocal c p else c) = c1 at R' hs hst ⊢
      cases ho : t.outer with
      | nil =>
        rw [ho] at hst
        refine ⟨{ c1 with cur := none }, by unfold popProc; split <;> simp_all, ?_, D⟩
        refine ⟨R'.gch, by simp, fun q hq _ => hs q hq, R'.gnode, R'.lnode, R'.glt, R'.llt, R'.gnd,
          R'.lnd, R'.dgl, R'.dll, R'.brk, rfl, hst, R'.known, R'.cs, R'.pass1, by simp, by simp,
          R'.unk, by simp, R'.count⟩
      | cons q qs =>
        rw [ho] at hst
        obtain ⟨c', he, R2⟩ := restore R' q qs (R.ok q (by rw [ho]; simp)) hs
          (fun r hr => R.ok r (by rw [ho]; simp [hr])) (by
            intro h1
            have := R.nest h1
            rw [hc, ho] at this
            simp only [Option.toList_some, List.singleton_append] at this
            exact (List.nodup_cons.1 this).2) { c1 with cur := some q, stack := qs } rfl
        refine ⟨c', by
          unfold popProc
          split
          · rename_i h; rw [hst] at h; simp at h
          · rename_i q' qs' h
            rw [hst] at h
            obtain ⟨rfl, rfl⟩ := List.cons.inj h
            rw [he]; rfl, ?_, D⟩
        have : c' = { c' with cur := some q } := by
          obtain ⟨lt, he2, _⟩ := setLocal_spec { c1 with cur := some q, stack := qs } q (t.locals q)
            (hs q (R.ok q (by rw [ho]; simp))) (fun s hs => (R'.lnode q s hs).1)
          rw [he] at he2
          rw [Option.some.inj he2]
        rw [this]
        exact R2
  | casemap b =>
    refine ⟨{ c with cs := b }, rfl, ?_, D⟩
    exact ⟨R.gch, R.lch, R.sav, R.gnode, R.lnode, R.glt, R.llt, R.gnd, R.lnd, R.dgl, R.dll, R.brk,
      R.cur, R.stack, R.known, rfl, R.pass1, R.ck, R.ok, R.unk, R.nest, R.count⟩
  | nextPass =>
    simp only [step, Tab.step]
    cases hc : t.cur with
    | some p =>
      have hcc : c.cur = some p := R.cur.trans hc
      simp only [hcc]
      exact ⟨c, rfl, R, D⟩
    | none =>
      have hcc : c.cur = none := R.cur.trans hc
      simp only [hcc]
      refine ⟨_, rfl, ?_, D⟩
      exact ⟨R.gch, by simp, fun q hq _ => R.sav q hq (Or.inl (by rw [hc]; simp)), R.gnode, R.lnode,
        R.glt, R.llt, R.gnd, R.lnd, R.dgl, R.dll, R.brk,
        rfl, rfl, R.known, R.cs, rfl, by simp, by simp, R.unk, by simp, R.count⟩

theorem init_rep : Rep init Tab.init := by
  refine ⟨fun i => rfl, by simp [Tab.init], by simp [Tab.init], by simp [Tab.init],
    by simp [Tab.init], by simp [Tab.init], by simp [Tab.init], by simp [Tab.init],
    by simp [Tab.init], by simp [Tab.init], by simp [Tab.init], rfl, rfl, rfl, rfl, rfl, rfl,
    by simp [Tab.init], by simp [Tab.init], by simp [Tab.init], by simp [Tab.init], rfl⟩

theorem run_refines {c t} (R : Rep c t) (D : LDef t) (os : List Op) (h : t.Repeats os) :
    ∃ c', run c os = some (c', (t.run os).2) ∧ Rep c' (t.run os).1 := by
  induction os generalizing c t with
  | nil => exact ⟨c, rfl, R⟩
  | cons o os ih =>
    obtain ⟨c1, he, R1, D1⟩ := step_refines R D o h.1
    obtain ⟨c2, he2, R2⟩ := ih R1 D1 h.2
    exact ⟨c2, by simp [run, he, he2, Tab.run], R2⟩

/-- **C11.** For every history of symbol table operations, starting with the empty table, every
operation terminates (the bucket scans and list walks end) and every result - which symbol a name
denotes, whether a definition is accepted - is the one of the abstract table: first match among
the symbols of the current procedure, then among the global ones, in order of entry. -/
theorem C11_symbol_table_refines_map (os : List Op) (h : Tab.init.Repeats os) :
    (run init os).map Prod.snd = some (Tab.init.run os).2 := by
  obtain ⟨c', he, _⟩ := run_refines init_rep (by intro p s hs; simp [Tab.init] at hs) os h
  rw [he]; rfl

/-- **C11**, `SymCount`: the number of global symbols. `SymGetAll` allocates an array of that many
entries and copies every symbol of the global hash table into it. -/
theorem C11_symcount_exact (os : List Op) (h : Tab.init.Repeats os) :
    ∃ c, run init os = some (c, (Tab.init.run os).2) ∧
      c.count = ((Tab.init.run os).1.globals.length : Int) := by
  obtain ⟨c', he, R⟩ := run_refines init_rep (by intro p s hs; simp [Tab.init] at hs) os h
  exact ⟨c', he, R.count⟩

/-- All histories of pass 1 qualify. -/
theorem repeats_of_pass1 (t : Tab) (h1 : t.pass1 = true) (os : List Op)
    (h : ∀ o ∈ os, o ≠ .nextPass) : t.Repeats os := by
  induction os generalizing t with
  | nil => trivial
  | cons o os ih =>
    have hstep : (t.step o).1.pass1 = true := by
      have hne := h o (by simp)
      cases o <;> simp only [Tab.step, Tab.glabel, Tab.llabel, Tab.addGlobal, Tab.addLocal] <;>
        (repeat' split) <;> first | exact h1 | (simp at hne)
    refine ⟨?_, ih _ hstep (fun o' ho' => h o' (by simp [ho']))⟩
    split
    · rename_i h' _; rw [h1] at h'; simp at h'
    · trivial

/-! ## one symbol per name and scope -/

/-- No two symbols of a scope have the same name. -/
def Distinct (cs : Bool) (l : List Sym) : Prop := l.Pairwise (fun a b => ¬ SameName cs a.name b.name)

theorem sameName_symm {cs a b} (h : SameName cs a b) : SameName cs b a := by
  unfold SameName at *; split at h <;> simp_all

theorem sameName_trans {cs a b d} (h : SameName cs a b) (h' : SameName cs b d) : SameName cs a d := by
  unfold SameName at *; split at h <;> simp_all

theorem sameName_refl (cs a) : SameName cs a a := by
  unfold SameName; split <;> rfl

theorem distinct_append {cs l} {s : Sym} (h : Distinct cs l)
    (hn : l.find? (fun x => decide (SameName cs s.name x.name)) = none) : Distinct cs (l ++ [s]) := by
  unfold Distinct at *
  rw [List.pairwise_append]
  refine ⟨h, by simp, ?_⟩
  intro a ha b hb
  simp only [List.mem_singleton] at hb
  subst hb
  have := List.find?_eq_none.1 hn a ha
  simp only [decide_eq_true_eq] at this
  exact fun h => this (sameName_symm h)

theorem distinct_defineIn {cs l} (d) (h : Distinct cs l) : Distinct cs (defineIn d l) := by
  unfold Distinct defineIn at *
  rw [List.pairwise_map]
  refine h.imp ?_
  intro a b hab
  split <;> split <;> exact hab

/-- Both kinds of scopes. -/
def Unique (t : Tab) : Prop := Distinct t.cs t.globals ∧ ∀ p, Distinct t.cs (t.locals p)

theorem unique_addGlobal {t : Tab} (U : Unique t) {n u} (hn : t.find n = none) :
    Unique (t.addGlobal n u) := by
  refine ⟨distinct_append U.1 ?_, U.2⟩
  rw [tab_find] at hn
  simp only [Option.or_eq_none_iff] at hn
  exact hn.2

theorem unique_addLocal {t : Tab} (U : Unique t) {p} {s : Sym} (hp : t.cur = some p)
    (hn : t.findLocal s.name = none) : Unique (t.addLocal p s) := by
  refine ⟨U.1, fun q => ?_⟩
  simp only [Tab.addLocal]
  split
  · refine distinct_append (U.2 p) ?_
    simpa [Tab.findLocal, Tab.curLocals, hp] using hn
  · exact U.2 q

theorem findLocal_congr {t : Tab} {a b} (h : SameName t.cs a b) (hn : t.findLocal a = none) :
    t.findLocal b = none := by
  unfold Tab.findLocal at *
  rw [List.find?_eq_none] at *
  intro x hx
  have := hn x hx
  simp only [decide_eq_true_eq] at *
  exact fun h' => this (sameName_trans h h')

theorem unique_glabel {t : Tab} (U : Unique t) (n : Name) : Unique (t.glabel n).1 := by
  unfold Tab.glabel
  split
  · rename_i hf
    split <;> exact unique_addGlobal U hf
  · split
    · split
      · exact ⟨distinct_defineIn _ U.1, U.2⟩
      · exact U
    · exact U

theorem unique_step {t : Tab} (U : Unique t) (D : LDef t) (o : Op) (hpre : Pre t o)
    (ho : ∀ b, o ≠ .casemap b) : Unique (t.step o).1 := by
  cases o with
  | casemap b => exact absurd rfl (ho b)
  | find n => exact U
  | findLocal n => exact U
  | ref n =>
    simp only [Tab.step]
    split
    · exact U
    · rename_i h; exact unique_addGlobal U h
  | glabel n => exact unique_glabel U n
  | create n =>
    simp only [Tab.step]
    split
    · exact U
    · rename_i h; exact unique_addGlobal U h
  | label n =>
    simp only [Tab.step]
    split
    · exact unique_glabel U n
    · rename_i p hp
      unfold Tab.llabel
      split
      · rename_i hf
        refine unique_addLocal (t := { t with fresh := _ }) U hp ?_
        rw [tab_find] at hf
        simp only [Option.or_eq_none_iff] at hf
        exact hf.1
      · rename_i s hf
        split
        · rename_i hu
          have hl := (not_mem_findLocal_none D hf hu).1
          have hs : SameName t.cs n s.name := by simpa using List.find?_some hf
          refine unique_addLocal (t := { t with globals := _ }) (s := { s with undef := !t.pass1 })
            ⟨List.Pairwise.sublist List.filter_sublist U.1, U.2⟩ hp ?_
          exact findLocal_congr hs hl
        · split <;> exact U
  | localVar n =>
    simp only [Tab.step]
    split
    · split
      · exact U
      · rename_i p hp
        split
        · exact U
        · rename_i h
          refine unique_addLocal (t := { t with fresh := _ }) U hp ?_
          show t.findLocal n = none
          cases hf : t.find n with
          | none => rw [tab_find] at hf; simp only [Option.or_eq_none_iff] at hf; exact hf.1
          | some s =>
            obtain ⟨i, m, u⟩ := s
            cases u
            · exact absurd hf (h i m)
            · exact (not_mem_findLocal_none D hf rfl).1
    · exact U
  | proc p => simp only [Tab.step]; split <;> exact U
  | endp => simp only [Tab.step]; split <;> exact U
  | nextPass => simp only [Tab.step]; split <;> exact U

/-- **C11.** As long as the case mapping is not changed, no scope ever has two symbols with the same
name: the table is a map. (The operations of the assembler give the same results as this
abstract table, `C11_symbol_table_refines_map`.) -/
theorem C11_one_symbol_per_name (t : Tab) (c : St) (R : Rep c t) (D : LDef t) (U : Unique t)
    (os : List Op) (h : t.Repeats os)
    (ho : ∀ b, Op.casemap b ∉ os) : Unique (t.run os).1 := by
  induction os generalizing t c with
  | nil => exact U
  | cons o os ih =>
    obtain ⟨c1, _, R1, D1⟩ := step_refines R D o h.1
    exact ih _ c1 R1 D1 (unique_step U D o h.1 (fun b hb => ho b (by simp [hb]))) h.2
      (fun b hb => ho b (by simp [hb]))

/-- **C11**, from the start, with either case mapping chosen first. -/
theorem C11_map (b : Bool) (os : List Op) (h : Tab.init.Repeats (.casemap b :: os))
    (ho : ∀ b, Op.casemap b ∉ os) : Unique (Tab.init.run (.casemap b :: os)).1 := by
  have D0 : LDef Tab.init := by intro p s hs; simp [Tab.init] at hs
  obtain ⟨c1, _, R1, D1⟩ := step_refines init_rep D0 (.casemap b) trivial
  refine C11_one_symbol_per_name _ c1 R1 D1 ?_ os h.2 ho
  exact ⟨by simp [Tab.step, Tab.init, Distinct], by simp [Tab.step, Tab.init, Distinct]⟩

/-! ## the hypotheses are met -/

/-- "foo", "Foo", "a" -/
def nFoo : Name := [0x66#8, 0x6f#8, 0x6f#8]
def nFOO : Name := [0x46#8, 0x6f#8, 0x6f#8]
def nA : Name := [0x61#8]

/-- A forward reference that becomes a local label, the same label in a second procedure, a nested
procedure, a second pass. -/
def sample : List Op :=
  [.create nA, .proc 1, .ref nFoo, .label nFOO, .find nFoo, .proc 7, .localVar nFoo, .find nFOO, .endp,
   .find nFoo, .label nFoo, .endp, .find nFoo, .proc 2, .label nFoo, .localVar nA, .endp,
   .nextPass, .proc 1, .label nFoo, .find nA, .proc 7, .find nFoo, .endp, .find nFoo, .endp,
   .proc 2, .label nFoo, .endp, .proc 3, .casemap true, .find nA]

example : (Tab.init.run sample).2 =
    [.sym (some 0), .unit, .sym (some 1), .sym (some 1), .sym (some 1), .unit, .sym (some 2),
     .sym (some 2), .unit, .sym (some 1), .error, .unit, .sym none, .unit, .sym (some 3), .error,
     .unit, .unit, .unit, .sym (some 1), .sym (some 0), .unit, .sym (some 2), .unit, .sym (some 1),
     .unit, .unit, .sym (some 3), .unit, .error, .unit, .sym (some 0)] := by
  decide +kernel

example : Tab.init.Repeats sample := by
  refine ⟨trivial, trivial, trivial, trivial, trivial, trivial, trivial, trivial, trivial, trivial,
    trivial, trivial, trivial, trivial, trivial, trivial, trivial, trivial, trivial, ?_, trivial,
    trivial, trivial, trivial, trivial, trivial, trivial, ?_, trivial, trivial, trivial, trivial,
    trivial⟩
  · exact ⟨⟨1, nFoo, false⟩, by decide +kernel, rfl⟩
  · exact ⟨⟨3, nFoo, false⟩, by decide +kernel, rfl⟩

end Verif.Symbols
