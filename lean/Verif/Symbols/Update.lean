import Verif.Symbols.Proofs
/-! # Insertion, removal and definition of symbols -/

namespace Verif.Symbols

/-- `q` is in no table. -/
def Free (t : Tab) (q : Ptr) : Prop :=
  (∀ s ∈ t.globals, s.id ≠ q) ∧ ∀ p, ∀ s ∈ t.locals p, s.id ≠ q

theorem free_fresh {c t} (R : Rep c t) : Free t c.brk :=
  ⟨fun s hs => Nat.ne_of_lt (R.glt s hs), fun p s hs => Nat.ne_of_lt (R.llt p s hs)⟩

theorem ne_of_bucket {M i l q x} (h : ∀ s ∈ l, s.id ≠ q) (hx : x ∈ bucket M i l) : x ≠ q := by
  obtain ⟨s, hs, rfl, _⟩ := bucket_mem hx
  exact h s hs

/-- Changing a symbol that is in no table changes nothing. -/
theorem rep_heap {c t} (R : Rep c t) (q : Ptr) (hq : Free t q) (h' : Ptr → Node)
    (hh : ∀ x, x ≠ q → h' x = c.heap x) : Rep { c with heap := h' } t where
  gch i := chain_congr (fun x hx => congrArg Node.next (hh x (ne_of_bucket hq.1 hx))) (R.gch i)
  lch p hp i := chain_congr (fun x hx => congrArg Node.next (hh x (ne_of_bucket (hq.2 p) hx))) (R.lch p hp i)
  sav p hp hc := saved_congr (fun s hs => ⟨congrArg Node.next (hh s.id (hq.2 p s hs)), congrArg Node.nextll (hh s.id (hq.2 p s hs))⟩) (R.sav p hp hc)
  gnode s hs := by rw [show ({ c with heap := h' } : St).heap = h' from rfl, hh s.id (hq.1 s hs)]; exact R.gnode s hs
  lnode p s hs := by rw [show ({ c with heap := h' } : St).heap = h' from rfl, hh s.id (hq.2 p s hs)]; exact R.lnode p s hs
  glt := R.glt
  llt := R.llt
  gnd := R.gnd
  lnd := R.lnd
  dgl := R.dgl
  dll := R.dll
  brk := R.brk
  cur := R.cur
  stack := R.stack
  known := R.known
  cs := R.cs
  pass1 := R.pass1
  ck := R.ck
  ok := R.ok
  unk := R.unk
  nest := R.nest
  count := R.count

theorem rep_upd {c t} (R : Rep c t) (q : Ptr) (hq : Free t q) (f : Node → Node) :
    Rep (c.upd q f) t :=
  rep_heap R q hq _ (fun x hx => by simp [hx])

theorem rep_alloc {c t} (R : Rep c t) (n : Name) :
    Rep (symAlloc c n).1 { t with fresh := t.fresh + 1 } := by
  have R' := rep_heap R c.brk (free_fresh R)
    (fun q => if q = c.brk then ⟨n, none, none, true, false⟩ else c.heap q) (fun x hx => by simp [hx])
  exact ⟨R'.gch, R'.lch, R'.sav, R'.gnode, R'.lnode,
    fun s hs => Nat.lt_succ_of_lt (R'.glt s hs), fun p s hs => Nat.lt_succ_of_lt (R'.llt p s hs),
    R'.gnd, R'.lnd, R'.dgl, R'.dll, by simp [symAlloc, R.brk], R'.cur,
    R'.stack, R'.known, R'.cs, R'.pass1, R'.ck, R'.ok, R'.unk, R'.nest, R'.count⟩

theorem bucket_name {c : St} {M i l x} (hn : ∀ s ∈ l, (c.heap s.id).name = s.name)
    (h : x ∈ bucket M i l) : hashpjw (c.heap x).name % M = i := by
  obtain ⟨s, hs, rfl, he⟩ := bucket_mem h
  rw [hn s hs]; exact he

theorem nodup_append_one {l : List Sym} {s : Sym} (h : (l.map Sym.id).Nodup)
    (hs : ∀ x ∈ l, x.id ≠ s.id) : ((l ++ [s]).map Sym.id).Nodup := by
  rw [List.map_append, List.nodup_append]
  refine ⟨h, by simp, ?_⟩
  intro a ha b hb
  simp only [List.map_cons, List.map_nil, List.mem_singleton] at hb
  obtain ⟨x, hx, rfl⟩ := List.mem_map.1 ha
  rw [hb]; exact hs x hx

/-- Insertion into the global table. -/
theorem ins_g {c t} (R : Rep c t) (s : Sym)
    (hk : c.gsym = endLink (.g (hashpjw s.name % GHASH)) (bucket GHASH (hashpjw s.name % GHASH) t.globals))
    (hf : Free t s.id) (hlt : s.id < c.brk) (hn : (c.heap s.id).name = s.name)
    (hu : (c.heap s.id).undef = s.undef) (hs : (c.heap s.id).isScoped = false)
    (hx : (c.heap s.id).next = none) :
    Rep { c.set c.gsym (some s.id) with count := (c.set c.gsym (some s.id)).count + 1 }
      { t with globals := t.globals ++ [s] } := by
  have hnd := bucket_nodup (M := GHASH) (i := hashpjw s.name % GHASH) R.gnd
  obtain ⟨hp, gt, he, hj, hy, hfr, hch⟩ := set_g c (hashpjw s.name % GHASH)
    (bucket GHASH (hashpjw s.name % GHASH) t.globals) [] (some s.id) (by simpa using R.gch _) hnd
  rw [hk, he]
  have hloc : ∀ p, ∀ x ∈ t.locals p, hp x.id = c.heap x.id := by
    intro p x hxl
    apply hfr
    intro hb
    obtain ⟨y, hyg, hid, _⟩ := bucket_mem hb
    exact R.dgl p y hyg x hxl hid
  have hsn : hp s.id = c.heap s.id := hfr _ (fun hb => ne_of_bucket hf.1 hb rfl)
  have hfld : ∀ x, (hp x).name = (c.heap x).name ∧ (hp x).undef = (c.heap x).undef ∧
      (hp x).isScoped = (c.heap x).isScoped := by
    intro x
    obtain ⟨y, hy⟩ := hy x
    rw [hy]; simp
  have hnew := hch [s.id] ⟨rfl, by rw [hsn, hx]; rfl⟩
  refine ⟨?_, ?_, ?_, ?_, ?_, ?_, R.llt, ?_, R.lnd, ?_, R.dll, R.brk, R.cur, R.stack, R.known, R.cs,
    R.pass1, R.ck, R.ok, R.unk, R.nest, ?_⟩
  · intro i
    rw [bucket_append]
    by_cases hi : hashpjw s.name % GHASH = i
    · subst hi
      simpa using hnew
    · simp only [hi, if_false, List.append_nil]
      show Chain hp (gt i) _
      rw [hj i (fun h => hi h.symm)]
      refine chain_congr (fun x hx => ?_) (R.gch i)
      rw [hfr x ?_]
      intro hb
      have h1 := bucket_name (fun s hs => (R.gnode s hs).1) hx
      have h2 := bucket_name (fun s hs => (R.gnode s hs).1) hb
      exact hi (h2.symm.trans h1)
  · intro p hp' i
    refine chain_congr (fun x hx => ?_) (R.lch p hp' i)
    obtain ⟨y, hyl, rfl, _⟩ := bucket_mem hx
    exact congrArg Node.next (hloc p y hyl)
  · intro p hk' hc'
    exact saved_congr (fun x hx => by simp [hloc p x hx]) (R.sav p hk' hc')
  · intro x hx
    simp only [List.mem_append, List.mem_singleton] at hx
    rcases hx with hx | rfl
    · have := R.gnode x hx
      show (hp x.id).name = _ ∧ (hp x.id).undef = _ ∧ (hp x.id).isScoped = _
      rw [(hfld x.id).1, (hfld x.id).2.1, (hfld x.id).2.2]
      exact this
    · show (hp x.id).name = _ ∧ (hp x.id).undef = _ ∧ (hp x.id).isScoped = _
      rw [hsn]; exact ⟨hn, hu, hs⟩
  · intro p x hx
    show (hp x.id).name = _ ∧ (hp x.id).undef = _
    rw [(hfld x.id).1, (hfld x.id).2.1]
    exact R.lnode p x hx
  · intro x hx
    simp only [List.mem_append, List.mem_singleton] at hx
    rcases hx with hx | rfl
    · exact R.glt x hx
    · exact hlt
  · exact nodup_append_one R.gnd hf.1
  · intro p x hx y hy'
    simp only [List.mem_append, List.mem_singleton] at hx
    rcases hx with hx | rfl
    · exact R.dgl p x hx y hy'
    · exact fun h => hf.2 p y hy' h.symm
  · simp [R.count]

/-- Insertion into the local table in pass 1. -/
theorem ins_l {c t} (R : Rep c t) (p : Proc) (s : Sym) (hcur : t.cur = some p) (h1 : t.pass1 = true)
    (hk : c.lsym = endLink (.l (hashpjw s.name % LHASH)) (bucket LHASH (hashpjw s.name % LHASH) (t.locals p)))
    (hf : Free t s.id) (hlt : s.id < c.brk) (hn : (c.heap s.id).name = s.name)
    (hu : (c.heap s.id).undef = s.undef) (hx : (c.heap s.id).next = none) :
    Rep (c.set c.lsym (some s.id)) (t.addLocal p s) := by
  have hnd := bucket_nodup (M := LHASH) (i := hashpjw s.name % LHASH) (R.lnd p)
  obtain ⟨hp, lt, he, hj, hy, hfr, hch⟩ := set_l c (hashpjw s.name % LHASH)
    (bucket LHASH (hashpjw s.name % LHASH) (t.locals p)) [] (some s.id)
    (by simpa using R.lch p hcur _) hnd
  rw [hk, he]
  have hglob : ∀ x ∈ t.globals, hp x.id = c.heap x.id := by
    intro x hxl
    apply hfr
    intro hb
    obtain ⟨y, hyg, hid, _⟩ := bucket_mem hb
    exact R.dgl p x hxl y hyg hid.symm
  have hloc : ∀ q, q ≠ p → ∀ x ∈ t.locals q, hp x.id = c.heap x.id := by
    intro q hq x hxl
    apply hfr
    intro hb
    obtain ⟨y, hyg, hid, _⟩ := bucket_mem hb
    exact R.dll q p hq x hxl y hyg hid.symm
  have hsn : hp s.id = c.heap s.id := hfr _ (fun hb => ne_of_bucket (hf.2 p) hb rfl)
  have hfld : ∀ x, (hp x).name = (c.heap x).name ∧ (hp x).undef = (c.heap x).undef ∧
      (hp x).isScoped = (c.heap x).isScoped := by
    intro x
    obtain ⟨y, hy⟩ := hy x
    rw [hy]; simp
  have hnew := hch [s.id] ⟨rfl, by rw [hsn, hx]; rfl⟩
  have hloceq : ∀ q, (t.addLocal p s).locals q = if q = p then t.locals p ++ [s] else t.locals q :=
    fun q => rfl
  refine ⟨?_, ?_, ?_, ?_, ?_, R.glt, ?_, R.gnd, ?_, ?_, ?_, R.brk, R.cur, R.stack, R.known, R.cs,
    R.pass1, R.ck, R.ok, ?_, R.nest, R.count⟩
  · intro i
    refine chain_congr (fun x hx => ?_) (R.gch i)
    obtain ⟨y, hyl, rfl, _⟩ := bucket_mem hx
    exact congrArg Node.next (hglob y hyl)
  · intro q hq i
    have : q = p := by
      have : t.cur = some q := hq
      rw [hcur] at this; exact (Option.some.inj this).symm
    subst this
    rw [hloceq, if_pos rfl, bucket_append]
    by_cases hi : hashpjw s.name % LHASH = i
    · subst hi
      simpa using hnew
    · simp only [hi, if_false, List.append_nil]
      show Chain hp (lt i) _
      rw [hj i (fun h => hi h.symm)]
      refine chain_congr (fun x hx => ?_) (R.lch q hcur i)
      rw [hfr x ?_]
      intro hb
      have h1 := bucket_name (fun s hs => (R.lnode q s hs).1) hx
      have h2 := bucket_name (fun s hs => (R.lnode q s hs).1) hb
      exact hi (h2.symm.trans h1)
  · intro q hk' hc'
    have hqp : q ≠ p := by
      rintro rfl
      rcases hc' with h | h
      · exact h hcur
      · rw [show (t.addLocal q s).pass1 = t.pass1 from rfl, h1] at h; simp at h
    rw [hloceq, if_neg hqp]
    exact saved_congr (fun x hx => by simp [hloc q hqp x hx]) (R.sav q hk' (Or.inl (by
      rw [hcur]; exact fun h => hqp (Option.some.inj h).symm)))
  · intro x hx
    have := R.gnode x hx
    show (hp x.id).name = _ ∧ (hp x.id).undef = _ ∧ (hp x.id).isScoped = _
    rw [(hfld x.id).1, (hfld x.id).2.1, (hfld x.id).2.2]
    exact this
  · intro q x hx
    show (hp x.id).name = _ ∧ (hp x.id).undef = _
    rw [(hfld x.id).1, (hfld x.id).2.1]
    rw [hloceq] at hx
    split at hx
    · simp only [List.mem_append, List.mem_singleton] at hx
      rcases hx with hx | rfl
      · exact R.lnode p x hx
      · exact ⟨hn, hu⟩
    · exact R.lnode q x hx
  · intro q x hx
    rw [hloceq] at hx
    split at hx
    · simp only [List.mem_append, List.mem_singleton] at hx
      rcases hx with hx | rfl
      · exact R.llt p x hx
      · exact hlt
    · exact R.llt q x hx
  · intro q
    rw [hloceq]
    split
    · exact nodup_append_one (R.lnd p) (hf.2 p)
    · exact R.lnd q
  · intro q x hx y hy'
    rw [hloceq] at hy'
    split at hy'
    · simp only [List.mem_append, List.mem_singleton] at hy'
      rcases hy' with hy' | rfl
      · exact R.dgl p x hx y hy'
      · exact hf.1 x hx
    · exact R.dgl q x hx y hy'
  · intro q r hqr x hx y hy'
    rw [hloceq] at hx hy'
    split at hx
    · split at hy'
      · rename_i a b; exact absurd (a.trans b.symm) hqr
      · rename_i a b
        simp only [List.mem_append, List.mem_singleton] at hx
        rcases hx with hx | rfl
        · exact R.dll p r (fun h => b h.symm) x hx y hy'
        · exact fun h => hf.2 r y hy' h.symm
    · split at hy'
      · rename_i a b
        simp only [List.mem_append, List.mem_singleton] at hy'
        rcases hy' with hy' | hy'
        · exact R.dll q p a x hx y hy'
        · rw [hy']; exact hf.2 q x hx
      · exact R.dll q r hqr x hx y hy'
  · intro q hq
    rw [hloceq]
    split
    · rename_i h
      subst h
      have := R.ck q hcur
      have hq : t.known q = false := hq
      rw [hq] at this; simp at this
    · exact R.unk q hq

theorem filter_ne_self {l : List Ptr} {d : Ptr} (h : d ∉ l) :
    l.filter (fun x => decide (x ≠ d)) = l := by
  rw [List.filter_eq_self]
  intro x hx
  simp only [ne_eq, decide_not, Bool.not_eq_eq_eq_not, Bool.not_true, decide_eq_false_iff_not]
  rintro rfl
  exact h hx

theorem length_filter_ne {l : List Sym} {s : Sym} (hs : s ∈ l) (hnd : (l.map Sym.id).Nodup) :
    (l.filter (fun x => decide (x.id ≠ s.id))).length + 1 = l.length := by
  induction l with
  | nil => simp at hs
  | cons a l ih =>
    simp only [List.map_cons, List.nodup_cons, List.mem_map, not_exists, not_and] at hnd
    simp only [List.mem_cons] at hs
    rcases hs with rfl | hs
    · have : l.filter (fun x => decide (x.id ≠ s.id)) = l := by
        rw [List.filter_eq_self]
        intro x hx
        simpa using fun h => hnd.1 x hx h
      rw [List.filter_cons]
      simpa using congrArg List.length this
    · have h : a.id ≠ s.id := fun h => hnd.1 s hs h.symm
      rw [List.filter_cons]
      simp only [h, ne_eq, not_false_eq_true, decide_true, if_true, List.length_cons]
      have := ih hs hnd.2
      simp only [ne_eq] at this
      omega

/-- Removal from the global table. -/
theorem rem_g {c t} (R : Rep c t) (s : Sym) (hs : s ∈ t.globals) (pre post : List Ptr)
    (hb : bucket GHASH (hashpjw s.name % GHASH) t.globals = pre ++ s.id :: post)
    (hk : c.gsym = endLink (.g (hashpjw s.name % GHASH)) pre) :
    Rep { c.set c.gsym (c.heap s.id).next with
            count := (c.set c.gsym (c.heap s.id).next).count - 1 }
      { t with globals := t.globals.filter (fun x => decide (x.id ≠ s.id)) } := by
  have hnd := bucket_nodup (M := GHASH) (i := hashpjw s.name % GHASH) R.gnd
  rw [hb] at hnd
  have hch0 := R.gch (hashpjw s.name % GHASH)
  rw [hb] at hch0
  have hpnd : pre.Nodup := (List.nodup_append.1 hnd).1
  obtain ⟨hp, gt, he, hj, hy, hfr, hch⟩ := set_g c (hashpjw s.name % GHASH)
    pre (s.id :: post) (c.heap s.id).next hch0 hpnd
  rw [hk, he]
  have hpre : ∀ x ∈ pre, x ∈ bucket GHASH (hashpjw s.name % GHASH) t.globals := by
    intro x hx; rw [hb]; simp [hx]
  have hloc : ∀ p, ∀ x ∈ t.locals p, hp x.id = c.heap x.id := by
    intro p x hxl
    apply hfr
    intro hb
    obtain ⟨y, hyg, hid, _⟩ := bucket_mem (hpre _ hb)
    exact R.dgl p y hyg x hxl hid
  have hfld : ∀ x, (hp x).name = (c.heap x).name ∧ (hp x).undef = (c.heap x).undef ∧
      (hp x).isScoped = (c.heap x).isScoped := by
    intro x
    obtain ⟨y, hy⟩ := hy x
    rw [hy]; simp
  have hpost : Chain c.heap (c.heap s.id).next post := by
    clear hpnd hpre hloc hch hb hk hfr hnd he
    revert hch0
    generalize c.gtab (hashpjw s.name % GHASH) = v
    induction pre generalizing v with
    | nil => exact fun h => h.2
    | cons a pre ih => exact fun h => ih _ h.2
  have hdis := (List.nodup_append.1 hnd).2.2
  have hnew := hch post (chain_congr (fun x hx => by
    rw [hfr x (fun hx' => hdis x hx' x (by simp [hx]) rfl)]) hpost)
  have hmem : ∀ x, x ∈ t.globals.filter (fun x => decide (x.id ≠ s.id)) → x ∈ t.globals :=
    fun x hx => (List.mem_filter.1 hx).1
  refine ⟨?_, ?_, ?_, ?_, ?_, fun x hx => R.glt x (hmem x hx), R.llt, ?_, R.lnd,
    fun p x hx => R.dgl p x (hmem x hx), R.dll, R.brk, R.cur, R.stack, R.known, R.cs,
    R.pass1, R.ck, R.ok, R.unk, R.nest, ?_⟩
  · intro i
    rw [bucket_filter]
    by_cases hi : hashpjw s.name % GHASH = i
    · subst hi
      rw [hb, List.filter_append, List.filter_cons]
      simp only [ne_eq, not_true_eq_false, decide_false, Bool.false_eq_true, if_false]
      have h1 : s.id ∉ pre := fun h => hdis s.id h s.id (by simp) rfl
      have h2 : s.id ∉ post := by
        have := (List.nodup_append.1 hnd).2.1
        simp only [List.nodup_cons] at this
        exact this.1
      rw [filter_ne_self h1, filter_ne_self h2]
      exact hnew
    · have hsi : s.id ∉ bucket GHASH i t.globals := by
        intro h
        have h1 := bucket_name (fun s hs => (R.gnode s hs).1) h
        rw [(R.gnode s hs).1] at h1
        exact hi h1
      rw [filter_ne_self hsi]
      show Chain hp (gt i) _
      rw [hj i (fun h => hi h.symm)]
      refine chain_congr (fun x hx => ?_) (R.gch i)
      rw [hfr x ?_]
      intro hb'
      have h1 := bucket_name (fun s hs => (R.gnode s hs).1) hx
      have h2 := bucket_name (fun s hs => (R.gnode s hs).1) (hpre x hb')
      exact hi (h2.symm.trans h1)
  · intro p hp' i
    refine chain_congr (fun x hx => ?_) (R.lch p hp' i)
    obtain ⟨y, hyl, rfl, _⟩ := bucket_mem hx
    exact congrArg Node.next (hloc p y hyl)
  · intro p hk' hc'
    exact saved_congr (fun x hx => by simp [hloc p x hx]) (R.sav p hk' hc')
  · intro x hx
    have := R.gnode x (hmem x hx)
    show (hp x.id).name = _ ∧ (hp x.id).undef = _ ∧ (hp x.id).isScoped = _
    rw [(hfld x.id).1, (hfld x.id).2.1, (hfld x.id).2.2]
    exact this
  · intro p x hx
    show (hp x.id).name = _ ∧ (hp x.id).undef = _
    rw [(hfld x.id).1, (hfld x.id).2.1]
    exact R.lnode p x hx
  · exact List.Sublist.nodup (List.Sublist.map _ List.filter_sublist) R.gnd
  · have := length_filter_ne hs R.gnd
    simp only [R.count]
    omega

theorem defineIn_mem {d l x} (h : x ∈ defineIn d l) :
    ∃ y ∈ l, x.id = y.id ∧ x.name = y.name ∧ x.undef = (if y.id = d then false else y.undef) := by
  obtain ⟨y, hy, rfl⟩ := List.mem_map.1 h
  exact ⟨y, hy, by by_cases h : y.id = d <;> simp [h]⟩

theorem defineIn_free {d l} (h : ∀ s ∈ l, Sym.id s ≠ d) : defineIn d l = l := by
  unfold defineIn
  conv => rhs; rw [← List.map_id l]
  apply List.map_congr_left
  intro s hs
  simp [h s hs]

/-- Defining a symbol. -/
theorem rep_define {c t} (R : Rep c t) (d : Ptr) :
    Rep (c.upd d (fun nd => { nd with undef := false }))
      { t with globals := defineIn d t.globals, locals := fun p => defineIn d (t.locals p) } := by
  have hnx : ∀ x, ((c.upd d (fun nd => { nd with undef := false })).heap x).next = (c.heap x).next ∧
      ((c.upd d (fun nd => { nd with undef := false })).heap x).nextll = (c.heap x).nextll := by
    intro x
    by_cases h : x = d <;> simp [St.upd, h]
  have hnode : ∀ x : Ptr, ∀ u : Bool, (c.heap x).undef = u →
      ((c.upd d (fun nd => { nd with undef := false })).heap x).name = (c.heap x).name ∧
      ((c.upd d (fun nd => { nd with undef := false })).heap x).undef = (if x = d then false else u) ∧
      ((c.upd d (fun nd => { nd with undef := false })).heap x).isScoped = (c.heap x).isScoped := by
    intro x u hu
    by_cases h : x = d <;> simp [St.upd, h, hu]
  refine ⟨?_, ?_, ?_, ?_, ?_, ?_, ?_, ?_, ?_, ?_, ?_, R.brk, R.cur, R.stack, R.known, R.cs,
    R.pass1, R.ck, R.ok, ?_, R.nest, ?_⟩
  · intro i
    rw [bucket_defineIn]
    exact chain_congr (fun x _ => (hnx x).1) (R.gch i)
  · intro p hp i
    rw [bucket_defineIn]
    exact chain_congr (fun x _ => (hnx x).1) (R.lch p hp i)
  · intro p hk hc
    have := saved_congr (fun s _ => hnx s.id) (R.sav p hk hc)
    unfold Saved at this ⊢
    simp only [bucket_defineIn]
    exact this
  · intro x hx
    obtain ⟨y, hy, h1, h2, h3⟩ := defineIn_mem hx
    have := R.gnode y hy
    have hn := hnode y.id _ this.2.1
    rw [h1, h2, h3, hn.1, hn.2.1, hn.2.2]
    exact ⟨this.1, rfl, this.2.2⟩
  · intro p x hx
    obtain ⟨y, hy, h1, h2, h3⟩ := defineIn_mem hx
    have := R.lnode p y hy
    have hn := hnode y.id _ this.2
    rw [h1, h2, h3, hn.1, hn.2.1]
    exact ⟨this.1, rfl⟩
  · intro x hx
    obtain ⟨y, hy, h1, _⟩ := defineIn_mem hx
    rw [h1]; exact R.glt y hy
  · intro p x hx
    obtain ⟨y, hy, h1, _⟩ := defineIn_mem hx
    rw [h1]; exact R.llt p y hy
  · rw [defineIn_ids]; exact R.gnd
  · intro p; rw [defineIn_ids]; exact R.lnd p
  · intro p x hx z hz
    obtain ⟨y, hy, h1, _⟩ := defineIn_mem hx
    obtain ⟨w, hw, h2, _⟩ := defineIn_mem hz
    rw [h1, h2]; exact R.dgl p y hy w hw
  · intro p q hpq x hx z hz
    obtain ⟨y, hy, h1, _⟩ := defineIn_mem hx
    obtain ⟨w, hw, h2, _⟩ := defineIn_mem hz
    rw [h1, h2]; exact R.dll p q hpq y hy w hw
  · intro p hp
    simp only [R.unk p hp]
    rfl
  · rw [show (defineIn d t.globals).length = t.globals.length by simp [defineIn]]
    exact R.count

/-! ## saving and restoring the locals of a procedure -/

def pick (hp : Ptr → Node) (ll : Proc → Option Ptr) (proc : Proc) : Option Ptr → Option Ptr
  | none => ll proc
  | some p => (hp p).nextll

theorem getLocalLoop_spec (st : St) (proc : Proc) (l : Option Ptr) (is : List Nat)
    (hnd : (is.filterMap st.ltab).Nodup) (hl : ∀ p, l = some p → p ∉ is.filterMap st.ltab) :
    ∃ hp ll, getLocalLoop st proc l is = { st with heap := hp, labellist := ll } ∧
      (∀ x, ∃ y, hp x = { st.heap x with nextll := y }) ∧
      (∀ x, l ≠ some x → x ∉ is.filterMap st.ltab → hp x = st.heap x) ∧
      (∀ q, q ≠ proc ∨ l.isSome → ll q = st.labellist q) ∧
      LL hp (pick hp ll proc l) (is.filterMap st.ltab) := by
  induction is generalizing st l with
  | nil =>
    cases l with
    | none =>
      refine ⟨st.heap, _, rfl, fun x => ⟨(st.heap x).nextll, rfl⟩, fun _ _ _ => rfl, ?_, ?_⟩
      · intro q hq
        rcases hq with hq | hq
        · simp [hq]
        · simp at hq
      · simp [LL, pick]
    | some p =>
      refine ⟨_, st.labellist, rfl, ?_, ?_, fun _ _ => rfl, ?_⟩
      · intro x
        by_cases h : x = p
        · exact ⟨none, by simp [h]⟩
        · exact ⟨(st.heap x).nextll, by simp [h]⟩
      · intro x hx _
        have : x ≠ p := fun h => hx (by rw [h])
        simp [this]
      · simp [LL, pick]
  | cons i is ih =>
    unfold getLocalLoop
    cases hi : st.ltab i with
    | none =>
      have hfm : (i :: is).filterMap st.ltab = is.filterMap st.ltab := by simp [hi]
      rw [hfm] at hnd hl ⊢
      exact ih st l hnd hl
    | some p =>
      have hfm : (i :: is).filterMap st.ltab = p :: is.filterMap st.ltab := by simp [hi]
      rw [hfm] at hnd hl ⊢
      simp only [List.nodup_cons] at hnd
      have hlt : (putLL st proc l (some p)).ltab = st.ltab := by cases l <;> rfl
      obtain ⟨hp, ll, he, h1, h2, h3, h4⟩ := ih (putLL st proc l (some p)) (some p)
        (by rw [hlt]; exact hnd.2) (by
          intro q hq; rw [hlt]; exact Option.some.inj hq ▸ hnd.1)
      rw [hlt] at h2 h4
      refine ⟨hp, ll, ?_, ?_, ?_, ?_, ?_⟩
      · simp only []
        rw [he]
        cases l <;> rfl
      · intro x
        obtain ⟨y, hy⟩ := h1 x
        refine ⟨y, ?_⟩
        rw [hy]
        cases l with
        | none => rfl
        | some r => by_cases h : x = r <;> simp [putLL, St.upd, h]
      · intro x hx hx'
        simp only [List.mem_cons, not_or] at hx'
        rw [h2 x (fun h => hx'.1 (Option.some.inj h).symm) hx'.2]
        cases l with
        | none => rfl
        | some r =>
          have : x ≠ r := fun h => hx (by rw [h])
          simp [putLL, St.upd, this]
      · intro q hq
        rw [h3 q (Or.inr rfl)]
        cases l with
        | none =>
          rcases hq with hq | hq
          · simp [putLL, hq]
          · simp at hq
        | some r => rfl
      · refine ⟨?_, h4⟩
        cases l with
        | none =>
          show ll proc = some p
          rw [h3 proc (Or.inr rfl)]
          simp [putLL]
        | some r =>
          show (hp r).nextll = some p
          have hr := hl r rfl
          simp only [List.mem_cons, not_or] at hr
          rw [h2 r (fun h => hr.1 (Option.some.inj h).symm) hr.2]
          simp [putLL, St.upd]

theorem setLocalLoop_spec (st : St) (v : Option Ptr) (hs : List Ptr) (H : LL st.heap v hs)
    (hnd : (hs.map (fun h => hashpjw (st.heap h).name % LHASH)).Nodup) :
    ∃ lt, setLocalLoop st v = some { st with ltab := lt } ∧
      (∀ h ∈ hs, lt (hashpjw (st.heap h).name % LHASH) = some h) ∧
      (∀ j, (∀ h ∈ hs, hashpjw (st.heap h).name % LHASH ≠ j) → lt j = st.ltab j) := by
  induction hs generalizing st v with
  | nil =>
    refine ⟨st.ltab, ?_, by simp, fun _ _ => rfl⟩
    rw [show v = none from H, setLocalLoop.eq_def]
  | cons p ps ih =>
    obtain ⟨h1, h2⟩ := H
    subst h1
    simp only [List.map_cons, List.nodup_cons, List.mem_map, not_exists, not_and] at hnd
    rw [setLocalLoop.eq_def]
    simp only
    obtain ⟨lt, he, ha, hb⟩ := ih ({ st with
          ltab := (fun j => if j = hashpjw (st.heap p).name % LHASH then some p else st.ltab j) })
        _ h2 hnd.2
    refine ⟨lt, he, ?_, ?_⟩
    · intro h hh
      simp only [List.mem_cons] at hh
      rcases hh with rfl | hh
      · rw [hb _ (fun h' hh' => hnd.1 h' hh')]
        simp
      · exact ha h hh
    · intro j hj
      rw [hb j (fun h hh => hj h (by simp [hh]))]
      exact if_neg (fun h => hj p (by simp) h.symm)

theorem nodup_filterMap {hd : Nat → Option Ptr} {f : Ptr → Nat} {is : List Nat} (hnd : is.Nodup)
    (hf : ∀ i h, hd i = some h → f h = i) : ((is.filterMap hd).map f).Nodup := by
  induction is with
  | nil => simp
  | cons i is ih =>
    simp only [List.nodup_cons] at hnd
    cases hi : hd i with
    | none => simpa [List.filterMap_cons, hi] using ih hnd.2
    | some h =>
      simp only [List.filterMap_cons, hi, List.map_cons, List.nodup_cons]
      refine ⟨?_, ih hnd.2⟩
      intro hm
      obtain ⟨x, hx, he⟩ := List.mem_map.1 hm
      obtain ⟨j, hj, hjx⟩ := List.mem_filterMap.1 hx
      rw [hf i h hi] at he
      rw [hf j x hjx] at he
      exact hnd.1 (he ▸ hj)

theorem nodup_of_map {f : Ptr → Nat} {l : List Ptr} (h : (l.map f).Nodup) : l.Nodup := by
  induction l with
  | nil => simp
  | cons a l ih =>
    simp only [List.map_cons, List.nodup_cons, List.mem_map, not_exists, not_and] at h
    simp only [List.nodup_cons]
    exact ⟨fun hm => h.1 a hm rfl, ih h.2⟩

theorem head_name {c t} (R : Rep c t) (p : Proc) (i : Nat) (h : Ptr)
    (hh : (bucket LHASH i (t.locals p)).head? = some h) : hashpjw (c.heap h).name % LHASH = i :=
  bucket_name (fun s hs => (R.lnode p s hs).1) (List.mem_of_head? hh)

/-- `SymGetLocal` of the current procedure. -/
theorem getLocal_spec {c t} (R : Rep c t) (p : Proc) (hp : t.cur = some p) :
    ∃ hp ll, symGetLocal c p = { c with heap := hp, labellist := ll } ∧
      Saved hp (ll p) (t.locals p) ∧
      (∀ x, ∃ y, hp x = { c.heap x with nextll := y }) ∧
      (∀ x, (∀ s ∈ t.locals p, s.id ≠ x) → hp x = c.heap x) ∧
      (∀ q, q ≠ p → ll q = c.labellist q) := by
  have hlt : c.ltab = fun i => (bucket LHASH i (t.locals p)).head? := by
    funext i; exact chain_head (R.lch p hp i)
  have hnd := nodup_of_map (nodup_filterMap (hd := c.ltab) (f := fun h => hashpjw (c.heap h).name % LHASH)
    (List.nodup_range (n := LHASH)) (fun i h hi => head_name R p i h (by rw [hlt] at hi; exact hi)))
  obtain ⟨h', ll, he, h1, h2, h3, h4⟩ := getLocalLoop_spec c p none (List.range LHASH) hnd (by simp)
  refine ⟨h', ll, he, ⟨?_, ?_⟩, h1, ?_, fun q hq => h3 q (Or.inl hq)⟩
  · rw [hlt] at h4; exact h4
  · intro i
    have := R.lch p hp i
    rw [hlt] at this
    exact chain_congr (fun x _ => by obtain ⟨y, hy⟩ := h1 x; rw [hy]) this
  · intro x hx
    apply h2 x (by simp)
    intro hm
    obtain ⟨i, _, hi⟩ := List.mem_filterMap.1 hm
    rw [hlt] at hi
    obtain ⟨s, hs, he, _⟩ := bucket_mem (List.mem_of_head? hi)
    exact hx s hs he

/-- Saving the locals of the current procedure keeps everything, and the procedure is saved too. -/
theorem rep_getLocal {c t} (R : Rep c t) (p : Proc) (hp : t.cur = some p) :
    Rep (symGetLocal c p) t ∧ Saved (symGetLocal c p).heap ((symGetLocal c p).labellist p) (t.locals p) ∧
    (symGetLocal c p).stack = c.stack := by
  obtain ⟨h', ll, he, hs, h1, h2, h3⟩ := getLocal_spec R p hp
  rw [he]
  have hf : ∀ x, (h' x).next = (c.heap x).next ∧ (h' x).name = (c.heap x).name ∧
      (h' x).undef = (c.heap x).undef ∧ (h' x).isScoped = (c.heap x).isScoped := by
    intro x; obtain ⟨y, hy⟩ := h1 x; rw [hy]; simp
  refine ⟨⟨?_, ?_, ?_, ?_, ?_, R.glt, R.llt, R.gnd, R.lnd, R.dgl, R.dll, R.brk, R.cur,
   R.stack, R.known, R.cs, R.pass1, R.ck, R.ok, R.unk, R.nest, R.count⟩, hs, rfl⟩
  · exact fun i => chain_congr (fun x _ => (hf x).1) (R.gch i)
  · exact fun q hq i => chain_congr (fun x _ => (hf x).1) (R.lch q hq i)
  · intro q hk hc
    by_cases hqp : q = p
    · subst hqp; exact hs
    · show Saved h' (ll q) _
      rw [h3 q hqp]
      refine saved_congr (fun s hs' => ?_) (R.sav q hk hc)
      rw [h2 s.id (fun s' hs'' => R.dll p q (fun h => hqp h.symm) s' hs'' s hs')]
      simp
  · intro s hs'
    show (h' s.id).name = _ ∧ (h' s.id).undef = _ ∧ (h' s.id).isScoped = _
    rw [(hf s.id).2.1, (hf s.id).2.2.1, (hf s.id).2.2.2]
    exact R.gnode s hs'
  · intro q s hs'
    show (h' s.id).name = _ ∧ (h' s.id).undef = _
    rw [(hf s.id).2.1, (hf s.id).2.2.1]
    exact R.lnode q s hs'

/-- `SymSetLocal` of a saved procedure. -/
theorem setLocal_spec (c : St) (p : Proc) (L : List Sym) (hs : Saved c.heap (c.labellist p) L)
    (hn : ∀ s ∈ L, (c.heap s.id).name = s.name) :
    ∃ lt, symSetLocal c p = some { c with ltab := lt } ∧
      ∀ i, Chain c.heap (lt i) (bucket LHASH i L) := by
  have hname : ∀ i h, (bucket LHASH i L).head? = some h → hashpjw (c.heap h).name % LHASH = i :=
    fun i h hh => bucket_name hn (List.mem_of_head? hh)
  obtain ⟨lt, he, ha, hb⟩ := setLocalLoop_spec (symClearLocal c) (c.labellist p) _ hs.1
    (nodup_filterMap (List.nodup_range (n := LHASH)) hname)
  refine ⟨lt, he, ?_⟩
  intro i
  have : lt i = (bucket LHASH i L).head? := by
    cases hh : (bucket LHASH i L).head? with
    | none =>
      rw [hb i]
      · rfl
      · intro h hm hi
        obtain ⟨j, _, hj⟩ := List.mem_filterMap.1 hm
        have := hname j h hj
        have hij : i = j := hi.symm.trans this
        rw [← hij, hh] at hj
        simp at hj
    | some h =>
      have hi := hname i h hh
      have hlt : i < LHASH := by rw [← hi]; exact Nat.mod_lt _ (by decide)
      have := ha h (List.mem_filterMap.2 ⟨i, List.mem_range.2 hlt, hh⟩)
      rw [show hashpjw ((symClearLocal c).heap h).name % LHASH = i from hi] at this
      exact this
  rw [this]
  exact hs.2 i

end Verif.Symbols
