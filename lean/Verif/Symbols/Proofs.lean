import Verif.Symbols.Spec
/-! # Proof that the hash tables represent the abstract symbol table -/

namespace Verif.Symbols

/-- `v` heads a `next` chain through `ids`. -/
def Chain (heap : Ptr → Node) : Option Ptr → List Ptr → Prop
  | v, [] => v = none
  | v, p :: ps => v = some p ∧ Chain heap (heap p).next ps

/-- `v` heads a `nextll` chain through `ids`. -/
def LL (heap : Ptr → Node) : Option Ptr → List Ptr → Prop
  | v, [] => v = none
  | v, p :: ps => v = some p ∧ LL heap (heap p).nextll ps

theorem chain_congr {h h' : Ptr → Node} {v ids} (hc : ∀ x ∈ ids, (h' x).next = (h x).next)
    (H : Chain h v ids) : Chain h' v ids := by
  induction ids generalizing v with
  | nil => exact H
  | cons p ps ih =>
    refine ⟨H.1, ?_⟩
    rw [hc p (by simp)]
    exact ih (fun x hx => hc x (by simp [hx])) H.2

theorem ll_congr {h h' : Ptr → Node} {v ids} (hc : ∀ x ∈ ids, (h' x).nextll = (h x).nextll)
    (H : LL h v ids) : LL h' v ids := by
  induction ids generalizing v with
  | nil => exact H
  | cons p ps ih =>
    refine ⟨H.1, ?_⟩
    rw [hc p (by simp)]
    exact ih (fun x hx => hc x (by simp [hx])) H.2

theorem chain_head {h : Ptr → Node} {v ids} (H : Chain h v ids) : v = ids.head? := by
  cases ids with
  | nil => exact H
  | cons p ps => exact H.1

/-- ids of the symbols of a list that live in bucket `i` of `M`. -/
def bucket (M i : Nat) (l : List Sym) : List Ptr :=
  (l.filter (fun s => decide (hashpjw s.name % M = i))).map Sym.id

theorem bucket_mem {M i l x} (h : x ∈ bucket M i l) :
    ∃ s ∈ l, s.id = x ∧ hashpjw s.name % M = i := by
  simp only [bucket, List.mem_map, List.mem_filter, decide_eq_true_eq] at h
  obtain ⟨s, ⟨a, b⟩, c⟩ := h
  exact ⟨s, a, c, b⟩

theorem bucket_sub {M i l x} (h : x ∈ bucket M i l) : x ∈ l.map Sym.id := by
  obtain ⟨s, a, b, _⟩ := bucket_mem h
  exact List.mem_map.2 ⟨s, a, b⟩

theorem bucket_nodup {M i l} (h : (l.map Sym.id).Nodup) : (bucket M i l).Nodup :=
  List.Sublist.nodup (List.Sublist.map _ List.filter_sublist) h

theorem bucket_append (M i l s) : bucket M i (l ++ [s]) =
    bucket M i l ++ (if hashpjw s.name % M = i then [s.id] else []) := by
  unfold bucket
  by_cases h : hashpjw s.name % M = i <;> simp [List.filter_append, h]

theorem bucket_filter (M i l d) : bucket M i (l.filter (fun x => decide (x.id ≠ d))) =
    (bucket M i l).filter (fun x => decide (x ≠ d)) := by
  unfold bucket
  rw [List.filter_map, List.filter_filter, List.filter_filter]
  congr 1
  apply List.filter_congr
  intro x _
  simp [Bool.and_comm]

theorem bucket_defineIn (M i l d) : bucket M i (defineIn d l) = bucket M i l := by
  unfold bucket defineIn
  induction l with
  | nil => rfl
  | cons s l ih =>
    by_cases h : s.id = d <;> by_cases h2 : hashpjw s.name % M = i <;>
      simp [h, h2, List.filter_cons] <;> simpa using ih

theorem defineIn_ids (d l) : (defineIn d l).map Sym.id = l.map Sym.id := by
  unfold defineIn
  rw [List.map_map]
  apply List.map_congr_left
  intro s _
  by_cases h : s.id = d <;> simp [h]

/-! ## hashing respects name equality -/

theorem lower_or (c d : BitVec 8) (h : lower c = lower d) : c ||| 0x20#8 = d ||| 0x20#8 := by
  revert c d
  have key : ∀ c : BitVec 8, lower c ||| 0x20#8 = c ||| 0x20#8 := by decide +kernel
  intro c d h
  rw [← key c, ← key d, h]

theorem hash_lower {a b : Name} (h : a.map lower = b.map lower) : hashpjw a = hashpjw b := by
  have key : ∀ (a b : Name) (x : BitVec 64), a.map lower = b.map lower →
      a.foldl (fun h c => (h ^^^ ((c ||| 0x20#8).signExtend 64)) * 1099511628211#64) x =
      b.foldl (fun h c => (h ^^^ ((c ||| 0x20#8).signExtend 64)) * 1099511628211#64) x := by
    intro a
    induction a with
    | nil => intro b x h; cases b with
      | nil => rfl
      | cons => simp at h
    | cons c a ih => intro b x h; cases b with
      | nil => simp at h
      | cons d b =>
        simp only [List.map_cons, List.cons.injEq] at h
        simp only [List.foldl_cons]
        rw [lower_or c d h.1]
        exact ih b _ h.2
  unfold hashpjw
  rw [key a b _ h]

theorem sameName_iff (cs a b) : sameName cs a b = decide (SameName cs a b) := by
  unfold sameName SameName
  cases cs
  · simp only [Bool.false_eq_true, if_false]
    by_cases h : a.map lower = b.map lower
    · have := congrArg List.length h
      simp only [List.length_map] at this
      simp [h, this]
    · simp [h]
  · simp only [if_true]
    by_cases h : a = b
    · simp [h]
    · simp [h]

theorem hash_same {cs a b} (h : SameName cs a b) : hashpjw a = hashpjw b := by
  unfold SameName at h
  cases cs
  · exact hash_lower (by simpa using h)
  · simp at h; rw [h]

/-! ## walking -/

def endLink : Link → List Ptr → Link
  | k, [] => k
  | _, p :: ps => endLink (.n p) ps

theorem walk_chain (c : St) (n : Name) (k : Link) (ids : List Ptr) (H : Chain c.heap (c.get k) ids) :
    walk c n k = some (endLink k (ids.takeWhile (fun x => !sameName c.cs n (c.heap x).name)),
      ids.find? (fun x => sameName c.cs n (c.heap x).name)) := by
  induction ids generalizing k with
  | nil => rw [walk.eq_def]; simp only [show c.get k = none from H]; rfl
  | cons p ps ih =>
    rw [walk.eq_def]
    simp only [H.1]
    cases hm : sameName c.cs n (c.heap p).name
    · simp only [Bool.false_eq_true, if_false, List.takeWhile_cons, hm, Bool.not_false, if_true,
        List.find?_cons]
      exact ih (.n p) H.2
    · simp [hm, List.takeWhile_cons, List.find?_cons, endLink]

theorem get_set_same (c : St) (k v) : (c.set k v).get k = v := by
  cases k <;> simp [St.set, St.get]

theorem get_set_other (c : St) (k k' v) (h : k ≠ k') : (c.set k' v).get k = c.get k := by
  cases k <;> cases k' <;> simp_all [St.set, St.get]

theorem endLink_n (q : Ptr) (pre : List Ptr) : ∃ r, r ∈ q :: pre ∧ endLink (.n q) pre = .n r := by
  induction pre generalizing q with
  | nil => exact ⟨q, by simp, rfl⟩
  | cons p pre ih =>
    obtain ⟨r, hr, he⟩ := ih p
    exact ⟨r, List.mem_cons_of_mem _ hr, he⟩

theorem chain_set (c : St) (k : Link) (v : Option Ptr) (pre rest new : List Ptr)
    (H : Chain c.heap (c.get k) (pre ++ rest)) (hnd : pre.Nodup) (hk : ∀ p ∈ pre, k ≠ .n p)
    (hn : Chain (c.set (endLink k pre) v).heap v new) :
    Chain (c.set (endLink k pre) v).heap ((c.set (endLink k pre) v).get k) (pre ++ new) := by
  induction pre generalizing k with
  | nil => rw [show endLink k [] = k from rfl] at *; rw [get_set_same]; exact hn
  | cons q pre ih =>
    simp only [List.nodup_cons] at hnd
    rw [show endLink k (q :: pre) = endLink (.n q) pre from rfl] at *
    refine ⟨?_, ?_⟩
    · obtain ⟨r, hr, he⟩ := endLink_n q pre
      rw [he, get_set_other _ _ _ _ (hk r hr)]
      exact H.1
    · refine ih (.n q) H.2 hnd.2 ?_ hn
      intro p hp e
      injection e with e
      exact hnd.1 (e ▸ hp)

/-- Effect of writing through the cursor. -/
theorem set_frame (c : St) (k : Link) (pre : List Ptr) (v : Option Ptr) :
    (∀ x, ∃ y, (c.set (endLink k pre) v).heap x = { c.heap x with next := y }) ∧
    (∀ x, x ∉ pre → k ≠ .n x → (c.set (endLink k pre) v).heap x = c.heap x) := by
  cases pre with
  | nil =>
    cases k with
    | g i => exact ⟨fun x => ⟨_, rfl⟩, fun x _ _ => rfl⟩
    | l i => exact ⟨fun x => ⟨_, rfl⟩, fun x _ _ => rfl⟩
    | n p =>
      constructor
      · intro x
        by_cases h : x = p
        · exact ⟨v, by simp [endLink, St.set, h]⟩
        · exact ⟨(c.heap x).next, by simp [endLink, St.set, h]⟩
      · intro x _ hx
        have : x ≠ p := fun h => hx (by rw [h])
        simp [endLink, St.set, this]
  | cons q pre =>
    obtain ⟨r, hr, he⟩ := endLink_n q pre
    rw [show endLink k (q :: pre) = endLink (.n q) pre from rfl, he]
    constructor
    · intro x
      by_cases h : x = r
      · exact ⟨v, by simp [St.set, h]⟩
      · exact ⟨(c.heap x).next, by simp [St.set, h]⟩
    · intro x hx _
      have : x ≠ r := fun h => hx (h ▸ hr)
      simp [St.set, this]

theorem set_shape_g (c : St) (i : Nat) (pre : List Ptr) (v : Option Ptr) :
    ∃ hp gt, c.set (endLink (.g i) pre) v = { c with heap := hp, gtab := gt } ∧
      ∀ j, j ≠ i → gt j = c.gtab j := by
  cases pre with
  | nil => exact ⟨c.heap, _, rfl, fun j hj => by simp [hj]⟩
  | cons q pre =>
    obtain ⟨r, hr, he⟩ := endLink_n q pre
    rw [show endLink (.g i) (q :: pre) = endLink (.n q) pre from rfl, he]
    exact ⟨_, c.gtab, rfl, fun j _ => rfl⟩

theorem set_shape_l (c : St) (i : Nat) (pre : List Ptr) (v : Option Ptr) :
    ∃ hp lt, c.set (endLink (.l i) pre) v = { c with heap := hp, ltab := lt } ∧
      ∀ j, j ≠ i → lt j = c.ltab j := by
  cases pre with
  | nil => exact ⟨c.heap, _, rfl, fun j hj => by simp [hj]⟩
  | cons q pre =>
    obtain ⟨r, hr, he⟩ := endLink_n q pre
    rw [show endLink (.l i) (q :: pre) = endLink (.n q) pre from rfl, he]
    exact ⟨_, c.ltab, rfl, fun j _ => rfl⟩

/-- Writing through a cursor into a global bucket. -/
theorem set_g (c : St) (i : Nat) (pre rest : List Ptr) (v : Option Ptr)
    (H : Chain c.heap (c.gtab i) (pre ++ rest)) (hnd : pre.Nodup) :
    ∃ hp gt, c.set (endLink (.g i) pre) v = { c with heap := hp, gtab := gt } ∧
      (∀ j, j ≠ i → gt j = c.gtab j) ∧
      (∀ x, ∃ y, hp x = { c.heap x with next := y }) ∧
      (∀ x, x ∉ pre → hp x = c.heap x) ∧
      (∀ new, Chain hp v new → Chain hp (gt i) (pre ++ new)) := by
  obtain ⟨hp, gt, he, hj⟩ := set_shape_g c i pre v
  have f := set_frame c (.g i) pre v
  have ch := fun new => chain_set c (.g i) v pre rest new H hnd (by simp)
  rw [he] at f ch
  exact ⟨hp, gt, he, hj, f.1, fun x hx => f.2 x hx (by simp), ch⟩

/-- Writing through a cursor into a local bucket. -/
theorem set_l (c : St) (i : Nat) (pre rest : List Ptr) (v : Option Ptr)
    (H : Chain c.heap (c.ltab i) (pre ++ rest)) (hnd : pre.Nodup) :
    ∃ hp lt, c.set (endLink (.l i) pre) v = { c with heap := hp, ltab := lt } ∧
      (∀ j, j ≠ i → lt j = c.ltab j) ∧
      (∀ x, ∃ y, hp x = { c.heap x with next := y }) ∧
      (∀ x, x ∉ pre → hp x = c.heap x) ∧
      (∀ new, Chain hp v new → Chain hp (lt i) (pre ++ new)) := by
  obtain ⟨hp, lt, he, hj⟩ := set_shape_l c i pre v
  have f := set_frame c (.l i) pre v
  have ch := fun new => chain_set c (.l i) v pre rest new H hnd (by simp)
  rw [he] at f ch
  exact ⟨hp, lt, he, hj, f.1, fun x hx => f.2 x hx (by simp), ch⟩

/-! ## the representation relation -/

/-- A procedure's saved locals: the `nextll` list of bucket heads, and the chains behind them. -/
def Saved (heap : Ptr → Node) (v : Option Ptr) (L : List Sym) : Prop :=
  LL heap v ((List.range LHASH).filterMap (fun i => (bucket LHASH i L).head?)) ∧
  ∀ i, Chain heap ((bucket LHASH i L).head?) (bucket LHASH i L)

structure Rep (c : St) (t : Tab) : Prop where
  gch : ∀ i, Chain c.heap (c.gtab i) (bucket GHASH i t.globals)
  lch : ∀ p, t.cur = some p → ∀ i, Chain c.heap (c.ltab i) (bucket LHASH i (t.locals p))
  sav : ∀ p, t.known p = true → (t.cur ≠ some p ∨ t.pass1 = false) →
    Saved c.heap (c.labellist p) (t.locals p)
  gnode : ∀ s ∈ t.globals, (c.heap s.id).name = s.name ∧ (c.heap s.id).undef = s.undef ∧
    (c.heap s.id).isScoped = false
  lnode : ∀ p, ∀ s ∈ t.locals p, (c.heap s.id).name = s.name ∧ (c.heap s.id).undef = s.undef
  glt : ∀ s ∈ t.globals, s.id < c.brk
  llt : ∀ p, ∀ s ∈ t.locals p, s.id < c.brk
  gnd : (t.globals.map Sym.id).Nodup
  lnd : ∀ p, ((t.locals p).map Sym.id).Nodup
  dgl : ∀ p, ∀ s ∈ t.globals, ∀ s' ∈ t.locals p, s.id ≠ s'.id
  dll : ∀ p q, p ≠ q → ∀ s ∈ t.locals p, ∀ s' ∈ t.locals q, s.id ≠ s'.id
  brk : c.brk = t.fresh
  cur : c.cur = t.cur
  stack : c.stack = t.outer
  known : c.known = t.known
  cs : c.cs = t.cs
  pass1 : c.pass1 = t.pass1
  ck : ∀ p, t.cur = some p → t.known p = true
  ok : ∀ p ∈ t.outer, t.known p = true
  unk : ∀ p, t.known p = false → t.locals p = []
  nest : t.pass1 = true → (t.cur.toList ++ t.outer).Nodup
  count : c.count = t.globals.length

/-- Local symbols are defined. -/
def LDef (t : Tab) : Prop := ∀ p, ∀ s ∈ t.locals p, s.undef = false

theorem saved_congr {h h' : Ptr → Node} {v L}
    (hc : ∀ s ∈ L, (h' s.id).next = (h s.id).next ∧ (h' s.id).nextll = (h s.id).nextll)
    (H : Saved h v L) : Saved h' v L := by
  have hb : ∀ i x, x ∈ bucket LHASH i L → (h' x).next = (h x).next ∧ (h' x).nextll = (h x).nextll := by
    intro i x hx
    obtain ⟨s, hs, rfl, _⟩ := bucket_mem hx
    exact hc s hs
  refine ⟨ll_congr ?_ H.1, fun i => chain_congr (fun x hx => (hb i x hx).1) (H.2 i)⟩
  intro x hx
  obtain ⟨i, _, hi⟩ := List.mem_filterMap.1 hx
  exact (hb i x (List.mem_of_head? hi)).2

theorem rep_cursor {c t} (R : Rep c t) (k1 k2) : Rep { c with lsym := k1, gsym := k2 } t :=
  ⟨R.gch, R.lch, R.sav, R.gnode, R.lnode, R.glt, R.llt, R.gnd, R.lnd, R.dgl, R.dll, R.brk, R.cur,
   R.stack, R.known, R.cs, R.pass1, R.ck, R.ok, R.unk, R.nest, R.count⟩

/-! ## lookup -/

theorem find_bucket (c : St) (M : Nat) (l : List Sym) (n : Name)
    (hn : ∀ s ∈ l, (c.heap s.id).name = s.name) :
    (bucket M (hashpjw n % M) l).find? (fun x => sameName c.cs n (c.heap x).name) =
    (l.find? (fun s => decide (SameName c.cs n s.name))).map Sym.id := by
  induction l with
  | nil => rfl
  | cons s l ih =>
    have ih := ih (fun s hs => hn s (by simp [hs]))
    have hs := hn s (by simp)
    unfold bucket at ih ⊢
    by_cases hm : SameName c.cs n s.name
    · have hh := hash_same hm
      simp [List.filter_cons, hh, hs, sameName_iff, hm, List.find?_cons]
    · by_cases hh : hashpjw s.name % M = hashpjw n % M
      · simp only [List.filter_cons, hh, decide_true, if_true, List.map_cons, List.find?_cons, hs,
          sameName_iff, hm, decide_false]
        simpa [sameName_iff] using ih
      · simp only [List.filter_cons, hh, decide_false, List.find?_cons, hm, Bool.false_eq_true,
          if_false]
        exact ih

theorem takeWhile_of_find_none {α} (p : α → Bool) (l : List α) (h : l.find? p = none) :
    l.takeWhile (fun x => !p x) = l := by
  induction l with
  | nil => rfl
  | cons a l ih =>
    simp only [List.find?_cons] at h
    cases hp : p a
    · simp only [hp] at h
      simp [List.takeWhile_cons, hp, ih h]
    · simp [hp] at h

theorem split_of_find_some {α} (p : α → Bool) (l : List α) (a : α) (h : l.find? p = some a) :
    ∃ post, l = l.takeWhile (fun x => !p x) ++ a :: post := by
  induction l with
  | nil => simp at h
  | cons b l ih =>
    simp only [List.find?_cons] at h
    cases hp : p b
    · simp only [hp] at h
      obtain ⟨post, he⟩ := ih h
      exact ⟨post, by simp [List.takeWhile_cons, hp]; exact he⟩
    · simp only [hp, Option.some.injEq] at h
      subst h; exact ⟨l, by simp [List.takeWhile_cons, hp]⟩

theorem tab_find (t : Tab) (n : Name) :
    t.find n = (t.findLocal n).or (t.globals.find? (fun s => decide (SameName t.cs n s.name))) := by
  unfold Tab.find Tab.findLocal
  rw [List.find?_append]

theorem symFind_spec {c t} (R : Rep c t) (n : Name) :
    ∃ k1 k2, symFind c n = some ({ c with lsym := k1, gsym := k2 }, (t.find n).map Sym.id) ∧
      (∀ p, t.cur = some p → t.findLocal n = none →
        k1 = endLink (.l (hashpjw n % LHASH)) (bucket LHASH (hashpjw n % LHASH) (t.locals p))) ∧
      (t.find n = none →
        k2 = endLink (.g (hashpjw n % GHASH)) (bucket GHASH (hashpjw n % GHASH) t.globals)) ∧
      (∀ s, t.findLocal n = none → t.find n = some s → ∃ pre post,
        bucket GHASH (hashpjw n % GHASH) t.globals = pre ++ s.id :: post ∧
        k2 = endLink (.g (hashpjw n % GHASH)) pre) := by
  -- the global scan
  have hg : ∀ k, walk { c with lsym := k } n (.g (hashpjw n % GHASH)) =
      walk c n (.g (hashpjw n % GHASH)) := by
    intro k
    rw [walk_chain _ n (.g (hashpjw n % GHASH)) _ (R.gch _),
      walk_chain { c with lsym := k } n (.g (hashpjw n % GHASH)) _ (R.gch _)]
  have hwg := walk_chain c n (.g (hashpjw n % GHASH)) _ (R.gch _)
  have hfg := find_bucket c GHASH t.globals n (fun s hs => (R.gnode s hs).1)
  rw [hfg] at hwg
  have hgA : t.globals.find? (fun s => decide (SameName t.cs n s.name)) = none →
      endLink (.g (hashpjw n % GHASH)) ((bucket GHASH (hashpjw n % GHASH) t.globals).takeWhile
        (fun x => !sameName c.cs n (c.heap x).name)) =
      endLink (.g (hashpjw n % GHASH)) (bucket GHASH (hashpjw n % GHASH) t.globals) := by
    intro h
    rw [takeWhile_of_find_none _ _ (by rw [hfg, R.cs, h]; rfl)]
  have hgB : ∀ s, t.globals.find? (fun s => decide (SameName t.cs n s.name)) = some s →
      ∃ pre post, bucket GHASH (hashpjw n % GHASH) t.globals = pre ++ s.id :: post ∧
      endLink (.g (hashpjw n % GHASH)) ((bucket GHASH (hashpjw n % GHASH) t.globals).takeWhile
        (fun x => !sameName c.cs n (c.heap x).name)) = endLink (.g (hashpjw n % GHASH)) pre := by
    intro s h
    obtain ⟨post, he⟩ := split_of_find_some _ _ s.id
      (show (bucket GHASH (hashpjw n % GHASH) t.globals).find? _ = some s.id by
        rw [hfg, R.cs, h]; rfl)
    exact ⟨_, post, he, rfl⟩
  cases hc : t.cur with
  | none =>
    have hl : t.findLocal n = none := by simp [Tab.findLocal, Tab.curLocals, hc]
    have hf : t.find n = t.globals.find? (fun s => decide (SameName t.cs n s.name)) := by
      rw [tab_find, hl]; rfl
    refine ⟨c.lsym, endLink (.g (hashpjw n % GHASH)) ((bucket GHASH (hashpjw n % GHASH) t.globals).takeWhile
        (fun x => !sameName c.cs n (c.heap x).name)), ?_, by simp, ?_, ?_⟩
    rotate_left
    · intro h; exact hgA (by rw [← hf, h])
    · intro s _ h; exact hgB s (by rw [← hf, h])
    · simp only [symFind, R.cur, hc, hwg, hf, R.cs]
      rfl
  | some p =>
    have hwl := walk_chain c n (.l (hashpjw n % LHASH)) _ (R.lch p hc _)
    have hfl := find_bucket c LHASH (t.locals p) n (fun s hs => (R.lnode p s hs).1)
    rw [hfl] at hwl
    have hl : t.findLocal n = (t.locals p).find? (fun s => decide (SameName t.cs n s.name)) := by
      simp [Tab.findLocal, Tab.curLocals, hc]
    cases hfind : t.findLocal n with
    | some s =>
      rw [hl] at hfind
      have hf : t.find n = some s := by rw [tab_find, hl, hfind]; rfl
      refine ⟨endLink (.l (hashpjw n % LHASH)) ((bucket LHASH (hashpjw n % LHASH) (t.locals p)).takeWhile
        (fun x => !sameName c.cs n (c.heap x).name)), c.gsym, ?_, by simp, by simp [hf], by simp⟩
      simp only [symFind, R.cur, hc, hwl, hf, R.cs, hfind]
      rfl
    | none =>
      have hf : t.find n = t.globals.find? (fun s => decide (SameName t.cs n s.name)) := by
        rw [tab_find, hfind]; rfl
      rw [hl] at hfind
      refine ⟨endLink (.l (hashpjw n % LHASH)) ((bucket LHASH (hashpjw n % LHASH) (t.locals p)).takeWhile
        (fun x => !sameName c.cs n (c.heap x).name)),
        endLink (.g (hashpjw n % GHASH)) ((bucket GHASH (hashpjw n % GHASH) t.globals).takeWhile
        (fun x => !sameName c.cs n (c.heap x).name)), ?_, ?_, ?_, ?_⟩
      rotate_left 3
      · intro s _ h; exact hgB s (by rw [← hf, h])
      · rw [hf]
        simp only [← R.cs] at hfind ⊢
        rw [hfind] at hwl
        unfold symFind
        split
        · rename_i hx; rw [R.cur, hc] at hx; simp at hx
        · simp only [hwl, bind, Option.bind, Option.map_none, hg, hwg]
          rfl
      · intro p' hp' _
        cases hp'
        rw [takeWhile_of_find_none _ _ (by rw [hfl, R.cs, hfind]; rfl)]
      · intro h; exact hgA (by rw [← hf, h])

theorem symFindLocal_spec {c t} (R : Rep c t) (n : Name) :
    ∃ k1, symFindLocal c n = some ({ c with lsym := k1 }, (t.findLocal n).map Sym.id) := by
  cases hc : t.cur with
  | none =>
    refine ⟨c.lsym, ?_⟩
    have h1 : symFindLocal c n = some (c, none) := by simp [symFindLocal, R.cur, hc]
    rw [h1]
    simp [Tab.findLocal, Tab.curLocals, hc]
  | some p =>
    have hwl := walk_chain c n (.l (hashpjw n % LHASH)) _ (R.lch p hc _)
    have hfl := find_bucket c LHASH (t.locals p) n (fun s hs => (R.lnode p s hs).1)
    rw [hfl] at hwl
    refine ⟨endLink (.l (hashpjw n % LHASH)) ((bucket LHASH (hashpjw n % LHASH) (t.locals p)).takeWhile
        (fun x => !sameName c.cs n (c.heap x).name)), ?_⟩
    simp only [symFindLocal, R.cur, hc, hwl, Tab.findLocal, Tab.curLocals, R.cs]
    rfl

end Verif.Symbols
