import Verif.Switch.Spec
namespace Verif.Switch

/-- the items of a row, without looking at the commas -/
def items {α : Type} (r : Row α) : List α :=
  r.filterMap fun p => match p with | .comma => none | .item x => some x

def flat {α : Type} (rs : List (Row α)) : List α := rs.flatMap items

@[simp] theorem items_nil {α : Type} : items ([] : Row α) = [] := rfl
@[simp] theorem items_append {α : Type} (a b : Row α) : items (a ++ b) = items a ++ items b := by simp [items]
@[simp] theorem items_comma {α : Type} (r : Row α) : items (.comma :: r) = items r := by simp [items]
@[simp] theorem items_item {α : Type} (x : α) (r : Row α) : items (.item x :: r) = x :: items r := by simp [items]
@[simp] theorem flat_append {α : Type} (a b : List (Row α)) : flat (a ++ b) = flat a ++ flat b := by simp [flat]
@[simp] theorem flat_nil {α : Type} : flat ([] : List (Row α)) = [] := rfl
@[simp] theorem flat_cons {α : Type} (r : Row α) (b : List (Row α)) : flat (r :: b) = items r ++ flat b := by simp [flat]

@[simp] theorem items_blank {α : Type} (r : Row α) : items (blank r) = items r := by
  unfold blank; split <;> simp

theorem parseRow_items {α : Type} (r : Row α) (xs : List α) (h : parseRow r = some xs) : xs = items r := by
  fun_induction parseRow r generalizing xs with
  | case1 x => simp at h; simp [h]
  | case2 x r ih =>
    simp only [Option.map_eq_some_iff] at h
    obtain ⟨ys, h1, h2⟩ := h
    rw [← h2, ih ys h1]; simp
  | case3 => simp at h

theorem parseRows_items {α : Type} (rs : List (Row α)) (xs : List α) (h : parseRows rs = some xs) : xs = flat rs := by
  induction rs generalizing xs with
  | nil => simp [parseRows] at h; simp [h]
  | cons r rs ih =>
    simp only [parseRows] at h
    split at h
    · rename_i a b h1 h2
      simp only [Option.some.injEq] at h
      rw [← h, parseRow_items r a h1, ih b h2]; simp
    · simp at h

/-! ### the table of labels (cflag 4, 7) -/

def dedup : Nat → List Nat → List Nat
  | _, [] => []
  | p, l :: ls => if l ≠ p then l :: dedup l ls else dedup l ls

def T1.all (t : T1) : List Lbl := flat t.rows ++ items t.cur

theorem t1Step_spec (t : T1) (l : Nat) (h : t.dcnt ≤ 75) :
    (t1Step t l).all = t.all ++ (dedup t.lbl [l]).map .case ∧ (t1Step t l).lbl = l ∧
    (t1Step t l).acnt = t.acnt + (dedup t.lbl [l]).length ∧
    1 ≤ (t1Step t l).dcnt ∧ (t1Step t l).dcnt ≤ 75 ∧ (t1Step t l).dcnt % 75 = (t.dcnt + 1) % 75 := by
  obtain ⟨rows, cur, dcnt, lbl, acnt⟩ := t
  simp only at h
  unfold t1Step T1.all
  simp only [dedup]
  by_cases h1 : dcnt ≥ 75
  · rw [if_pos h1]
    by_cases h2 : l = lbl
    · simp [h2]; omega
    · simp [h2]; omega
  · rw [if_neg h1]
    by_cases h2 : l = lbl
    · simp [h2]; omega
    · simp only [ne_eq, h2, not_false_eq_true, ↓reduceIte]
      refine ⟨?_, trivial, by simp, by omega, by omega, trivial⟩
      split <;> simp

theorem dedup_cons (p l : Nat) (ls : List Nat) : dedup p (l :: ls) = dedup p [l] ++ dedup l ls := by
  simp only [dedup]; split <;> simp

theorem t1_fold (ls : List Nat) (t : T1) (h : t.dcnt ≤ 75) :
    (ls.foldl t1Step t).all = t.all ++ (dedup t.lbl ls).map .case ∧
    (ls.foldl t1Step t).acnt = t.acnt + (dedup t.lbl ls).length ∧
    (ls.foldl t1Step t).dcnt ≤ 75 ∧ (ls.foldl t1Step t).dcnt % 75 = (t.dcnt + ls.length) % 75 := by
  induction ls generalizing t with
  | nil => simp [dedup, h]
  | cons l ls ih =>
    obtain ⟨a, b, c, d, e, f⟩ := t1Step_spec t l h
    obtain ⟨a', c', e', f'⟩ := ih (t1Step t l) e
    simp only [List.foldl_cons]
    rw [a', c', a, b, c, dedup_cons t.lbl l ls]
    refine ⟨by simp, by simp; omega, e', ?_⟩
    simp only [List.length_cons]; omega

theorem table1_spec (dl : Lbl) (s : List (Int × Nat)) (xs : List Lbl) (h : parseRows (table1 dl s).1 = some xs)
    (hn : s.length % 75 ≠ 0) :
    xs = (dedup 0 (s.map (·.2))).map .case ++ [dl] ∧ (table1 dl s).2 = (dedup 0 (s.map (·.2))).length := by
  obtain ⟨a, b, c, d⟩ := t1_fold (s.map (·.2)) {} (by simp)
  simp only [List.length_map, T1.all, flat_nil, items_nil, List.nil_append, Nat.zero_add] at a b c d
  refine ⟨?_, by simpa [table1] using b⟩
  rw [parseRows_items _ _ h]
  simp only [table1]
  rw [if_pos (by omega)]
  simp only [flat_append, flat_cons, items_append, items_comma, items_item, items_nil, flat_nil, List.append_nil]
  rw [← List.append_assoc, a]

/-! ### lists with holes -/

def lay {α : Type} (d : α) : Int → List (Int × α) → List α
  | _, [] => []
  | n, (t, a) :: r => List.replicate (t - n).toNat d ++ a :: lay d (t + 1) r

def Asc {α : Type} (n : Int) (s : List (Int × α)) : Prop :=
  (∀ c ∈ s, n ≤ c.1) ∧ s.Pairwise (fun a b => a.1 < b.1)

theorem Asc.tail {α : Type} {n : Int} {c : Int × α} {s : List (Int × α)} (h : Asc n (c :: s)) : Asc (c.1 + 1) s := by
  obtain ⟨_, h2⟩ := h
  rw [List.pairwise_cons] at h2
  exact ⟨fun d hd => by have := h2.1 d hd; omega, h2.2⟩

theorem Asc.head {α : Type} {n : Int} {c : Int × α} {s : List (Int × α)} (h : Asc n (c :: s)) : n ≤ c.1 :=
  h.1 c (by simp)

theorem lay_hit {α : Type} (d : α) (s : List (Int × α)) (n : Int) (h : Asc n s) (t : Int) (a : α)
    (hm : (t, a) ∈ s) : (lay d n s)[(t - n).toNat]? = some a := by
  induction s generalizing n with
  | nil => simp at hm
  | cons c s ih =>
    obtain ⟨t0, a0⟩ := c
    have h0 : n ≤ t0 := h.head
    simp only [List.mem_cons] at hm
    rcases hm with hm | hm
    · obtain ⟨rfl, rfl⟩ := Prod.mk.inj hm
      simp [lay]
    · have h1 := ih (t0 + 1) h.tail hm
      have h2 : t0 + 1 ≤ t := h.tail.1 _ hm
      simp only [lay]
      rw [List.getElem?_append_right (by simp; omega), List.length_replicate]
      have e : (t - n).toNat - (t0 - n).toNat = (t - (t0 + 1)).toNat + 1 := by omega
      rw [e, List.getElem?_cons_succ, h1]

theorem lay_miss {α : Type} (d : α) (s : List (Int × α)) (n : Int) (h : Asc n s) (i : Int) (hn : n ≤ i)
    (hm : ∀ a, (i, a) ∉ s) (hx : ∃ c ∈ s, i ≤ c.1) : (lay d n s)[(i - n).toNat]? = some d := by
  induction s generalizing n with
  | nil => simp at hx
  | cons c s ih =>
    obtain ⟨t0, a0⟩ := c
    have h0 : n ≤ t0 := h.head
    have hne : i ≠ t0 := fun e => hm a0 (by simp [e])
    simp only [lay]
    by_cases hlt : i < t0
    · rw [List.getElem?_append_left (by simp; omega), List.getElem?_replicate, if_pos (by omega)]
    · rw [List.getElem?_append_right (by simp; omega), List.length_replicate]
      have e : (i - n).toNat - (t0 - n).toNat = (i - (t0 + 1)).toNat + 1 := by omega
      rw [e, List.getElem?_cons_succ]
      refine ih (t0 + 1) h.tail (by omega) (fun a hc => hm a (by simp [hc])) ?_
      obtain ⟨c, hc, hc'⟩ := hx
      simp only [List.mem_cons] at hc
      rcases hc with rfl | hc
      · simp only at hc'; omega
      · exact ⟨c, hc, hc'⟩

/-! ### the table of numbers -/

def runs : Nat → List (Int × Nat) → List (Int × Int)
  | _, [] => []
  | b, (t, l) :: r => (t, (b : Int)) :: runs (if l ≠ headLab r then b + 1 else b) r

theorem runs_fst (b : Nat) (s : List (Int × Nat)) : (runs b s).map (·.1) = s.map (·.1) := by
  induction s generalizing b with
  | nil => rfl
  | cons c s ih => obtain ⟨t, l⟩ := c; simp [runs, ih]

theorem runs_spec (s : List (Int × Nat)) (b : Nat) (t0 : Int) (l0 : Nat) (t : Int) (l : Nat)
    (hm : (t, l) ∈ (t0, l0) :: s) :
    ∃ j : Nat, (t, ((b + j : Nat) : Int)) ∈ runs b ((t0, l0) :: s) ∧ (l0 :: dedup l0 (s.map (·.2)))[j]? = some l := by
  induction s generalizing b t0 l0 with
  | nil =>
    simp only [List.mem_cons, List.not_mem_nil, or_false] at hm
    obtain ⟨rfl, rfl⟩ := Prod.mk.inj hm
    exact ⟨0, by simp [runs], by simp⟩
  | cons c s ih =>
    obtain ⟨t1, l1⟩ := c
    simp only [List.mem_cons] at hm
    rcases hm with hm | hm
    · obtain ⟨rfl, rfl⟩ := Prod.mk.inj hm
      exact ⟨0, by simp [runs], by simp⟩
    · have hm' : (t, l) ∈ (t1, l1) :: s := by simpa using hm
      unfold runs
      simp only [List.map_cons, dedup, headLab]
      by_cases hl : l0 = l1
      · subst hl
        simp only [ne_eq, not_true_eq_false, ↓reduceIte]
        obtain ⟨j, h1, h2⟩ := ih b t1 l0 hm'
        exact ⟨j, by simp only [List.mem_cons]; right; exact h1, h2⟩
      · have hl' : l1 ≠ l0 := fun e => hl e.symm
        simp only [ne_eq, hl, hl', not_false_eq_true, ↓reduceIte]
        obtain ⟨j, h1, h2⟩ := ih (b + 1) t1 l1 hm'
        refine ⟨j + 1, ?_, by simpa using h2⟩
        simp only [List.mem_cons]; right
        have e : b + (j + 1) = b + 1 + j := by omega
        rw [e]; exact h1

def T2.all (t : T2) : List Int := flat t.rows ++ items t.cur

theorem t2Flush_spec (t : T2) : (t2Flush t).all = t.all ∧ (t2Flush t).n = t.n ∧ (t2Flush t).bcnt = t.bcnt := by
  unfold t2Flush T2.all
  split <;> simp

theorem t2Fill_spec (acnt : Nat) (t : T2) :
    (t2Fill acnt t).all = t.all ++ [(acnt : Int)] ∧ (t2Fill acnt t).n = t.n + 1 ∧ (t2Fill acnt t).bcnt = t.bcnt := by
  unfold t2Fill
  obtain ⟨a, b, c⟩ := t2Flush_spec { t with
    cur := t.cur ++ (if t.dcnt ≠ 0 then [.comma] else []) ++ [.item (acnt : Int)], n := t.n + 1, dcnt := t.dcnt + 1 }
  refine ⟨?_, b, c⟩
  rw [a]; unfold T2.all; split <;> simp

theorem t2Iter_spec (acnt k : Nat) (t : T2) :
    (iter (t2Fill acnt) k t).all = t.all ++ List.replicate k (acnt : Int) ∧ (iter (t2Fill acnt) k t).n = t.n + k ∧
    (iter (t2Fill acnt) k t).bcnt = t.bcnt := by
  induction k generalizing t with
  | zero => simp [iter]
  | succ k ih =>
    obtain ⟨a, b, c⟩ := t2Fill_spec acnt t
    obtain ⟨a', b', c'⟩ := ih (t2Fill acnt t)
    simp only [iter]
    rw [a', b', c', a, b, c]
    refine ⟨by simp [List.replicate_succ], by omega, rfl⟩

theorem t2Case_spec (temp : Int) (acnt l next : Nat) (t : T2) (h : t.n ≤ temp) :
    (t2Case temp acnt l next t).all = t.all ++ List.replicate (temp - t.n).toNat (acnt : Int) ++ [(t.bcnt : Int)] ∧
    (t2Case temp acnt l next t).n = temp + 1 ∧
    (t2Case temp acnt l next t).bcnt = (if l ≠ next then t.bcnt + 1 else t.bcnt) := by
  obtain ⟨a, b, c⟩ := t2Flush_spec t
  obtain ⟨a', b', c'⟩ := t2Iter_spec acnt (temp - (t2Flush t).n).toNat (t2Flush t)
  unfold t2Case
  simp only
  refine ⟨?_, by rw [b', b]; omega, by rw [c', c]⟩
  rw [a, b] at a'
  rw [b] at c'
  rw [b, c', c]
  unfold T2.all at a' ⊢
  simp only
  rw [items_append, items_append, ← List.append_assoc, ← List.append_assoc, a']
  split <;> simp

theorem t2Loop_spec (m : Mode) (me : Method) (minc : Int) (acnt : Nat) (s : List (Int × Nat)) (t : T2)
    (h : Asc t.n (s.map fun c => (tempOf m me minc c.1, c.2))) :
    (t2Loop m me minc acnt s t).all =
      t.all ++ lay (acnt : Int) t.n (runs t.bcnt (s.map fun c => (tempOf m me minc c.1, c.2))) := by
  induction s generalizing t with
  | nil => simp [t2Loop, runs, lay]
  | cons c cs ih =>
    obtain ⟨a, b, e⟩ := t2Case_spec (tempOf m me minc c.1) acnt c.2 (headLab cs) t h.head
    unfold t2Loop
    rw [ih _ (by rw [b]; exact h.tail), a, b, e]
    simp only [List.map_cons, runs, lay]
    have hh : headLab (List.map (fun c => (tempOf m me minc c.1, c.2)) cs) = headLab cs := by cases cs <;> rfl
    rw [hh]; simp

/-! ### the jump table -/

def T6.all (t : T6) : List Lbl := flat t.rows ++ items t.cur

theorem t6Flush_all (t : T6) : (t6Flush t).all = t.all := by simp [t6Flush, T6.all]
theorem t6Add_all (l : Lbl) (t : T6) : (t6Add l t).all = t.all ++ [l] := by simp [t6Add, T6.all]

theorem t6Fill_spec (m : Mode) (dl : Lbl) (t : T6) (h : t.dcnt ≤ 74) :
    (t6Fill m dl t).all = t.all ++ [dl] ∧ (t6Fill m dl t).n = t.n + 1 ∧ (t6Fill m dl t).dcnt ≤ t.dcnt + 2 := by
  unfold t6Fill
  cases m <;> simp only [Mode.is64, Bool.false_eq_true, ↓reduceIte]
  · rw [if_pos (by omega)]; exact ⟨by simp [T6.all, t6Add], rfl, by simp [t6Add]⟩
  · rw [if_pos (by omega)]; exact ⟨by simp [T6.all, t6Add], rfl, by simp [t6Add]⟩
  · rw [if_pos (by omega)]; exact ⟨by simp [T6.all, t6Add], rfl, by simp [t6Add]⟩

theorem t6Iter_spec (m : Mode) (dl : Lbl) (k : Nat) (t : T6) (h : t.dcnt + 2 * k ≤ 74) :
    (iter (t6Fill m dl) k t).all = t.all ++ List.replicate k dl ∧ (iter (t6Fill m dl) k t).n = t.n + k ∧
    (iter (t6Fill m dl) k t).dcnt ≤ t.dcnt + 2 * k := by
  induction k generalizing t with
  | zero => simp [iter]
  | succ k ih =>
    obtain ⟨a, b, c⟩ := t6Fill_spec m dl t (by omega)
    obtain ⟨a', b', c'⟩ := ih (t6Fill m dl t) (by omega)
    simp only [iter]
    rw [a', b', a, b]
    refine ⟨by simp [List.replicate_succ], by omega, by omega⟩

theorem t6Room_of (m : Mode) (t : T6) (h : t.dcnt ≤ 74) : t6Room m t = true := by
  unfold t6Room; split <;> simp <;> omega

/-- the label of a case is written when the hole in front of it is small enough for the row -/
theorem t6Case_spec (m : Mode) (dl : Lbl) (temp : Int) (l : Nat) (t : T6) (hn : t.n ≤ temp)
    (h : t.dcnt ≤ 75 ∧ (temp = t.n ∨ t.dcnt + 2 * (temp - t.n).toNat ≤ 74)) :
    (t6Case m dl temp l t).all = t.all ++ List.replicate (temp - t.n).toNat dl ++ [.case l] ∧
    (t6Case m dl temp l t).n = temp + 1 ∧
    (t6Case m dl temp l t).dcnt ≤ 75 ∧ (t6Case m dl temp l t).dcnt ≤ t.dcnt + 2 * (temp - t.n).toNat + 1 := by
  obtain ⟨h0, h⟩ := h
  unfold t6Case
  simp only
  have e1 : (if t.dcnt ≥ 75 then t6Flush t else t).all = t.all := by split <;> simp [t6Flush_all]
  have e2 : (if t.dcnt ≥ 75 then t6Flush t else t).n = t.n := by split <;> rfl
  have e3 : (if t.dcnt ≥ 75 then t6Flush t else t).dcnt ≤ 74 ∧ (if t.dcnt ≥ 75 then t6Flush t else t).dcnt ≤ t.dcnt := by
    split
    · simp [t6Flush]
    · omega
  generalize ht : (if t.dcnt ≥ 75 then t6Flush t else t) = t' at e1 e2 e3
  obtain ⟨a, b, c⟩ := t6Iter_spec m dl (temp - t'.n).toNat t' (by rw [e2]; rcases h with h | h <;> omega)
  rw [e2] at a b c
  rw [e2]
  have hr : t6Room m (iter (t6Fill m dl) (temp - t.n).toNat t') = true :=
    t6Room_of _ _ (by rcases h with h | h <;> omega)
  rw [hr]
  simp only [↓reduceIte, t6Add]
  refine ⟨?_, by rw [b]; omega, by rcases h with h | h <;> omega, by omega⟩
  have := t6Add_all (.case l) (iter (t6Fill m dl) (temp - t.n).toNat t')
  simp only [T6.all, t6Add] at this a e1 ⊢
  rw [this, a, e1]

def span (n : Int) : List (Int × Nat) → Int
  | [] => 0
  | c :: r => (c.1 - n) + span (c.1 + 1) r

theorem span_nonneg (n : Int) (s : List (Int × Nat)) (h : Asc n s) : 0 ≤ span n s := by
  induction s generalizing n with
  | nil => simp [span]
  | cons c s ih =>
    have := ih (c.1 + 1) h.tail
    have := h.head
    simp only [span]; omega

/-- no holes, or all of the table fits into the row -/
theorem t6Loop_spec (m : Mode) (dl : Lbl) (minc : Int) (s : List (Int × Nat)) (t : T6)
    (h : Asc t.n (s.map fun c => (tempOf m .jump minc c.1, c.2))) (hd : t.dcnt ≤ 75)
    (hs : span t.n (s.map fun c => (tempOf m .jump minc c.1, c.2)) = 0 ∨
      t.dcnt + s.length + 2 * span t.n (s.map fun c => (tempOf m .jump minc c.1, c.2)) ≤ 75) :
    (t6Loop m dl minc s t).all =
      t.all ++ lay dl t.n (s.map fun c => (tempOf m .jump minc c.1, .case c.2)) := by
  induction s generalizing t with
  | nil => simp [t6Loop, lay]
  | cons c cs ih =>
    have h0 := h.head
    have h1 := span_nonneg _ _ h.tail
    simp only [List.map_cons, span, List.length_cons] at hs h0 h1
    obtain ⟨a, b, e, f⟩ := t6Case_spec m dl (tempOf m .jump minc c.1) c.2 t h0
      ⟨hd, by rcases hs with hs | hs <;> omega⟩
    unfold t6Loop
    rw [ih _ (by rw [b]; exact h.tail) e (by rw [b]; rcases hs with hs | hs <;> omega), a, b]
    simp [lay]

theorem table6_spec (m : Mode) (dl : Lbl) (s : List (Int × Nat)) (xs : List Lbl) (h : parseRows (table6 m dl s) = some xs)
    (ha : Asc 0 (s.map fun c => (tempOf m .jump (minOf s) c.1, c.2)))
    (hs : span 0 (s.map fun c => (tempOf m .jump (minOf s) c.1, c.2)) = 0 ∨
      s.length + 2 * span 0 (s.map fun c => (tempOf m .jump (minOf s) c.1, c.2)) ≤ 75) :
    xs = lay dl 0 (s.map fun c => (tempOf m .jump (minOf s) c.1, .case c.2)) ++ [dl] := by
  have e := t6Loop_spec m dl (minOf s) s {} ha (by simp) (by simpa using hs)
  rw [parseRows_items _ _ h]
  unfold table6
  simp only
  generalize t6Loop m dl (minOf s) s {} = t at e
  have e2 : (if t6Room m t then t6Add dl t else t6Flush (t6Add dl t)).all = t.all ++ [dl] := by
    split
    · exact t6Add_all _ _
    · rw [t6Flush_all, t6Add_all]
  generalize (if t6Room m t then t6Add dl t else t6Flush (t6Add dl t)) = t' at e2
  have e3 : flat (t'.rows ++ (if m.is64 ∨ t'.cur ≠ [] then [blank t'.cur] else [])) = t'.all := by
    unfold T6.all
    split
    · simp
    · rename_i hh
      have : t'.cur = [] := by
        by_cases hc : t'.cur = []
        · exact hc
        · exact absurd (Or.inr hc) hh
      simp [this]
  rw [e3, e2, e]; simp [T6.all]

/-! ### the tables of the tree -/

theorem chunk_flat {α : Type} (k : Nat) (l : List α) (cur : Row α) (d : Nat) :
    flat (chunk k cur d l) = items cur ++ l := by
  induction l generalizing cur d with
  | nil => simp [chunk]
  | cons x xs ih =>
    unfold chunk
    split
    · simp [ih]
    · rw [ih]; split <;> simp

theorem tableL_spec (s : List (Int × Nat)) (xs : List Lbl) (h : parseRows (tableL s) = some xs) :
    xs = s.map fun c => .case c.2 := by
  rw [parseRows_items _ _ h, tableL, chunk_flat]; simp

theorem tableV_spec (s : List (Int × Nat)) (xs : List Int) (h : parseRows (tableV s) = some xs) :
    xs = s.map fun c => wrap32 c.1 := by
  rw [parseRows_items _ _ h, tableV, chunk_flat]; simp

end Verif.Switch
