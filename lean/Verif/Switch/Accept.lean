import Verif.Switch.Props
/-
  The lines of the tables have no syntax errors: a block that fulfils the conditions is accepted.
-/
namespace Verif.Switch

variable {σ : Type}

def OkRow {α : Type} (r : Row α) : Prop := ∃ xs, parseRow r = some xs

theorem ok_one {α : Type} (x : α) : OkRow [.item x] := ⟨[x], rfl⟩

theorem ok_add {α : Type} (r : Row α) (x : α) (h : OkRow r) : OkRow (r ++ [.comma, .item x]) := by
  obtain ⟨xs, h⟩ := h
  fun_induction parseRow r generalizing xs with
  | case1 y => exact ⟨[y, x], rfl⟩
  | case2 y r ih =>
    simp only [Option.map_eq_some_iff] at h
    obtain ⟨ys, h1, h2⟩ := h
    obtain ⟨zs, hz⟩ := ih ys h1
    exact ⟨y :: zs, by simp only [List.cons_append, parseRow, hz, Option.map_some]⟩
  | case3 => simp at h

theorem ok_rows {α : Type} (rs : List (Row α)) (h : ∀ r ∈ rs, OkRow r) : ∃ xs, parseRows rs = some xs := by
  induction rs with
  | nil => exact ⟨[], rfl⟩
  | cons r rs ih =>
    obtain ⟨a, ha⟩ := h r (by simp)
    obtain ⟨b, hb⟩ := ih (fun q hq => h q (by simp [hq]))
    exact ⟨a ++ b, by simp [parseRows, ha, hb]⟩

theorem blank_app {α : Type} (a b : Row α) (h : a ≠ []) : blank (a ++ b) = blank a ++ b := by
  cases a with
  | nil => exact absurd rfl h
  | cons x xs => cases x <;> rfl

/-- a row that is being built -/
def Cur {α : Type} (r : Row α) : Prop := r = [] ∨ OkRow (blank r)

theorem cur_add {α : Type} (r : Row α) (x : α) (h : Cur r) : OkRow (blank (r ++ [.comma, .item x])) := by
  by_cases hr : r = []
  · subst hr; exact ok_one x
  · rcases h with h | h
    · exact absurd h hr
    · rw [blank_app _ _ hr]; exact ok_add _ _ h

/-! ### the numbers (cflag 4, 7) -/

structure T2ok (t : T2) : Prop where
  rows : ∀ r ∈ t.rows, OkRow r
  cur : Cur t.cur
  z : t.dcnt = 0 ↔ t.cur = []
  n0 : t.n = 0 → t.cur = []
  pos : 0 ≤ t.n

theorem t2Flush_ok (t : T2) (h : T2ok t) : T2ok (t2Flush t) := by
  unfold t2Flush
  split
  · rename_i hd
    have hc : t.cur ≠ [] := fun e => by have := h.z.mpr e; omega
    refine ⟨?_, .inl rfl, by simp, fun _ => rfl, h.pos⟩
    intro r hr
    simp only [List.mem_append, List.mem_cons, List.not_mem_nil, or_false] at hr
    rcases hr with hr | rfl
    · exact h.rows r hr
    · exact h.cur.resolve_left hc
  · exact h

theorem t2Fill_ok (acnt : Nat) (t : T2) (h : T2ok t) : T2ok (t2Fill acnt t) := by
  unfold t2Fill
  apply t2Flush_ok
  have hpos := h.pos
  refine ⟨h.rows, ?_, by simp, fun e => by simp only at e; omega, by simp only; omega⟩
  by_cases hd : t.dcnt = 0
  · have := h.z.mp hd
    rw [this]; simp only [hd, ne_eq, not_true, ↓reduceIte, List.append_nil, List.nil_append]
    exact .inr (ok_one _)
  · simp only [ne_eq, hd, not_false_eq_true, ↓reduceIte, List.append_assoc, List.cons_append, List.nil_append]
    exact .inr (cur_add _ _ h.cur)

theorem t2Iter_ok (acnt k : Nat) (t : T2) (h : T2ok t) : T2ok (iter (t2Fill acnt) k t) := by
  induction k generalizing t with
  | zero => exact h
  | succ k ih => exact ih _ (t2Fill_ok acnt t h)

theorem t2Case_ok (temp : Int) (acnt l next : Nat) (t : T2) (h : T2ok t) :
    T2ok (t2Case temp acnt l next t) ∧ 0 < (t2Case temp acnt l next t).n ∧
    (0 < t.n → ∃ p x, (t2Case temp acnt l next t).cur = p ++ [.comma, .item x]) := by
  unfold t2Case
  simp only
  have h0 := t2Flush_ok t h
  have hn0 : (t2Flush t).n = t.n := (t2Flush_spec t).2.1
  have h1 := t2Iter_ok acnt (temp - (t2Flush t).n).toNat _ h0
  have hn1 : t.n ≤ (iter (t2Fill acnt) (temp - (t2Flush t).n).toNat (t2Flush t)).n := by
    have := (t2Iter_spec acnt (temp - (t2Flush t).n).toNat (t2Flush t)).2.1
    rw [this, hn0]; omega
  generalize iter (t2Fill acnt) (temp - (t2Flush t).n).toNat (t2Flush t) = u at h1 hn1
  have hpos := h1.pos
  refine ⟨⟨h1.rows, ?_, by simp, fun e => by simp only at e; omega, by show 0 ≤ u.n + 1; omega⟩, by omega, ?_⟩
  · by_cases hn : u.n = 0
    · simp only [hn, ne_eq, not_true, ↓reduceIte, List.append_nil, h1.n0 hn, List.nil_append]
      exact .inr (ok_one _)
    · simp only [ne_eq, hn, not_false_eq_true, ↓reduceIte, List.append_assoc, List.cons_append, List.nil_append]
      exact .inr (cur_add _ _ h1.cur)
  · intro hp
    have hn : u.n ≠ 0 := by omega
    exact ⟨u.cur, (u.bcnt : Int), by simp [hn]⟩

theorem t2Loop_ok (m : Mode) (me : Method) (minc : Int) (acnt : Nat) (s : List (Int × Nat)) (t : T2) (h : T2ok t) :
    T2ok (t2Loop m me minc acnt s t) ∧ (s ≠ [] → (t2Loop m me minc acnt s t).cur ≠ []) ∧
    ((2 ≤ s.length ∨ (s ≠ [] ∧ 0 < t.n)) → ∃ p x, (t2Loop m me minc acnt s t).cur = p ++ [.comma, .item x]) := by
  induction s generalizing t with
  | nil => exact ⟨h, by simp, by simp⟩
  | cons c cs ih =>
    obtain ⟨a, b, d⟩ := t2Case_ok (tempOf m me minc c.1) acnt c.2 (headLab cs) t h
    obtain ⟨i1, i2, i3⟩ := ih _ a
    unfold t2Loop
    refine ⟨i1, ?_, ?_⟩
    · intro _
      by_cases hc : cs = []
      · subst hc
        intro e
        simp only [t2Loop] at e
        simp [t2Case] at e
      · exact i2 hc
    · intro hs
      by_cases hc : cs = []
      · subst hc
        simp only [List.length_cons, List.length_nil] at hs
        simp only [t2Loop]
        exact d (by rcases hs with h | h
                    · omega
                    · exact h.2)
      · exact i3 (.inr ⟨hc, b⟩)

theorem table2_ok (m : Mode) (me : Method) (acnt : Nat) (s : List (Int × Nat)) (hs : 2 ≤ s.length) :
    ∃ b, parseRows (table2 m me acnt s) = some b := by
  apply ok_rows
  obtain ⟨a, b, c⟩ := t2Loop_ok m me (minOf s) acnt s {} ⟨by simp, .inl rfl, by simp, fun _ => rfl, by simp⟩
  have hne : s ≠ [] := by intro e; simp [e] at hs
  have hcur := a.cur.resolve_left (b hne)
  obtain ⟨p, x, e⟩ := c (.inl hs)
  intro r hr
  simp only [table2, List.mem_append, List.mem_cons, List.not_mem_nil, or_false] at hr
  rcases hr with hr | rfl
  · exact a.rows r hr
  · split
    · rw [if_neg (by omega)]
      rw [show (t2Loop m me (minOf s) acnt s {}).cur.drop ((t2Loop m me (minOf s) acnt s {}).cur.length - 2) = [.comma, .item x] from by
        rw [e]; simp]
      exact ok_add _ _ hcur
    · exact hcur

/-! ### the labels (cflag 4, 7) -/

theorem t1_fold_ok (ls : List Nat) (t : T1) (hr : t.rows = []) (hd : t.dcnt + ls.length < 75)
    (hc : (t.dcnt = 0 ∧ t.cur = [] ∧ t.lbl = 0 ∧ ∀ l ∈ ls, l ≠ 0) ∨ (t.dcnt ≠ 0 ∧ OkRow t.cur)) :
    (ls.foldl t1Step t).rows = [] ∧ (ls.foldl t1Step t).dcnt = t.dcnt + ls.length ∧
    ((ls ≠ [] ∨ t.dcnt ≠ 0) → OkRow (ls.foldl t1Step t).cur) := by
  induction ls generalizing t with
  | nil =>
    refine ⟨hr, rfl, fun h => ?_⟩
    rcases hc with h' | h'
    · rcases h with h | h
      · exact absurd rfl h
      · exact absurd h'.1 h
    · exact h'.2
  | cons l ls ih =>
    simp only [List.length_cons] at hd
    simp only [List.foldl_cons]
    have hlt : ¬ t.dcnt ≥ 75 := by omega
    have hstep : (t1Step t l).rows = [] ∧ (t1Step t l).dcnt = t.dcnt + 1 ∧ OkRow (t1Step t l).cur := by
      unfold t1Step
      simp only [if_neg hlt]
      rcases hc with ⟨h1, h2, h3, h4⟩ | ⟨h1, h2⟩
      · have hl : l ≠ t.lbl := by rw [h3]; exact h4 l (by simp)
        rw [if_pos hl]
        refine ⟨hr, rfl, ?_⟩
        simp only [h1, h2, ne_eq, not_true, ↓reduceIte, List.append_nil, List.nil_append]
        exact ok_one _
      · by_cases hl : l ≠ t.lbl
        · rw [if_pos hl]
          refine ⟨hr, rfl, ?_⟩
          simp only [ne_eq, h1, not_false_eq_true, ↓reduceIte, List.append_assoc, List.cons_append, List.nil_append]
          exact ok_add _ _ h2
        · rw [if_neg hl]
          exact ⟨hr, rfl, h2⟩
    obtain ⟨a, b, c⟩ := ih (t1Step t l) hstep.1 (by rw [hstep.2.1]; omega) (.inr ⟨by rw [hstep.2.1]; omega, hstep.2.2⟩)
    exact ⟨a, by rw [b, hstep.2.1]; simp only [List.length_cons]; omega, fun _ => c (.inr (by rw [hstep.2.1]; omega))⟩

theorem table1_ok (dl : Lbl) (s : List (Int × Nat)) (hs : s ≠ []) (hn : s.length < 75) (hl : ∀ c ∈ s, c.2 ≠ 0) :
    ∃ a, parseRows (table1 dl s).1 = some a := by
  obtain ⟨a, b, c⟩ := t1_fold_ok (s.map (·.2)) {} rfl (by simpa using hn)
    (.inl ⟨rfl, rfl, rfl, by intro l h; simp only [List.mem_map] at h; obtain ⟨c, hc, rfl⟩ := h; exact hl c hc⟩)
  have hlen : 0 < s.length := List.length_pos_iff.mpr hs
  apply ok_rows
  simp only [table1, a, List.nil_append]
  intro r hr
  simp only [List.mem_cons, List.not_mem_nil, or_false] at hr
  subst hr
  simp only [List.length_map, Nat.zero_add] at b
  rw [b, if_pos (by omega)]
  exact ok_add _ _ (c (.inl (by simpa using hs)))

/-! ### the jump table (cflag 6) -/

structure T6ok (t : T6) : Prop where
  rows : ∀ r ∈ t.rows, OkRow r
  cur : Cur t.cur
  z : t.dcnt ≠ 0 → t.cur ≠ []

theorem t6Add_ok (l : Lbl) (t : T6) (h : T6ok t) : T6ok (t6Add l t) :=
  ⟨h.rows, .inr (cur_add _ _ h.cur), fun _ => by simp [t6Add]⟩

theorem t6Flush_ok (t : T6) (h : T6ok t) (hc : t.cur ≠ []) : T6ok (t6Flush t) := by
  refine ⟨?_, .inl rfl, by simp [t6Flush]⟩
  intro r hr
  simp only [t6Flush, List.mem_append, List.mem_cons, List.not_mem_nil, or_false] at hr
  rcases hr with hr | rfl
  · exact h.rows r hr
  · exact h.cur.resolve_left hc

theorem t6Fill_ok (m : Mode) (dl : Lbl) (t : T6) (h : T6ok t) (hd : t.dcnt ≤ 74) : T6ok (t6Fill m dl t) := by
  unfold t6Fill
  have ha := t6Add_ok dl t h
  have hne : (t6Add dl t).cur ≠ [] := by simp [t6Add]
  cases m <;> simp only [Mode.is64, Bool.false_eq_true, ↓reduceIte]
  all_goals
    rw [if_pos (by omega)]
    exact ⟨ha.rows, ha.cur, fun _ => hne⟩

theorem t6Iter_ok (m : Mode) (dl : Lbl) (k : Nat) (t : T6) (h : T6ok t) (hd : t.dcnt + 2 * k ≤ 75) (hd' : t.dcnt ≤ 74 ∨ k = 0) :
    T6ok (iter (t6Fill m dl) k t) := by
  induction k generalizing t with
  | zero => exact h
  | succ k ih =>
    have hle : t.dcnt ≤ 74 := by omega
    have := (t6Fill_spec m dl t hle).2.2
    exact ih _ (t6Fill_ok m dl t h hle) (by omega) (by omega)

theorem t6Case_ok (m : Mode) (dl : Lbl) (temp : Int) (l : Nat) (t : T6) (ht : T6ok t) (hn : t.n ≤ temp)
    (h : t.dcnt ≤ 75 ∧ (temp = t.n ∨ t.dcnt + 2 * (temp - t.n).toNat ≤ 74)) : T6ok (t6Case m dl temp l t) := by
  obtain ⟨h0, h⟩ := h
  unfold t6Case
  simp only
  have e2 : (if t.dcnt ≥ 75 then t6Flush t else t).n = t.n := by split <;> rfl
  have e3 : (if t.dcnt ≥ 75 then t6Flush t else t).dcnt ≤ 74 ∧ (if t.dcnt ≥ 75 then t6Flush t else t).dcnt ≤ t.dcnt := by
    split
    · simp [t6Flush]
    · omega
  have e4 : T6ok (if t.dcnt ≥ 75 then t6Flush t else t) := by
    split
    · exact t6Flush_ok t ht (ht.z (by omega))
    · exact ht
  generalize (if t.dcnt ≥ 75 then t6Flush t else t) = t' at e2 e3 e4
  have hb : t'.dcnt + 2 * (temp - t'.n).toNat ≤ 74 := by rw [e2]; rcases h with h | h <;> omega
  obtain ⟨_, _, c⟩ := t6Iter_spec m dl (temp - t'.n).toNat t' hb
  have hi := t6Iter_ok m dl (temp - t'.n).toNat t' e4 (by omega) (.inl e3.1)
  have hr : t6Room m (iter (t6Fill m dl) (temp - t'.n).toNat t') = true := t6Room_of _ _ (by omega)
  rw [hr]
  have ha := t6Add_ok (.case l) _ hi
  exact ⟨ha.rows, ha.cur, fun _ => by simp [t6Add]⟩

theorem t6Loop_ok (m : Mode) (dl : Lbl) (minc : Int) (s : List (Int × Nat)) (t : T6) (ht : T6ok t)
    (h : Asc t.n (s.map fun c => (tempOf m .jump minc c.1, c.2))) (hd : t.dcnt ≤ 75)
    (hs : span t.n (s.map fun c => (tempOf m .jump minc c.1, c.2)) = 0 ∨
      t.dcnt + s.length + 2 * span t.n (s.map fun c => (tempOf m .jump minc c.1, c.2)) ≤ 75) :
    T6ok (t6Loop m dl minc s t) ∧ (t6Loop m dl minc s t).dcnt ≤ 75 := by
  induction s generalizing t with
  | nil => exact ⟨ht, hd⟩
  | cons c cs ih =>
    have h0 := h.head
    have h1 := span_nonneg _ _ h.tail
    simp only [List.map_cons, span, List.length_cons] at hs h0 h1
    have hx : t.dcnt ≤ 75 ∧ (tempOf m .jump minc c.1 = t.n ∨ t.dcnt + 2 * (tempOf m .jump minc c.1 - t.n).toNat ≤ 74) :=
      ⟨hd, by rcases hs with hs | hs <;> omega⟩
    obtain ⟨a, b, e, f⟩ := t6Case_spec m dl (tempOf m .jump minc c.1) c.2 t h0 hx
    unfold t6Loop
    exact ih _ (t6Case_ok m dl _ _ t ht h0 hx) (by rw [b]; exact h.tail) e (by rw [b]; rcases hs with hs | hs <;> omega)

theorem table6_ok (m : Mode) (dl : Lbl) (s : List (Int × Nat))
    (ha : Asc 0 (s.map fun c => (tempOf m .jump (minOf s) c.1, c.2)))
    (hs : span 0 (s.map fun c => (tempOf m .jump (minOf s) c.1, c.2)) = 0 ∨
      s.length + 2 * span 0 (s.map fun c => (tempOf m .jump (minOf s) c.1, c.2)) ≤ 75) :
    ∃ a, parseRows (table6 m dl s) = some a := by
  obtain ⟨hok, hd⟩ := t6Loop_ok m dl (minOf s) s {} ⟨by simp, .inl rfl, by simp⟩ ha (by simp) (by simpa using hs)
  apply ok_rows
  unfold table6
  simp only
  generalize t6Loop m dl (minOf s) s {} = t at hok hd
  have ha := t6Add_ok dl t hok
  have hne : (t6Add dl t).cur ≠ [] := by simp [t6Add]
  have hf := t6Flush_ok _ ha hne
  intro r hr
  by_cases hroom : t6Room m t = true
  · simp only [hroom, ↓reduceIte, List.mem_append] at hr
    rcases hr with hr | hr
    · exact ha.rows r hr
    · rw [if_pos (.inr hne)] at hr
      simp only [List.mem_cons, List.not_mem_nil, or_false] at hr
      subst hr
      exact ha.cur.resolve_left hne
  · have h64 : m.is64 = false := by
      cases h : m.is64 with
      | false => rfl
      | true => exact absurd (by simp [t6Room, h, hd]) hroom
    rw [if_neg hroom, List.mem_append] at hr
    rcases hr with hr | hr
    · exact hf.rows r hr
    · simp [h64, t6Flush] at hr

/-! ### the tree (cflag 5) -/

theorem chunk_ok {α : Type} (k : Nat) (l : List α) (cur : Row α) (d : Nat) (hk : 0 < k)
    (h : (d = 0 ∧ cur = [] ∧ l ≠ []) ∨ (d ≠ 0 ∧ OkRow cur)) : ∀ r ∈ chunk k cur d l, OkRow r := by
  induction l generalizing cur d with
  | nil =>
    intro r hr
    simp only [chunk, List.mem_cons, List.not_mem_nil, or_false] at hr
    subst hr
    rcases h with h | h
    · exact absurd rfl h.2.2
    · exact h.2
  | cons x xs ih =>
    intro r hr
    unfold chunk at hr
    split at hr
    · simp only [List.mem_cons] at hr
      rcases hr with rfl | hr
      · rcases h with h | h
        · omega
        · exact h.2
      · exact ih _ _ (.inr ⟨by omega, ok_one x⟩) r hr
    · refine ih _ _ (.inr ⟨by omega, ?_⟩) r hr
      rcases h with ⟨h1, h2, _⟩ | ⟨h1, h2⟩
      · simp only [h1, h2, ne_eq, not_true, ↓reduceIte, List.append_nil, List.nil_append]; exact ok_one x
      · simp only [ne_eq, h1, not_false_eq_true, ↓reduceIte, List.append_assoc, List.cons_append, List.nil_append]
        exact ok_add _ _ h2

theorem tables_ok (m : Mode) (dl : Lbl) (swsize : Int) (h0 : 0 ≤ swsize) (hsw : swsize ≤ 65536) (s : List (Int × Nat)) (hg : Good s) (hne : s ≠ [])
    (hl0 : ∀ c ∈ s, c.2 ≠ 0) (hfit : TablesFit s.length (maxOf s - minOf s)) (hn : s.length < 75) :
    ∃ t, tables m (method m swsize s) dl s = some t := by
  have hb := method_bounds (m := m) swsize h0 hsw s hg hne
  have h4 : method m swsize s ≠ .chain → 2 ≤ s.length := by
    intro h
    by_cases hc : s.length ≤ 3
    · exact absurd (by unfold method; simp [hc]) h
    · omega
  generalize method m swsize s = me at hb h4
  cases me
  · exact ⟨_, rfl⟩
  · obtain ⟨a, ha⟩ := table1_ok dl s hne hn hl0
    obtain ⟨b, hb'⟩ := table2_ok m .both8 (table1 dl s).2 s (h4 (by simp))
    exact ⟨_, by simp only [tables, ha, hb']; rfl⟩
  · obtain ⟨a, ha⟩ := table1_ok dl s hne hn hl0
    obtain ⟨b, hb'⟩ := table2_ok m .both16 (table1 dl s).2 s (h4 (by simp))
    exact ⟨_, by simp only [tables, ha, hb']; rfl⟩
  · have t1 := temps_eq m .jump s hg id
    simp only [id] at t1
    obtain ⟨a, ha⟩ := table6_ok m dl s (by rw [t1]; exact asc_shift s hg id) (by
      rw [t1, good_span _ hg hne]
      have hb' : 2 * (maxOf s - minOf s) ≤ 3 * s.length := hb
      rcases hfit.2 with h | h | h <;> omega)
    exact ⟨_, by simp only [tables, ha, Option.map_some]; rfl⟩
  · obtain ⟨a, ha⟩ := ok_rows _ (chunk_ok 15 (s.map fun c => Lbl.case c.2) [] 0 (by omega) (.inl ⟨rfl, rfl, by simpa using hne⟩))
    obtain ⟨b, hb'⟩ := ok_rows _ (chunk_ok 30 (s.map fun c => wrap32 c.1) [] 0 (by omega) (.inl ⟨rfl, rfl, by simpa using hne⟩))
    exact ⟨_, by simp only [tables, tableL, tableV, ha, hb']; rfl⟩

/-! ### the directives -/

/-- the number of `.DEFAULT`s -/
def dflts : List (Dir σ) → Nat
  | [] => 0
  | .dflt :: r => dflts r + 1
  | _ :: r => dflts r

theorem addCases_ok (m : Mode) (lab : Nat) (vs : List Int) (cs : List (Int × Nat))
    (h : (cs.map (·.1) ++ vs.map (caseVal m)).Nodup) : ∃ cs', addCases m lab vs cs = some cs' := by
  induction vs generalizing cs with
  | nil => exact ⟨cs, rfl⟩
  | cons v vs ih =>
    simp only [addCases]
    have hno : ¬ cs.any (fun c => c.1 == caseVal m v) = true := by
      simp only [List.any_eq_true, beq_iff_eq, not_exists, not_and]
      intro c hc e
      rw [List.nodup_append] at h
      exact h.2.2 c.1 (List.mem_map.mpr ⟨c, hc, rfl⟩) (caseVal m v) (by simp) e
    rw [if_neg hno]
    apply ih
    simpa [List.append_assoc] using h

theorem dirs_ok (m : Mode) (ds : List (Dir σ)) (d : DSt) (hv : ∀ vs, Dir.case vs ∈ ds → vs ≠ [])
    (hn : (d.cases.map (·.1) ++ (consts ds).map (caseVal m)).Nodup) (hd : dflts ds ≤ if d.dflt then 0 else 1) :
    ∃ r, dirs m d ds = some r := by
  induction ds generalizing d with
  | nil => exact ⟨_, rfl⟩
  | cons x xs ih =>
    have go : ∀ d1 l1, dirStep m d x = some (d1, l1) → (d1.cases.map (·.1) ++ (consts xs).map (caseVal m)).Nodup →
        (dflts xs ≤ if d1.dflt then 0 else 1) → ∃ r, dirs m d (x :: xs) = some r := by
      intro d1 l1 h1 h2 h3
      obtain ⟨⟨d2, l2⟩, hr⟩ := ih d1 (fun vs h => hv vs (by simp [h])) h2 h3
      exact ⟨(d2, l1 ++ l2), by simp only [dirs, h1, hr]⟩
    cases x with
    | case vs =>
      have hvs := hv vs (by simp)
      have hn' : (d.cases.map (·.1) ++ vs.map (caseVal m)).Nodup := by
        simp only [consts, List.map_append] at hn
        rw [← List.append_assoc, List.nodup_append] at hn
        exact hn.1
      obtain ⟨cs, hcs⟩ := addCases_ok m (if d.brk then (d.cnt + 1) % 65536 else d.savedlab) vs d.cases hn'
      refine go { d with brk := false, savedlab := (if d.brk then (d.cnt + 1) % 65536 else d.savedlab), cnt := (if d.brk then d.cnt + 1 else d.cnt), cases := cs } _ (by simp only [dirStep, if_neg hvs, hcs, Option.map_some]; rfl) ?_ hd
      have := (addCases_spec _ _ _ _ hcs).1
      simp only [this]
      simpa [consts, Function.comp_def] using hn
    | dflt =>
      simp only [dflts] at hd
      have hdf : d.dflt = false := by
        cases h : d.dflt with
        | false => rfl
        | true => rw [h] at hd; simp at hd
      rw [hdf] at hd
      refine go { d with dflt := true } [.lab .dflt] (by simp [dirStep, hdf]) hn ?_
      simp at hd ⊢; omega
    | brk => exact go { d with brk := true } _ rfl hn hd
    | brkIf p => exact go { d with brk := true } _ rfl hn hd
    | stm f => exact go _ _ rfl hn hd

theorem dirs_lab0 (m : Mode) (ds : List (Dir σ)) (d d' : DSt) (b : List (Line σ)) (h : dirs m d ds = some (d', b))
    (hc : d.cnt + ds.length < 65536) (hs : d.brk = false → d.savedlab ≠ 0) (h0 : ∀ c ∈ d.cases, c.2 ≠ 0) :
    ∀ c ∈ d'.cases, c.2 ≠ 0 := by
  induction ds generalizing d b with
  | nil => simp only [dirs, Option.some.injEq, Prod.mk.injEq] at h; rw [← h.1]; exact h0
  | cons x xs ih =>
    obtain ⟨d1, l1, l2, h1, h2, rfl⟩ := dirs_cons h
    simp only [List.length_cons] at hc
    cases x with
    | case vs =>
      simp only [dirStep] at h1
      split at h1
      · simp at h1
      · simp only [Option.map_eq_some_iff, Prod.mk.injEq] at h1
        obtain ⟨cs, hcs, rfl, rfl⟩ := h1
        have hl : (if d.brk then (d.cnt + 1) % 65536 else d.savedlab) ≠ 0 := by
          split
          · omega
          · rename_i hb; exact hs (by simpa using hb)
        refine ih _ l2 h2 ?_ (fun _ => hl) ?_
        · show (if d.brk then d.cnt + 1 else d.cnt) + xs.length < 65536
          split <;> omega
        · rw [(addCases_spec _ _ _ _ hcs).1]
          intro c hcm
          rw [List.mem_append] at hcm
          rcases hcm with hcm | hcm
          · exact h0 c hcm
          · simp only [List.mem_map] at hcm
            obtain ⟨w, _, rfl⟩ := hcm
            exact hl
    | dflt =>
      simp only [dirStep] at h1
      split at h1
      · simp at h1
      · simp only [Option.some.injEq, Prod.mk.injEq] at h1
        obtain ⟨rfl, rfl⟩ := h1
        exact ih { d with dflt := true } l2 h2 (by show d.cnt + _ < _; omega) hs h0
    | brk =>
      simp only [dirStep, Option.some.injEq, Prod.mk.injEq] at h1
      obtain ⟨rfl, rfl⟩ := h1
      exact ih { d with brk := true } l2 h2 (by show d.cnt + _ < _; omega) (by simp) h0
    | brkIf p =>
      simp only [dirStep, Option.some.injEq, Prod.mk.injEq] at h1
      obtain ⟨rfl, rfl⟩ := h1
      exact ih { d with brk := true } l2 h2 (by show d.cnt + _ < _; omega) (by simp) h0
    | stm f =>
      simp only [dirStep, Option.some.injEq, Prod.mk.injEq] at h1
      obtain ⟨rfl, rfl⟩ := h1
      exact ih d l2 h2 (by omega) hs h0

/-- **C68**: a block with different constants (fewer than 75), at most one `.DEFAULT` and an operand that can be loaded
    is accepted. -/
theorem C68_accepts (is64 : Bool) (swsize : Int) (hs0 : 0 ≤ swsize) (hsw : swsize ≤ 0x8000) (cnt : Nat) (k : OpKind)
    (val : X σ → BitVec 64) (ds : List (Dir σ)) (m : Mode) (ld : List (Line σ)) (hop : switchOperand is64 k val = some (m, ld))
    (hcnt : cnt + ds.length < 65536) (hv : ∀ vs, Dir.case vs ∈ ds → vs ≠ []) (hd : dflts ds ≤ 1)
    (hnd : ((consts ds).map (valueOf m)).Nodup) (hne : consts ds ≠ []) (hn : (consts ds).length < 75)
    (hc : GoodConsts m (consts ds)) : ∃ o, assemble is64 swsize cnt k val ds = some o ∧ o.mode = m := by
  have hvo : valueOf m = caseVal m := by funext c; exact valueOf_eq m c
  rw [hvo] at hnd
  obtain ⟨⟨d, body⟩, h2⟩ := dirs_ok m ds { cnt := cnt } hv (by simpa using hnd) (by simpa using hd)
  obtain ⟨c1, c2⟩ := dirs_cases ds _ _ _ h2
  simp only [List.map_nil, List.nil_append] at c1 c2
  have hlen : d.cases.length = (consts ds).length := by have := congrArg List.length c1; simpa using this
  have hne' : d.cases ≠ [] := by
    intro e; rw [e] at hlen; exact hne (List.length_eq_zero_iff.mp hlen.symm)
  have hl0 := dirs_lab0 m ds _ _ _ h2 hcnt (by simp) (by simp)
  have hsm := fun c => (sort_perm d.cases).mem_iff (a := c)
  have hsl := (sort_perm d.cases).length_eq
  have hval : ∀ c ∈ d.cases, ∃ w ∈ consts ds, valueOf m w = c.1 := by
    intro c hc'
    have : c.1 ∈ d.cases.map (·.1) := List.mem_map.mpr ⟨c, hc', rfl⟩
    rw [c1, List.mem_map] at this
    obtain ⟨w, hw, e⟩ := this
    exact ⟨w, hw, by rw [valueOf_eq]; exact e⟩
  have hval' : ∀ w ∈ consts ds, ∃ c ∈ d.cases, valueOf m w = c.1 := by
    intro w hw
    have : caseVal m w ∈ d.cases.map (·.1) := by rw [c1]; exact List.mem_map.mpr ⟨w, hw, rfl⟩
    rw [List.mem_map] at this
    obtain ⟨c, hc, e⟩ := this
    exact ⟨c, hc, by rw [valueOf_eq]; exact e.symm⟩
  have hgood : Good (sortCases d.cases) := by
    refine ⟨sort_sorted _ (c2 (by simp)), ?_, ?_⟩
    · intro c hcm
      obtain ⟨w, hw, e⟩ := hval c ((hsm c).mp hcm)
      rw [← e]; exact hc.small w hw
    · intro a ham b hbm
      obtain ⟨w, hw, e⟩ := hval a ((hsm a).mp ham)
      obtain ⟨w', hw', e'⟩ := hval b ((hsm b).mp hbm)
      rw [← e, ← e']; exact hc.span w hw w' hw'
  have hne2 : sortCases d.cases ≠ [] := by
    intro e; rw [e] at hsl; exact hne' (List.length_eq_zero_iff.mp hsl.symm)
  have hfit : TablesFit (sortCases d.cases).length (maxOf (sortCases d.cases) - minOf (sortCases d.cases)) := by
    obtain ⟨a, ha, ea⟩ := maxOf_mem _ hne2
    obtain ⟨b, hb, eb⟩ := minOf_mem _ hne2
    obtain ⟨wa, hwa, ewa⟩ := hval a ((hsm a).mp ha)
    obtain ⟨wb, hwb, ewb⟩ := hval b ((hsm b).mp hb)
    rw [hsl, ea, eb, hlen, ← ewa, ← ewb]
    refine hc.fit wa hwa wb hwb ?_
    intro c hcm
    obtain ⟨x, hx, ex⟩ := hval' c hcm
    rw [ewa, ewb, ex, ← ea, ← eb]
    exact ⟨minOf_le _ hgood.asc x ((hsm x).mpr hx), le_maxOf _ hgood.asc x ((hsm x).mpr hx)⟩
  obtain ⟨⟨t1, t2, w2⟩, ht⟩ := tables_ok m (if d.dflt then .dflt else .exit) swsize hs0 (by omega) _ hgood hne2
    (fun c h => hl0 c ((hsm c).mp h)) hfit (by omega)
  unfold assemble
  simp only [hop, h2, if_neg hne', ht]
  exact ⟨_, rfl, rfl⟩

end Verif.Switch
