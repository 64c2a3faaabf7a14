import Verif.Context.Spec
import Mathlib.Data.List.Basic
import Mathlib.Tactic.Tauto
import Mathlib.Data.List.Perm.Subperm
import Mathlib.Data.List.Range
import Mathlib.Tactic.Linarith
import Mathlib.Tactic.Ring
/-! # C31: PUSHCONTEXT and POPCONTEXT restore exactly what was saved -/
namespace Verif.Context

/-! ### Linked lists -/

/-- From pointer `p` along the nodes of the list to pointer `q`. -/
def Seg (h : Nat → Node) (p : Option Nat) : List Nat → Option Nat → Prop
  | [], q => p = q
  | a :: l, q => p = some a ∧ Seg h (h a).next l q

theorem seg_append {h : Nat → Node} {p q : Option Nat} {l1 l2 : List Nat} :
    Seg h p (l1 ++ l2) q ↔ ∃ x, Seg h p l1 x ∧ Seg h x l2 q := by
  induction l1 generalizing p with
  | nil => simp [Seg]
  | cons a l ih => simp [Seg, ih, and_assoc]

theorem seg_frame {h : Nat → Node} {p q : Option Nat} {l : List Nat} {x : Nat} {n : Node} (hx : x ∉ l) :
    Seg (setNode h x n) p l q ↔ Seg h p l q := by
  induction l generalizing p with
  | nil => simp [Seg]
  | cons a l ih =>
    simp only [List.mem_cons, not_or] at hx
    have : a ≠ x := fun e => hx.1 e.symm
    simp [Seg, setNode, this, ih hx.2]

theorem data_frame {h : Nat → Node} {l : List Nat} {x : Nat} {n : Node} (hx : x ∉ l) :
    l.map (fun a => (setNode h x n a).data) = l.map (fun a => (h a).data) := by
  apply List.map_congr_left
  intro a ha
  have : a ≠ x := fun e => hx (e ▸ ha)
  simp [setNode, this]

/-- The state with the items of the stack `items`. -/
def Rep (s : St) (items : List Data) : Prop :=
  ∃ l fr, Seg s.heap s.stack l none ∧ l.map (fun a => (s.heap a).data) = items ∧ Seg s.heap s.free fr none ∧
    (l ++ fr).Nodup ∧ ∀ a ∈ l ++ fr, a < s.brk

/-- The insertion of an item, shared by pushOne and restoreState. -/
def insertNode (s : St) (d : Data) : St :=
  match s.free with
  | some c => { s with free := (s.heap c).next, heap := setNode s.heap c ⟨s.stack, d⟩, stack := some c }
  | none => { s with brk := s.brk + 1, heap := setNode s.heap s.brk ⟨s.stack, d⟩, stack := some s.brk }

theorem pushOne_eq (s : St) (k : Kind) : pushOne s k = insertNode s (save s.m k) := rfl

theorem insertNode_m (s : St) (d : Data) : (insertNode s d).m = s.m := by
  unfold insertNode; split <;> rfl

theorem insertNode_rep {s : St} {items : List Data} (d : Data) (h : Rep s items) : Rep (insertNode s d) (d :: items) := by
  obtain ⟨l, fr, h1, h2, h3, h4, h5⟩ := h
  unfold insertNode
  split
  · rename_i c hc
    cases fr with
    | nil => rw [hc] at h3; simp [Seg] at h3
    | cons c' fr =>
      rw [hc] at h3
      simp only [Seg, Option.some.injEq] at h3
      obtain ⟨rfl, h3⟩ := h3
      rw [List.nodup_append] at h4
      obtain ⟨n1, n2, n3⟩ := h4
      have hcl : c ∉ l := fun q => n3 c q c (by simp) rfl
      have hcf : c ∉ fr := (List.nodup_cons.1 n2).1
      refine ⟨c :: l, fr, ⟨rfl, ?_⟩, ?_, ?_, ?_, ?_⟩
      · simp only [setNode, if_true]; exact (seg_frame hcl).2 h1
      · simp only [List.map_cons, data_frame hcl, h2]; simp [setNode]
      · exact (seg_frame hcf).2 h3
      · rw [List.cons_append, List.nodup_cons, List.nodup_append]
        refine ⟨by simp [hcl, hcf], n1, (List.nodup_cons.1 n2).2, ?_⟩
        intro a ha b hb; exact n3 a ha b (by simp [hb])
      · intro a ha
        apply h5
        simp only [List.cons_append, List.mem_cons, List.mem_append] at ha ⊢
        tauto
  · rename_i hf
    have hfr : fr = [] := by
      cases fr with
      | nil => rfl
      | cons a l => rw [hf] at h3; simp [Seg] at h3
    subst hfr
    have hl : s.brk ∉ l := fun q => by have := h5 s.brk (by simp [q]); omega
    refine ⟨s.brk :: l, [], ⟨rfl, ?_⟩, ?_, ?_, ?_, ?_⟩
    · simp only [setNode, if_true]; exact (seg_frame hl).2 h1
    · simp only [List.map_cons, data_frame hl, h2]; simp [setNode]
    · simpa [Seg] using hf
    · simp only [List.append_nil] at h4 ⊢; exact List.nodup_cons.2 ⟨hl, h4⟩
    · intro a ha
      simp only [List.append_nil, List.mem_cons] at ha h5
      rcases ha with rfl | ha
      · exact Nat.lt_succ_self _
      · exact Nat.lt_succ_of_lt (h5 a ha)

/-- POPCONTEXT on the list of items. -/
def popItems (m : Module) : List Data → List Kind → Module × List Data × List Kind
  | [], t => (m, [], t)
  | d :: ds, t =>
    if t = [] then (m, d :: ds, t)
    else if d.kind ∉ t then
      let r := popItems m ds t
      (r.1, d :: r.2.1, r.2.2)
    else popItems (restore m d) ds (t.filter (· ≠ d.kind))

theorem popLoop_spec (suf : List Nat) : ∀ (s : St) (pre fr : List Nat) (type : List Kind),
    Seg s.heap s.stack (pre ++ suf) none → Seg s.heap s.free fr none → (pre ++ suf ++ fr).Nodup →
    (∀ a ∈ pre ++ suf ++ fr, a < s.brk) →
    ∃ s' t', popLoop s pre.getLast? suf.head? type = some (s', t') ∧
      s'.m = (popItems s.m (suf.map fun a => (s.heap a).data) type).1 ∧
      t' = (popItems s.m (suf.map fun a => (s.heap a).data) type).2.2 ∧
      Rep s' (pre.map (fun a => (s.heap a).data) ++ (popItems s.m (suf.map fun a => (s.heap a).data) type).2.1) := by
  induction suf with
  | nil =>
    intro s pre fr type h1 h2 h3 h4
    refine ⟨s, type, by rw [popLoop.eq_def]; rfl, rfl, rfl, pre, fr, ?_, ?_, h2, ?_, ?_⟩
    · simpa using h1
    · simp [popItems]
    · simpa using h3
    · simpa using h4
  | cons c suf ih =>
    intro s pre fr type h1 h2 h3 h4
    rw [popLoop.eq_def]
    simp only [List.head?_cons, List.map_cons]
    by_cases ht : type = []
    · rw [if_pos ht]
      refine ⟨s, type, rfl, ?_, ?_, ?_⟩
      · simp [popItems, ht]
      · simp [popItems, ht]
      · refine ⟨pre ++ c :: suf, fr, h1, ?_, h2, h3, h4⟩
        simp [popItems, ht]
    · rw [if_neg ht]
      have hnext : (s.heap c).next = suf.head? := by
        obtain ⟨x, -, hx⟩ := seg_append.1 h1
        simp only [Seg] at hx
        cases suf with
        | nil => simpa [Seg] using hx.2
        | cons b suf => simpa [Seg] using hx.2.1
      by_cases hk : (s.heap c).data.kind ∈ type
      · rw [if_neg (by simpa using hk)]
        have hc1 : c ∉ pre := by
          intro q
          rw [List.append_assoc, List.nodup_append] at h3
          exact h3.2.2 c q c (by simp) rfl
        have hc2 : c ∉ suf := by
          intro q
          rw [List.append_assoc, List.nodup_append] at h3
          have := h3.2.1
          rw [List.cons_append, List.nodup_cons] at this
          exact this.1 (by simp [q])
        have hc3 : c ∉ fr := by
          intro q
          rw [List.append_assoc, List.nodup_append] at h3
          have := h3.2.1
          rw [List.cons_append, List.nodup_cons] at this
          exact this.1 (by simp [q])
        have hnd' : (pre ++ suf ++ c :: fr).Nodup := by
          have : (pre ++ c :: suf ++ fr).Perm (pre ++ suf ++ c :: fr) := by
            rw [List.append_assoc, List.append_assoc]
            apply List.Perm.append_left
            rw [List.cons_append]
            exact List.perm_middle.symm
          exact this.nodup_iff.1 h3
        have hmem : ∀ a ∈ pre ++ suf ++ c :: fr, a < s.brk := by
          intro a ha
          apply h4
          simp only [List.mem_append, List.mem_cons] at ha ⊢
          tauto
        -- the state after unlinking
        generalize hs1 : unlink s pre.getLast? (s.heap c).next = s1
        have hs1' := hs1
        unfold unlink at hs1
        have hd1 : ∀ a, (s1.heap a).data = (s.heap a).data := by
          intro a
          rw [← hs1]
          split
          · rename_i p _
            simp only [setNode]
            split
            · next e => rw [e]
            · rfl
          · rfl
        have hm1 : s1.m = s.m := by rw [← hs1]; split <;> rfl
        have hf1 : s1.free = s.free := by rw [← hs1]; split <;> rfl
        have hb1 : s1.brk = s.brk := by rw [← hs1]; split <;> rfl
        have hseg1 : Seg s1.heap s1.stack (pre ++ suf) none ∧ Seg s1.heap s1.free fr none := by
          rw [hf1]
          rcases List.eq_nil_or_concat pre with rfl | ⟨pre', p, rfl⟩
          · simp only [List.getLast?_nil] at hs1
            subst hs1
            simp only [List.nil_append, Seg] at h1 ⊢
            exact ⟨h1.2, h2⟩
          · simp only [List.concat_eq_append, List.getLast?_append, List.getLast?_singleton, Option.some_or] at hs1
            subst hs1
            simp only [List.concat_eq_append] at *
            have hp1 : p ∉ pre' := by
              intro q
              rw [List.append_assoc, List.append_assoc, List.nodup_append] at h3
              exact h3.2.2 p q p (by simp) rfl
            have hp2 : p ∉ suf ∧ p ∉ fr := by
              rw [List.append_assoc, List.append_assoc, List.nodup_append] at h3
              have := h3.2.1
              simp only [List.cons_append, List.nil_append, List.nodup_cons, List.mem_cons, List.mem_append] at this
              tauto
            rw [List.append_assoc] at h1 ⊢
            obtain ⟨x, hx1, hx2⟩ := seg_append.1 h1
            simp only [List.cons_append, List.nil_append, Seg] at hx2
            obtain ⟨rfl, hx2, hx3⟩ := hx2
            refine ⟨seg_append.2 ⟨some p, (seg_frame hp1).2 hx1, ?_⟩, (seg_frame hp2.2).2 h2⟩
            simp only [List.cons_append, List.nil_append, Seg, true_and]
            simp only [setNode, if_true]
            exact (seg_frame hp2.1).2 hx3
        obtain ⟨hseg1, hfree1⟩ := hseg1
        have hcp : c ∉ pre ++ suf := by simp [hc1, hc2]
        obtain ⟨s', t', e1, e2, e3, e4⟩ := ih
          { m := restore s1.m (s.heap c).data, heap := setNode s1.heap c ⟨s1.free, (s.heap c).data⟩, stack := s1.stack,
            free := some c, brk := s1.brk } pre (c :: fr) (type.filter (· ≠ (s.heap c).data.kind))
          ((seg_frame hcp).2 hseg1)
          (by simp only [Seg, true_and]; simp only [setNode, if_true]; exact (seg_frame hc3).2 hfree1)
          hnd' (by rw [hb1]; exact hmem)
        simp only [data_frame hc1, data_frame hc2, hd1, hm1] at e2 e3 e4
        refine ⟨s', t', ?_, ?_, ?_, ?_⟩
        · simp only [hnext] at hs1' ⊢
          rw [e1]
        · rw [e2]; simp [popItems, ht, hk]
        · rw [e3]; simp [popItems, ht, hk]
        · have : (popItems s.m ((s.heap c).data :: suf.map fun a => (s.heap a).data) type).2.1 =
              (popItems (restore s.m (s.heap c).data) (suf.map fun a => (s.heap a).data)
                (type.filter (· ≠ (s.heap c).data.kind))).2.1 := by simp [popItems, ht, hk]
          rw [this]
          exact e4
      · rw [if_pos hk]
        obtain ⟨s', t', e1, e2, e3, e4⟩ := ih s (pre ++ [c]) fr type (by simpa using h1) h2 (by simpa using h3) (by simpa using h4)
        rw [List.getLast?_append, List.getLast?_singleton, Option.some_or] at e1
        rw [hnext, e1]
        refine ⟨s', t', rfl, ?_, ?_, ?_⟩
        · rw [e2]; simp [popItems, ht, hk]
        · rw [e3]; simp [popItems, ht, hk]
        · have : (popItems s.m ((s.heap c).data :: suf.map fun a => (s.heap a).data) type).2.1 =
              (s.heap c).data :: (popItems s.m (suf.map fun a => (s.heap a).data) type).2.1 := by simp [popItems, ht, hk]
          rw [this]
          simpa using e4

theorem popLoop_rep {s : St} {items : List Data} (type : List Kind) (h : Rep s items) :
    ∃ s', popLoop s none s.stack type = some (s', (popItems s.m items type).2.2) ∧
      s'.m = (popItems s.m items type).1 ∧ Rep s' (popItems s.m items type).2.1 := by
  obtain ⟨l, fr, h1, h2, h3, h4, h5⟩ := h
  obtain ⟨s', t', e1, e2, e3, e4⟩ := popLoop_spec l s [] fr type h1 h3 h4 h5
  have hst : s.stack = l.head? := by
    cases l with
    | nil => simpa [Seg] using h1
    | cons a l => simpa [Seg] using h1.1
  subst h2
  rw [hst]
  refine ⟨s', by rw [← e3]; exact e1, e2, by simpa using e4⟩

/-! ### One stack for each kind -/

/-- Saved types are there for the registers with a symbol. -/
def Data.wf : Data → Prop
  | .assumes _ std ti => ∀ i, (std i).assumed = true → (ti i).isSome = true
  | _ => True

def Data.setting : Data → Setting
  | .assumes seg std ti => .assumes seg fun i => ((std i).error, if (std i).assumed then ti i else none)
  | .radix r => .radix r
  | .listing l => .listing l
  | .cpu c cc => .cpu c cc
  | .alignment f p => .alignment f p

theorem save_facts (m : Module) (k : Kind) : (save m k).kind = k ∧ (save m k).wf ∧ (save m k).setting = look m k := by
  cases k <;> simp [save, Data.kind, Data.wf, Data.setting, look]
  funext i; split <;> rfl

theorem restore_same (m : Module) (d : Data) (h : d.wf) : look (restore m d) d.kind = d.setting := by
  cases d <;> simp [restore, look, Data.kind, Data.setting]
  rename_i seg std ti
  funext i
  by_cases hi : (std i).assumed = true
  · have := h i hi
    obtain ⟨x, hx⟩ := Option.isSome_iff_exists.1 this
    simp [hi, hx]
  · simp [hi]

theorem restore_other (m : Module) (d : Data) {k : Kind} (h : k ≠ d.kind) : look (restore m d) k = look m k := by
  cases d <;> cases k <;> first | exact absurd rfl h | rfl

/-- The stack of a kind. -/
def stackOf (items : List Data) (k : Kind) : List Setting := (items.filter (·.kind = k)).map Data.setting

def absOf (m : Module) (items : List Data) : Abs := { cur := look m, saved := stackOf items }

theorem stackOf_cons (d : Data) (ds : List Data) (k : Kind) :
    stackOf (d :: ds) k = if d.kind = k then d.setting :: stackOf ds k else stackOf ds k := by
  unfold stackOf
  rw [List.filter_cons]
  split <;> simp_all

theorem popItems_abs (items : List Data) : ∀ (m : Module) (t : List Kind), (∀ d ∈ items, d.wf) →
    absOf (popItems m items t).1 (popItems m items t).2.1 = (absOf m items).pop t ∧
    (∀ d ∈ (popItems m items t).2.1, d.wf) ∧
    ((popItems m items t).2.2 = [] ↔ ∀ k ∈ t, stackOf items k ≠ []) := by
  induction items with
  | nil =>
    intro m t _
    refine ⟨?_, by simp [popItems], ?_⟩
    · simp [popItems, absOf, Abs.pop, stackOf]; rfl
    · simp only [popItems, stackOf, List.filter_nil, List.map_nil, ne_eq, not_true, List.eq_nil_iff_forall_not_mem]
  | cons d ds ih =>
    intro m t hw
    have hd := hw d (by simp)
    have hds : ∀ x ∈ ds, x.wf := fun x hx => hw x (by simp [hx])
    by_cases ht : t = []
    · subst ht
      refine ⟨?_, by simpa [popItems] using hw, by simp [popItems]⟩
      simp [popItems, absOf, Abs.pop]
    · by_cases hk : d.kind ∈ t
      · have e : popItems m (d :: ds) t = popItems (restore m d) ds (t.filter (· ≠ d.kind)) := by simp [popItems, ht, hk]
        rw [e]
        obtain ⟨i1, i2, i3⟩ := ih (restore m d) (t.filter (· ≠ d.kind)) hds
        refine ⟨?_, i2, ?_⟩
        · rw [i1]
          simp only [Abs.pop, absOf, Abs.mk.injEq]
          constructor
          · funext k
            by_cases hkd : k = d.kind
            · subst hkd
              simp [restore_same m d hd, hk, stackOf_cons]
            · rw [restore_other m d hkd, stackOf_cons, if_neg (fun e : d.kind = k => hkd e.symm)]
              simp [hkd]
          · funext k
            by_cases hkd : k = d.kind
            · subst hkd
              simp [hk, stackOf_cons]
            · rw [stackOf_cons, if_neg (fun e : d.kind = k => hkd e.symm)]
              simp [hkd]
        · rw [i3]
          constructor
          · intro h k hkt
            by_cases hkd : k = d.kind
            · subst hkd; simp [stackOf_cons]
            · rw [stackOf_cons, if_neg (fun e : d.kind = k => hkd e.symm)]
              exact h k (by simp [hkt, hkd])
          · intro h k hkt
            simp only [List.mem_filter, decide_eq_true_eq] at hkt
            have := h k hkt.1
            rwa [stackOf_cons, if_neg (fun e : d.kind = k => hkt.2 e.symm)] at this
      · have e : popItems m (d :: ds) t = ((popItems m ds t).1, d :: (popItems m ds t).2.1, (popItems m ds t).2.2) := by
          simp [popItems, ht, hk]
        rw [e]
        obtain ⟨i1, i2, i3⟩ := ih m t hds
        have hkn : ∀ k ∈ t, d.kind ≠ k := fun k hkt q => hk (q ▸ hkt)
        refine ⟨?_, ?_, ?_⟩
        · simp only [Abs.pop, absOf, Abs.mk.injEq] at i1 ⊢
          constructor
          · rw [i1.1]
            funext k
            by_cases hkt : k ∈ t
            · simp only [hkt, if_true]; rw [stackOf_cons, if_neg (hkn k hkt)]
            · simp only [hkt, if_false]
          · have i12 := i1.2
            funext k
            have := congrFun i12 k
            rw [stackOf_cons, this, stackOf_cons]
            by_cases hkt : k ∈ t
            · simp only [hkt, if_true, if_neg (hkn k hkt)]
            · simp only [hkt, if_false]
        · intro x hx
          simp only [List.mem_cons] at hx
          rcases hx with rfl | hx
          · exact hd
          · exact i2 x hx
        · rw [i3]
          constructor
          · intro h k hkt; rw [stackOf_cons, if_neg (hkn k hkt)]; exact h k hkt
          · intro h k hkt
            have := h k hkt
            rwa [stackOf_cons, if_neg (hkn k hkt)] at this

/-- The state of the model stands for an abstract state. -/
def Sim (s : St) (a : Abs) : Prop := ∃ items, Rep s items ∧ (∀ d ∈ items, d.wf) ∧ absOf s.m items = a

theorem pushFold_sim (ks : List Kind) : ∀ (s : St) (a : Abs), ks.Nodup → Sim s a →
    Sim (ks.foldl pushOne s) (a.push ks) ∧ (ks.foldl pushOne s).m = s.m := by
  induction ks with
  | nil =>
    intro s a _ h
    refine ⟨?_, rfl⟩
    simpa [Abs.push] using h
  | cons k ks ih =>
    intro s a hnd h
    obtain ⟨hkn, hnd⟩ := List.nodup_cons.1 hnd
    obtain ⟨items, h1, h2, h3⟩ := h
    obtain ⟨f1, f2, f3⟩ := save_facts s.m k
    have hm : (pushOne s k).m = s.m := by rw [pushOne_eq, insertNode_m]
    have hs : Sim (pushOne s k) (a.push [k]) := by
      refine ⟨save s.m k :: items, ?_, ?_, ?_⟩
      · rw [pushOne_eq]; exact insertNode_rep _ h1
      · intro d hd
        rcases List.mem_cons.1 hd with rfl | hd
        · exact f2
        · exact h2 d hd
      · rw [hm, ← h3]
        simp only [absOf, Abs.push, Abs.mk.injEq, true_and]
        funext q
        rw [stackOf_cons, f1, f3]
        by_cases e : k = q
        · simp [e]
        · have : q ≠ k := fun x => e x.symm
          simp [e, this]
    obtain ⟨i1, i2⟩ := ih _ _ hnd hs
    refine ⟨?_, by rw [List.foldl_cons, i2, hm]⟩
    have e : (a.push [k]).push ks = a.push (k :: ks) := by
      simp only [Abs.push, Abs.mk.injEq, true_and]
      funext q
      by_cases e1 : q = k
      · subst e1; simp [hkn]
      · simp [e1]
    rw [e] at i1
    exact i1

theorem pushLoop_sim {s : St} {a : Abs} (type : List Kind) (h : Sim s a) :
    Sim (pushLoop s type) (a.push type) ∧ (pushLoop s type).m = s.m := by
  have hnd : (typetab.filter (· ∈ type)).Nodup := List.Pairwise.filter _ (by decide : typetab.Nodup)
  obtain ⟨h1, h2⟩ := pushFold_sim _ s a hnd h
  refine ⟨?_, h2⟩
  have : a.push (typetab.filter (· ∈ type)) = a.push type := by
    simp only [Abs.push, Abs.mk.injEq, true_and]
    funext k
    have : k ∈ typetab.filter (· ∈ type) ↔ k ∈ type := by
      rw [List.mem_filter]
      have : k ∈ typetab := by cases k <;> decide
      simp [this]
    simp only [this]
  rw [← this]
  exact h1

theorem pop_sim {s : St} {a : Abs} (type : List Kind) (h : Sim s a) :
    ∃ s' t, popLoop s none s.stack type = some (s', t) ∧ Sim s' (a.pop type) ∧ (t = [] ↔ ∀ k ∈ type, a.saved k ≠ []) := by
  obtain ⟨items, h1, h2, h3⟩ := h
  obtain ⟨s', e1, e2, e3⟩ := popLoop_rep type h1
  obtain ⟨p1, p2, p3⟩ := popItems_abs items s.m type h2
  subst h3
  exact ⟨s', _, e1, ⟨_, e3, p2, by rw [e2]; exact p1⟩, p3⟩

theorem kinds_eq (name : String) : kinds name =
    (if name = "ASSUMES" then some [.assumes]
        else if name = "RADIX" then some [.radix]
        else if name = "LISTING" then some [.listing]
        else if name = "CPU" then some [.cpu]
        else if name = "ALIGNMENT" then some [.alignment]
        else if name = "ALL" then some [.assumes, .radix, .listing, .cpu]
        else none) := by
  unfold kinds
  split <;> simp_all

/-- The operands behind an operand. -/
def restToks : List Tok → List Tok
  | .comma :: t :: rest => t :: rest
  | rest => rest

theorem restToks_length (l : List Tok) : (restToks l).length ≤ l.length := by
  unfold restToks; split <;> simp

theorem operands_id (strict : Bool) (name : String) (rest : List Tok) :
    operands strict (.id name :: rest) =
      match kinds name with
      | none => ([], false)
      | some ks =>
        if strict ∧ ks = [.alignment] then ([], false)
        else (ks :: (operands strict (restToks rest)).1, (operands strict (restToks rest)).2) := by
  rw [operands.eq_def]
  simp only
  split
  · simp [kinds]
  · rename_i hna
    rw [← kinds_eq]
    split
    · rename_i h; rw [h]
    · rename_i ks h
      rw [h]
      simp only
      rw [if_neg]
      · rcases rest with _ | ⟨t1, _ | ⟨t2, r⟩⟩
        · rfl
        · cases t1 <;> rfl
        · cases t1 <;> rfl
      rintro ⟨hs, rfl⟩
      subst hs
      refine hna ?_ rfl
      unfold kinds at h
      split at h <;> simp_all

theorem directive_id (pop strict : Bool) (s : St) (name : String) (rest : List Tok) :
    contextDirective pop strict s (.id name :: rest) =
      match kinds name with
      | none => some (s, some .syntaxError)
      | some type =>
        if strict ∧ type = [.alignment] then some (s, some .syntaxError)
        else if pop then
          match popLoop s none s.stack type with
          | none => none
          | some (s', type) => if type ≠ [] then some (s', some .unmatched) else contextDirective pop strict s' (restToks rest)
        else contextDirective pop strict (pushLoop s type) (restToks rest) := by
  rw [contextDirective.eq_def]
  rcases rest with _ | ⟨t1, _ | ⟨t2, r⟩⟩
  · rfl
  · cases t1 <;> rfl
  · cases t1 <;> rfl

theorem push_dir (n : Nat) : ∀ (strict : Bool) (toks : List Tok) (s : St) (a : Abs), toks.length ≤ n → Sim s a →
    ∃ s' e, contextDirective false strict s toks = some (s', e) ∧ Sim s' (a.pushAll (operands strict toks).1) ∧
      e.isNone = (operands strict toks).2 ∧ s'.m = s.m := by
  induction n with
  | zero =>
    intro strict toks s a hn h
    have : toks = [] := List.length_eq_zero_iff.1 (by omega)
    subst this
    exact ⟨s, none, rfl, by simpa [operands, Abs.pushAll] using h, rfl, rfl⟩
  | succ n ih =>
    intro strict toks s a hn h
    rcases toks with _ | ⟨t, rest⟩
    · exact ⟨s, none, rfl, by simpa [operands, Abs.pushAll] using h, rfl, rfl⟩
    · cases t with
      | comma => exact ⟨s, some .syntaxError, rfl, by simpa [operands, Abs.pushAll] using h, rfl, rfl⟩
      | other => exact ⟨s, some .syntaxError, rfl, by simpa [operands, Abs.pushAll] using h, rfl, rfl⟩
      | id name =>
        rw [directive_id, operands_id]
        cases hk : kinds name with
        | none => exact ⟨s, some .syntaxError, rfl, by simpa [Abs.pushAll] using h, rfl, rfl⟩
        | some ks =>
          simp only
          by_cases hs : strict ∧ ks = [.alignment]
          · rw [if_pos hs, if_pos hs]
            exact ⟨s, some .syntaxError, rfl, by simpa [Abs.pushAll] using h, rfl, rfl⟩
          · rw [if_neg hs, if_neg hs]
            simp only [Bool.false_eq_true, if_false]
            obtain ⟨hp, hm⟩ := pushLoop_sim ks h
            have hl := restToks_length rest
            simp only [List.length_cons] at hn
            obtain ⟨s', e, e1, e2, e3, e4⟩ := ih strict (restToks rest) _ _ (by omega) hp
            exact ⟨s', e, e1, by simpa [Abs.pushAll] using e2, e3, by rw [e4, hm]⟩

theorem pop_dir (n : Nat) : ∀ (strict : Bool) (toks : List Tok) (s : St) (a : Abs), toks.length ≤ n → Sim s a →
    ∃ s' e, contextDirective true strict s toks = some (s', e) ∧ Sim s' (a.popAll (operands strict toks).1).1 ∧
      e.isNone = ((a.popAll (operands strict toks).1).2 && (operands strict toks).2) := by
  induction n with
  | zero =>
    intro strict toks s a hn h
    have : toks = [] := List.length_eq_zero_iff.1 (by omega)
    subst this
    exact ⟨s, none, rfl, by simpa [operands, Abs.popAll] using h, rfl⟩
  | succ n ih =>
    intro strict toks s a hn h
    rcases toks with _ | ⟨t, rest⟩
    · exact ⟨s, none, rfl, by simpa [operands, Abs.popAll] using h, rfl⟩
    · cases t with
      | comma => exact ⟨s, some .syntaxError, rfl, by simpa [operands, Abs.popAll] using h, rfl⟩
      | other => exact ⟨s, some .syntaxError, rfl, by simpa [operands, Abs.popAll] using h, rfl⟩
      | id name =>
        rw [directive_id, operands_id]
        cases hk : kinds name with
        | none => exact ⟨s, some .syntaxError, rfl, by simpa [Abs.popAll] using h, rfl⟩
        | some ks =>
          simp only
          by_cases hs : strict ∧ ks = [.alignment]
          · rw [if_pos hs, if_pos hs]
            exact ⟨s, some .syntaxError, rfl, by simpa [Abs.popAll] using h, rfl⟩
          · rw [if_neg hs, if_neg hs]
            simp only [if_true]
            obtain ⟨s1, t, e1, e2, e3⟩ := pop_sim ks h
            rw [e1]
            simp only
            by_cases ht : t = []
            · have hne := e3.1 ht
              rw [if_neg (by simp [ht])]
              have hl := restToks_length rest
              simp only [List.length_cons] at hn
              obtain ⟨s', e, f1, f2, f3⟩ := ih strict (restToks rest) _ _ (by omega) e2
              refine ⟨s', e, f1, ?_, ?_⟩
              · simp only [Abs.popAll]; rw [if_pos hne]; exact f2
              · simp only [Abs.popAll]; rw [if_pos hne]; exact f3
            · have hne : ¬ ∀ k ∈ ks, a.saved k ≠ [] := fun q => ht (e3.2 q)
              rw [if_pos (by simpa using ht)]
              refine ⟨s1, some .unmatched, rfl, ?_, ?_⟩
              · simp only [Abs.popAll]; rw [if_neg hne]; exact e2
              · simp only [Abs.popAll]; rw [if_neg hne]; rfl

theorem step_sim {s : St} {a : Abs} (op : Op) (h : Sim s a) :
    ∃ s', step s op = some (s', (a.step op).2) ∧ Sim s' (a.step op).1 := by
  cases op with
  | set m =>
    obtain ⟨items, ⟨l, fr, h1⟩, h2, h3⟩ := h
    refine ⟨{ s with m := m }, rfl, items, ⟨l, fr, h1⟩, h2, ?_⟩
    simp only [Abs.step, absOf, ← h3]
  | push strict toks =>
    obtain ⟨s', e, e1, e2, e3, -⟩ := push_dir _ strict toks s a (le_refl _) h
    exact ⟨s', by simp [step, e1, Abs.step, e3], e2⟩
  | pop strict toks =>
    obtain ⟨s', e, e1, e2, e3⟩ := pop_dir _ strict toks s a (le_refl _) h
    exact ⟨s', by simp [step, e1, Abs.step, e3], e2⟩

theorem run_sim (ops : List Op) : ∀ {s : St} {a : Abs}, Sim s a →
    ∃ s', run s ops = some (s', (a.run ops).2) ∧ Sim s' (a.run ops).1 := by
  induction ops with
  | nil => intro s a h; exact ⟨s, rfl, h⟩
  | cons op ops ih =>
    intro s a h
    obtain ⟨s1, e1, e2⟩ := step_sim op h
    obtain ⟨s2, f1, f2⟩ := ih e2
    refine ⟨s2, ?_, f2⟩
    simp only [run, e1, f1, Abs.run, Option.bind_eq_bind, Option.bind_some, pure]

/-- The state at the start of a module. -/
def init (m : Module) (heap : Nat → Node) : St := { m, heap, stack := none, free := none, brk := 0 }

theorem init_sim (m : Module) (heap : Nat → Node) : Sim (init m heap) ⟨look m, fun _ => []⟩ :=
  ⟨[], ⟨[], [], rfl, rfl, rfl, by simp, by simp⟩, by simp, rfl⟩

/-- C31: for every program, on any contents of unused memory: the loops end, the directives report an error exactly if the
machine with one stack for each kind of settings does (a missing item or a wrong operand), and after the program all settings are
those of that machine. -/
theorem C31_refines_stacks (m : Module) (heap : Nat → Node) (ops : List Op) :
    ∃ s, run (init m heap) ops = some (s, (Abs.run ⟨look m, fun _ => []⟩ ops).2) ∧
      look s.m = (Abs.run ⟨look m, fun _ => []⟩ ops).1.cur := by
  obtain ⟨s, h1, items, -, -, h2⟩ := run_sim ops (init_sim m heap)
  exact ⟨s, h1, by rw [← h2]; rfl⟩

/-! ### Balanced programs -/

theorem pushAll_saved (k : Kind) (ops : List (List Kind)) : ∀ (a : Abs), ∃ p', (a.pushAll ops).saved k = p' ++ a.saved k ∧
    p'.length = ops.countP (k ∈ ·) := by
  induction ops with
  | nil => intro a; exact ⟨[], rfl, rfl⟩
  | cons ks ops ih =>
    intro a
    obtain ⟨p', h1, h2⟩ := ih (a.push ks)
    have e : a.pushAll (ks :: ops) = (a.push ks).pushAll ops := rfl
    rw [e]
    by_cases hk : k ∈ ks
    · refine ⟨p' ++ [a.cur k], ?_, ?_⟩
      · rw [h1]; simp [Abs.push, hk]
      · simp [List.countP_cons, hk, h2]
    · refine ⟨p', ?_, ?_⟩
      · rw [h1]; simp [Abs.push, hk]
      · simp [List.countP_cons, hk, h2]

theorem popAll_saved (k : Kind) (ops : List (List Kind)) : ∀ (a : Abs) (p base : List Setting), (a.popAll ops).2 = true →
    a.saved k = p ++ base → ops.countP (k ∈ ·) ≤ p.length →
    (a.popAll ops).1.saved k = p.drop (ops.countP (k ∈ ·)) ++ base := by
  induction ops with
  | nil => intro a p base _ h _; simpa [Abs.popAll] using h
  | cons ks ops ih =>
    intro a p base hok h hl
    simp only [Abs.popAll] at hok ⊢
    split at hok
    · rename_i hne
      rw [if_pos hne]
      by_cases hk : k ∈ ks
      · have hc : (ks :: ops).countP (k ∈ ·) = ops.countP (k ∈ ·) + 1 := by simp [List.countP_cons, hk]
        rw [hc] at hl ⊢
        cases p with
        | nil => simp at hl
        | cons x p =>
          rw [ih (a.pop ks) p base hok (by simp [Abs.pop, hk, h]) (by simpa using hl)]
          rfl
      · have hc : (ks :: ops).countP (k ∈ ·) = ops.countP (k ∈ ·) := by simp [List.countP_cons, hk]
        rw [hc] at hl ⊢
        exact ih (a.pop ks) p base hok (by simp [Abs.pop, hk, h]) hl
    · exact absurd hok (by simp)

theorem step_saved {k : Kind} {a : Abs} {op : Op} {p base : List Setting} (hok : (a.step op).2 = true) (h : a.saved k = p ++ base)
    (hd : 0 ≤ (p.length : Int) + op.delta k) :
    ∃ p', (a.step op).1.saved k = p' ++ base ∧ (p'.length : Int) = p.length + op.delta k := by
  cases op with
  | set m => exact ⟨p, h, by simp [Op.delta]⟩
  | push strict toks =>
    obtain ⟨p', h1, h2⟩ := pushAll_saved k (operands strict toks).1 a
    refine ⟨p' ++ p, ?_, ?_⟩
    · simp only [Abs.step]; rw [h1, h, List.append_assoc]
    · simp only [Op.delta, List.length_append, ← h2]; push_cast; ring
  | pop strict toks =>
    simp only [Abs.step, Bool.and_eq_true] at hok
    simp only [Op.delta] at hd
    have := popAll_saved k (operands strict toks).1 a p base hok.1 h (by omega)
    refine ⟨_, this, ?_⟩
    simp only [Op.delta, List.length_drop]
    omega

theorem run_saved {k : Kind} (ops : List Op) : ∀ {a : Abs} {p base : List Setting}, (∀ f ∈ (a.run ops).2, f = true) → a.saved k = p ++ base →
    (∀ n ≤ ops.length, 0 ≤ (p.length : Int) + ((ops.take n).map (Op.delta k)).sum) →
    ∃ p', (a.run ops).1.saved k = p' ++ base ∧ (p'.length : Int) = p.length + (ops.map (Op.delta k)).sum := by
  induction ops with
  | nil => intro a p base _ h _; exact ⟨p, h, by simp⟩
  | cons op ops ih =>
    intro a p base hok h hd
    simp only [Abs.run, List.mem_cons, forall_eq_or_imp] at hok ⊢
    have h1 := hd 1 (by simp)
    simp only [List.take_succ_cons, List.take_zero, List.map_cons, List.map_nil, List.sum_cons, List.sum_nil, add_zero] at h1
    obtain ⟨p1, e1, e2⟩ := step_saved hok.1 h h1
    obtain ⟨p2, f1, f2⟩ := ih hok.2 e1 (by
      intro n hn
      have := hd (n + 1) (by simpa using hn)
      simp only [List.take_succ_cons, List.map_cons, List.sum_cons] at this
      rw [e2]; linarith)
    refine ⟨p2, f1, ?_⟩
    rw [f2, e2, List.map_cons, List.sum_cons]; ring

theorem run_append (ops1 ops2 : List Op) : ∀ (a : Abs), (a.run (ops1 ++ ops2)).1 = ((a.run ops1).1.run ops2).1 ∧
    (a.run (ops1 ++ ops2)).2 = (a.run ops1).2 ++ ((a.run ops1).1.run ops2).2 := by
  induction ops1 with
  | nil => intro a; exact ⟨rfl, rfl⟩
  | cons op ops ih =>
    intro a
    simp only [List.cons_append, Abs.run]
    exact ⟨(ih _).1, by rw [(ih _).2]⟩

/-- C31: whatever happened before: `PUSHCONTEXT` of some settings, a program without errors that is balanced for a kind of settings,
and `POPCONTEXT`: this kind of settings is as it was before PUSHCONTEXT. -/
theorem C31_balanced (m : Module) (heap : Nat → Node) (before body : List Op) {s0 s1 : St} {f0 f1 : List Bool} {strict1 strict2 : Bool}
    {toks1 toks2 : List Tok} {ks1 ks2 : List Kind} {k : Kind}
    (h0 : run (init m heap) before = some (s0, f0))
    (h1 : run s0 (.push strict1 toks1 :: body ++ [.pop strict2 toks2]) = some (s1, f1)) (hok : ∀ f ∈ f1, f = true)
    (hp1 : operands strict1 toks1 = ([ks1], true)) (hp2 : operands strict2 toks2 = ([ks2], true)) (hk1 : k ∈ ks1) (hk2 : k ∈ ks2)
    (hb : Balanced k body) :
    look s1.m k = look s0.m k := by
  obtain ⟨s0', e0, sim0⟩ := run_sim before (init_sim m heap)
  rw [h0] at e0
  obtain ⟨rfl, -⟩ : s0 = s0' ∧ _ := by simpa using e0
  generalize (Abs.run ⟨look m, fun _ => []⟩ before).1 = a at sim0
  obtain ⟨s1', e1, sim1⟩ := run_sim (.push strict1 toks1 :: body ++ [.pop strict2 toks2]) sim0
  rw [h1] at e1
  obtain ⟨rfl, rfl⟩ : s1 = s1' ∧ f1 = _ := by simpa using e1
  have c0 : look s0.m = a.cur := by obtain ⟨_, _, _, h⟩ := sim0; rw [← h]; rfl
  have c1 : look s1.m = (a.run (.push strict1 toks1 :: body ++ [.pop strict2 toks2])).1.cur := by
    obtain ⟨_, _, _, h⟩ := sim1; rw [← h]; rfl
  rw [c0, c1]
  obtain ⟨r1, r2⟩ := run_append (.push strict1 toks1 :: body) [.pop strict2 toks2] a
  rw [List.cons_append] at r2
  rw [r2] at hok
  rw [r1]
  have hs : (a.run (.push strict1 toks1 :: body)).1 = ((a.step (.push strict1 toks1)).1.run body).1 := rfl
  have hs2 : (a.run (.push strict1 toks1 :: body)).2 = (a.step (.push strict1 toks1)).2 :: ((a.step (.push strict1 toks1)).1.run body).2 := rfl
  rw [hs2, hs] at hok
  rw [hs]
  have hpush : (a.step (.push strict1 toks1)).1 = a.push ks1 := by simp [Abs.step, hp1, Abs.pushAll]
  rw [hpush] at hok ⊢
  have hsv : (a.push ks1).saved k = [] ++ (a.cur k :: a.saved k) := by simp [Abs.push, hk1]
  obtain ⟨p', q1, q2⟩ := run_saved body (fun f hf => hok f (by simp [hf])) hsv (by simpa using hb.2)
  rw [hb.1] at q2
  have : p' = [] := List.length_eq_zero_iff.1 (by simpa using q2)
  subst this
  simp only [List.nil_append] at q1
  generalize ((a.push ks1).run body).1 = b at q1 hok
  have hfin : (b.step (.pop strict2 toks2)).2 = true := hok _ (by simp [Abs.run])
  simp only [Abs.run, Abs.step, hp2, Abs.popAll] at hfin ⊢
  split at hfin
  · rename_i hne
    rw [if_pos hne]
    simp [Abs.pop, hk2, q1]
  · simp at hfin

/-- C31: POPCONTEXT of settings which were not saved is an error. -/
theorem C31_unmatched (m : Module) (heap : Nat → Node) (ops : List Op) {s : St} {f : List Bool} {strict : Bool} {toks : List Tok}
    {ks : List Kind} {k : Kind} (hr : run (init m heap) ops = some (s, f)) (hok : ∀ b ∈ f, b = true)
    (hp : operands strict toks = ([ks], true)) (hk : k ∈ ks) (hb : Balanced k ops) :
    ∃ s', contextDirective true strict s toks = some (s', some .unmatched) := by
  obtain ⟨s0', e0, sim0⟩ := run_sim ops (init_sim m heap)
  rw [hr] at e0
  obtain ⟨rfl, rfl⟩ : s = s0' ∧ f = _ := by simpa using e0
  obtain ⟨p', q1, q2⟩ := run_saved (k := k) (p := []) (base := []) ops hok rfl (by simpa using hb.2)
  rw [hb.1] at q2
  have : p' = [] := List.length_eq_zero_iff.1 (by simpa using q2)
  subst this
  generalize (Abs.run ⟨look m, fun _ => []⟩ ops).1 = a at *
  obtain ⟨s', e, e1, -, e3⟩ := pop_dir _ strict toks s a (le_refl _) sim0
  rw [hp] at e3
  have hno : ¬ ∀ k ∈ ks, a.saved k ≠ [] := fun h => h k hk (by simpa using q1)
  simp only [Abs.popAll, if_neg hno, Bool.false_and] at e3
  rw [e1]
  -- the only error besides a wrong operand
  rcases toks with _ | ⟨t, rest⟩
  · simp [operands] at hp
  · cases t with
    | comma => simp [operands] at hp
    | other => simp [operands] at hp
    | id name =>
      rw [directive_id] at e1
      rw [operands_id] at hp
      cases hkn : kinds name with
      | none => simp [hkn] at hp
      | some ks' =>
        simp only [hkn] at hp e1
        by_cases hs : strict ∧ ks' = [.alignment]
        · simp [hs] at hp
        · rw [if_neg hs] at hp e1
          simp only [if_true] at e1
          have hks : ks' = ks := by simp only [Prod.mk.injEq, List.cons.injEq] at hp; exact hp.1.1
          subst hks
          obtain ⟨s2, t, g1, -, g3⟩ := pop_sim ks' sim0
          rw [g1] at e1
          simp only at e1
          have : t ≠ [] := fun q => hno (g3.1 q)
          rw [if_pos this] at e1
          simp only [Option.some.injEq, Prod.mk.injEq] at e1
          exact ⟨s', by rw [← e1.2]⟩

/-! ### The saved state for the following passes -/

theorem chain_seg {h : Nat → Node} : ∀ {n : Nat} {p : Option Nat} {l : List Nat}, Seg h p l none → l.length ≤ n →
    chain h n p = l.map (fun a => (h a).data) := by
  intro n
  induction n with
  | zero => intro p l _ hl; rw [List.length_eq_zero_iff.1 (by omega : l.length = 0)]; rfl
  | succ n ih =>
    intro p l hs hl
    cases l with
    | nil => simp only [Seg] at hs; subst hs; rfl
    | cons a l =>
      simp only [Seg] at hs
      obtain ⟨rfl, hs⟩ := hs
      simp only [chain, List.map_cons]
      rw [ih hs (by simpa using hl)]

theorem saveState_rep {s : St} {items : List Data} (h : Rep s items) : saveState s = items := by
  obtain ⟨l, fr, h1, h2, h3, h4, h5⟩ := h
  rw [← h2]
  apply chain_seg h1
  have hsub : l ⊆ List.range s.brk := fun a ha => List.mem_range.2 (h5 a (by simp [ha]))
  have := (List.subperm_of_subset (List.nodup_append.1 h4).1 hsub).length_le
  simpa using this

theorem restoreState_rep (saved : List Data) {s : St} {items : List Data} (h : Rep s items) :
    Rep (restoreState s saved) (saved ++ items) ∧ (restoreState s saved).m = s.m := by
  have e : ∀ s : St, restoreState s saved = saved.reverse.foldl insertNode s := fun s => rfl
  rw [e]
  rw [show saved ++ items = saved.reverse.reverse ++ items by simp]
  generalize saved.reverse = l
  induction l generalizing s items with
  | nil => exact ⟨h, rfl⟩
  | cons d l ih =>
    obtain ⟨i1, i2⟩ := ih (insertNode_rep d h)
    refine ⟨?_, by rw [List.foldl_cons, i2, insertNode_m]⟩
    rw [List.foldl_cons]
    simpa using i1

/-- C31, following passes: the state was saved somewhere in pass 1, another program ran, and left nothing on the stacks; then the
restored stacks are those at the time when they were saved. -/
theorem C31_saved_state {s s' : St} {a a' : Abs} (h : Sim s a) (h' : Sim s' a') (he : ∀ k, a'.saved k = []) :
    Sim (restoreState s' (saveState s)) { a' with saved := a.saved } := by
  obtain ⟨items, h1, h2, h3⟩ := h
  obtain ⟨items', h1', h2', h3'⟩ := h'
  have hnil : items' = [] := by
    cases items' with
    | nil => rfl
    | cons d ds =>
      have := he d.kind
      rw [← h3'] at this
      simp [absOf, stackOf_cons] at this
  subst hnil
  rw [saveState_rep h1]
  obtain ⟨r1, r2⟩ := restoreState_rep items h1'
  refine ⟨items, by simpa using r1, h2, ?_⟩
  rw [r2, ← h3, ← h3']
  rfl

/-! ### @Cpu -/

/-- The symbol @Cpu, if it exists, shows the cpu of the module. -/
def Module.cpuOk (m : Module) : Prop := ∀ v, m.symCpu = some v → v = m.cpu

theorem restore_cpuOk {m : Module} (d : Data) (h : m.cpuOk) : (restore m d).cpuOk := by
  unfold Module.cpuOk at *
  cases d <;> simp_all [restore]

theorem popItems_cpuOk (items : List Data) : ∀ {m : Module} (t : List Kind), m.cpuOk → (popItems m items t).1.cpuOk := by
  induction items with
  | nil => intro m t h; exact h
  | cons d ds ih =>
    intro m t h
    unfold popItems
    split
    · exact h
    · split
      · exact ih t h
      · exact ih _ (restore_cpuOk d h)

theorem pop_dir_cpuOk (n : Nat) : ∀ (strict : Bool) (toks : List Tok) {s s' : St} {a : Abs} {e : Option Err}, toks.length ≤ n → Sim s a →
    s.m.cpuOk → contextDirective true strict s toks = some (s', e) → s'.m.cpuOk := by
  induction n with
  | zero =>
    intro strict toks s s' a e hn _ h hr
    have : toks = [] := List.length_eq_zero_iff.1 (by omega)
    subst this
    simp only [contextDirective, Option.some.injEq, Prod.mk.injEq] at hr
    rw [← hr.1]; exact h
  | succ n ih =>
    intro strict toks s s' a e hn hs h hr
    rcases toks with _ | ⟨t, rest⟩
    · simp only [contextDirective, Option.some.injEq, Prod.mk.injEq] at hr; rw [← hr.1]; exact h
    · cases t with
      | comma => simp only [contextDirective, Option.some.injEq, Prod.mk.injEq] at hr; rw [← hr.1]; exact h
      | other => simp only [contextDirective, Option.some.injEq, Prod.mk.injEq] at hr; rw [← hr.1]; exact h
      | id name =>
        rw [directive_id] at hr
        cases hk : kinds name with
        | none => simp only [hk, Option.some.injEq, Prod.mk.injEq] at hr; rw [← hr.1]; exact h
        | some ks =>
          simp only [hk] at hr
          split at hr
          · simp only [Option.some.injEq, Prod.mk.injEq] at hr; rw [← hr.1]; exact h
          · simp only [if_true] at hr
            obtain ⟨items, h1, h2, h3⟩ := hs
            obtain ⟨s1, e1, e2, e3⟩ := popLoop_rep ks h1
            have hm : s1.m.cpuOk := by rw [e2]; exact popItems_cpuOk _ _ h
            rw [e1] at hr
            simp only at hr
            split at hr
            · simp only [Option.some.injEq, Prod.mk.injEq] at hr; rw [← hr.1]; exact hm
            · have hl := restToks_length rest
              simp only [List.length_cons] at hn
              exact ih strict _ (by omega) ⟨_, e3, (popItems_abs items s.m ks h2).2.1, rfl⟩ hm hr

/-- C31: if @Cpu shows the cpu after every other directive, it does after every program. -/
theorem C31_cpu_symbol (m : Module) (heap : Nat → Node) (ops : List Op) (hm : m.cpuOk) (ho : ∀ m', .set m' ∈ ops → m'.cpuOk) {s : St}
    {f : List Bool} (hr : run (init m heap) ops = some (s, f)) : s.m.cpuOk := by
  have : ∀ (ops : List Op) {s0 : St} {a : Abs} {s : St} {f : List Bool}, Sim s0 a → s0.m.cpuOk → (∀ m', .set m' ∈ ops → m'.cpuOk) →
      run s0 ops = some (s, f) → s.m.cpuOk := by
    intro ops
    induction ops with
    | nil => intro s0 a s f _ h _ hr; simp only [run, Option.some.injEq, Prod.mk.injEq] at hr; rw [← hr.1]; exact h
    | cons op ops ih =>
      intro s0 a s f hs h ho hr
      obtain ⟨s1, e1, e2⟩ := step_sim op hs
      have h1 : s1.m.cpuOk := by
        cases op with
        | set m' =>
          simp only [step, Option.some.injEq, Prod.mk.injEq] at e1
          rw [← e1.1]; exact ho m' (by simp)
        | push strict toks =>
          obtain ⟨s', e, g1, -, -, g4⟩ := push_dir _ strict toks s0 a (le_refl _) hs
          simp only [step, g1, Option.map_some, Option.some.injEq, Prod.mk.injEq] at e1
          rw [← e1.1, g4]; exact h
        | pop strict toks =>
          simp only [step, Option.map_eq_some_iff] at e1
          obtain ⟨⟨s', e⟩, g1, g2⟩ := e1
          simp only [Prod.mk.injEq] at g2
          rw [← g2.1]
          exact pop_dir_cpuOk _ strict toks (le_refl _) hs h g1
      simp only [run, e1, Option.bind_eq_bind, Option.bind_some, Option.bind_eq_some_iff] at hr
      obtain ⟨⟨s2, f2⟩, g1, g2⟩ := hr
      simp only [pure, Option.some.injEq, Prod.mk.injEq] at g2
      rw [← g2.1]
      exact ih e2 h1 (fun m' hm' => ho m' (by simp [hm'])) g1
  exact this ops (init_sim m heap) hm ho hr

/-! ### Examples and findings -/

def m0 : Module where
  seg := fun _ => ⟨none, 0, false⟩
  std := fun _ => ⟨false, 0⟩
  syms := fun _ => ⟨⟨0, 0, 0, 0, 0⟩, 0, false, 0⟩
  radix := 10
  fieldalign := 0
  procalign := 0
  listing := ⟨0, true, true, false, false⟩
  cpu := 0x1
  currCpu := 0
  symCpu := some 1
  defOfssize := 0

/-- `PUSHCONTEXT ALL`, `.RADIX 16`, `PUSHCONTEXT RADIX, CPU`, `.RADIX 2`, `POPCONTEXT RADIX, CPU`, `POPCONTEXT ALL`,
`POPCONTEXT ALL`: the last one is an error. -/
def prog : List Op := [
  .push false [.id "ALL"], .set { m0 with radix := 16 }, .push false [.id "RADIX", .comma, .id "CPU"], .set { m0 with radix := 2 },
  .pop false [.id "RADIX", .comma, .id "CPU"], .pop false [.id "ALL"], .pop false [.id "ALL"]]

example : (Abs.run ⟨look m0, fun _ => []⟩ prog).2 = [true, true, true, true, true, true, false] := by decide +kernel
example : Balanced .radix ((prog.drop 1).take 4) := by unfold Balanced; decide +kernel
example : operands false [.id "ALL"] = ([[.assumes, .radix, .listing, .cpu]], true) := by decide +kernel
example : operands true [.id "ALIGNMENT"] = ([], false) := by decide +kernel
example : m0.cpuOk := by intro v h; simp [m0] at h; simp [m0, h]

/-- Finding: `ASSUME ebx:DWORD`, `PUSHCONTEXT ASSUMES`, `ASSUME bx:WORD`, `POPCONTEXT ASSUMES`: the size of the type of EBX, which
`TYPE ebx` gives (expreval.c 1808-1812), stays that of the second ASSUME. -/
theorem C31_finding_total_size (ti ti2 : TypeInfo) (m : Module) (i : Fin 16) (n1 n2 : Nat)
    (ha : (m.std i).assumed = true) (hm : m.syms i = ⟨ti, n1, false, 1⟩) (m2 : Module) (hm2 : m2.syms i = ⟨ti2, n2, false, 1⟩) :
    (restore m2 (save m .assumes)).syms i = ⟨ti, n2, false, 1⟩ := by
  simp [restore, save, ha, hm, hm2]

/-- Finding: outside of memory models the cpu directives set the default offset size too (cpumodel.c 428-435), which isn't saved:
after `.386`, `PUSHCONTEXT CPU`, `.8086`, `POPCONTEXT CPU` the cpu is a 386 but new segments are 16-bit. -/
theorem C31_finding_ofssize (m m2 : Module) : (restore m2 (save m .cpu)).cpu = m.cpu ∧
    (restore m2 (save m .cpu)).currCpu = m.currCpu ∧ (restore m2 (save m .cpu)).defOfssize = m2.defOfssize := ⟨rfl, rfl, rfl⟩

end Verif.Context
