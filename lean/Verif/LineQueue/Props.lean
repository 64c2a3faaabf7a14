import Verif.LineQueue.Spec
/-! # Property theorems: queue of generated lines (C10) -/
namespace Verif.LineQueue

variable {σ L : Type}

/-- `p` is the head of a NULL terminated chain of the nodes `as` that hold the lines `ls`. -/
inductive Chain (h : Nat → Option (Node L)) : Nat → List Nat → List L → Prop
  | nil : Chain h 0 [] []
  | cons (p n l as ls) : p ≠ 0 → h p = some ⟨n, l⟩ → Chain h n as ls → Chain h p (p :: as) (l :: ls)

/-- `MemAlloc` returns a non-NULL pointer to memory that is not in use (or does not return at all). -/
def AllocOk (alloc : (Nat → Option (Node L)) → Nat) : Prop := ∀ h, alloc h ≠ 0 ∧ h (alloc h) = none

/-- The queue represented by a machine state, with its nodes `as`; `F` are the nodes of enclosing `RunLineQueue` calls. -/
structure Rep (s : St σ L) (a : Abs σ L) (as F : List Nat) : Prop where
  chain : Chain s.heap s.head as a.queue
  tail : as ≠ [] → as.getLast? = some s.tail
  nodup : as.Nodup
  disj : ∀ x ∈ as, x ∉ F
  dom : ∀ x, s.heap x ≠ none ↔ x ∈ as ∨ x ∈ F
  env : s.env = a.env
  log : s.log = a.log
  added : s.added = a.added

theorem Chain.congr {h h' : Nat → Option (Node L)} {p as ls} (c : Chain h p as ls) (e : ∀ x ∈ as, h' x = h x) : Chain h' p as ls := by
  induction c with
  | nil => exact .nil
  | cons p n l as ls hp hh _ ih =>
    exact .cons p n l as ls hp (by rw [e p (by simp), hh]) (ih (fun x hx => e x (by simp [hx])))

theorem Chain.zero {h : Nat → Option (Node L)} {p as ls} (c : Chain h p as ls) : p = 0 ↔ as = [] := by
  cases c <;> simp_all

theorem Chain.ls_nil {h : Nat → Option (Node L)} {p as ls} (c : Chain h p as ls) : p = 0 ↔ ls = [] := by
  cases c <;> simp_all

theorem Chain.append {h : Nat → Option (Node L)} {p as ls} (c : Chain h p as ls) (t : Nat) (new : Nat) (l : L) (n : Node L)
    (ht : as.getLast? = some t) (hn : h t = some n) (nd : as.Nodup) (h0 : new ≠ 0) (hnew : new ∉ as) :
    Chain (setHeap (setHeap h new (some ⟨0, l⟩)) t (some ⟨new, n.line⟩)) p (as ++ [new]) (ls ++ [l]) := by
  induction c with
  | nil => simp at ht
  | cons p nx ln as ls hp hh hc ih =>
    cases as with
    | nil =>
      simp at ht
      subst ht
      rw [hh] at hn; cases hn
      cases hc
      simp only [List.cons_append, List.nil_append]
      refine .cons _ new _ _ _ hp (by simp [setHeap]) (.cons _ 0 _ _ _ h0 ?_ .nil)
      simp at hnew
      simp [setHeap, hnew]
    | cons b as =>
      have ht' : (b :: as).getLast? = some t := by simpa [List.getLast?_cons] using ht
      have htm : t ∈ b :: as := List.mem_of_getLast? ht'
      simp only [List.nodup_cons] at nd
      have := ih ht' (by simpa using nd.2) (by simp at hnew ⊢; exact hnew.2)
      simp only [List.cons_append]
      refine .cons _ nx _ _ _ hp ?_ this
      have e1 : p ≠ t := by rintro rfl; exact nd.1 htm
      have e2 : p ≠ new := by rintro rfl; simp at hnew
      simp [setHeap, e1, e2, hh]

theorem add_rep (alloc : (Nat → Option (Node L)) → Nat) (ha : AllocOk alloc) (s : St σ L) (a : Abs σ L) (as F : List Nat) (l : L)
    (r : Rep s a as F) : ∃ s' as', addLine alloc s l = .ok s' ∧
      Rep s' { a with queue := a.queue ++ [l], added := a.added ++ [l] } as' F ∧ (∀ x ∈ F, s'.heap x = s.heap x) := by
  obtain ⟨h0, hfree⟩ := ha s.heap
  have hnd : alloc s.heap ∉ as := fun h => (r.dom _).mpr (.inl h) hfree
  have hnf : alloc s.heap ∉ F := fun h => (r.dom _).mpr (.inr h) hfree
  unfold addLine
  generalize alloc s.heap = new at *
  by_cases hh : s.head = 0
  · have has : as = [] := r.chain.zero.mp hh
    have hq : a.queue = [] := r.chain.ls_nil.mp hh
    subst has
    simp only [hh, if_true]
    refine ⟨_, [new], rfl, ⟨?_, ?_, ?_, ?_, ?_, r.env, r.log, by simp [r.added]⟩, ?_⟩
    · simp only [hq, List.nil_append]
      exact .cons _ 0 _ _ _ h0 (by simp [setHeap]) .nil
    · simp
    · simp
    · simpa using hnf
    · intro x
      simp only [setHeap]
      have := r.dom x
      simp only [List.not_mem_nil, false_or] at this
      by_cases e : x = new
      · simp [e]
      · simp [e, this]
    · intro x hx
      have : x ≠ new := by rintro rfl; exact hnf hx
      simp [setHeap, this]
  · have has : as ≠ [] := fun e => hh (r.chain.zero.mpr e)
    have ht := r.tail has
    have htm : s.tail ∈ as := List.mem_of_getLast? ht
    have htn : s.tail ≠ new := by rintro e; rw [e] at htm; exact hnd htm
    have hts : ∃ n, s.heap s.tail = some n := Option.ne_none_iff_exists'.mp ((r.dom _).mpr (.inl htm))
    obtain ⟨n, hn⟩ := hts
    simp only [hh, if_false]
    have e1 : setHeap s.heap new (some ⟨0, l⟩) s.tail = some n := by simp [setHeap, htn, hn]
    rw [e1]
    refine ⟨_, as ++ [new], rfl, ⟨r.chain.append _ _ _ _ ht hn r.nodup h0 hnd, ?_, ?_, ?_, ?_, r.env, r.log, by simp [r.added]⟩, ?_⟩
    · simp
    · rw [List.nodup_append]
      refine ⟨r.nodup, by simp, ?_⟩
      intro x hx y hy
      simp at hy; subst hy
      rintro rfl; exact hnd hx
    · intro x hx
      rcases List.mem_append.mp hx with h | h
      · exact r.disj x h
      · simp at h; subst h; exact hnf
    · intro x
      simp only [setHeap]
      have := r.dom x
      by_cases e : x = s.tail
      · simp [e, htm]
      · by_cases e' : x = new
        · simp [e']; rw [if_neg (Ne.symm htn)]; simp
        · simp [e, e', this]
    · intro x hx
      have e1 : x ≠ new := by rintro rfl; exact hnf hx
      have e2 : x ≠ s.tail := by rintro rfl; exact r.disj _ htm hx
      simp [setHeap, e1, e2]

theorem del_rep (fuel : Nat) (s : St σ L) (curr : Nat) (as F : List Nat) (ls : List L)
    (hc : Chain s.heap curr as ls) (nd : as.Nodup) (hd : ∀ x ∈ as, x ∉ F) (hdom : ∀ x, s.heap x ≠ none ↔ x ∈ as ∨ x ∈ F) :
    delLoop fuel curr s = .timeout ∨ ∃ s', delLoop fuel curr s = .ok s' ∧ s'.head = 0 ∧ (∀ x, s'.heap x ≠ none ↔ x ∈ F) ∧
      (∀ x ∈ F, s'.heap x = s.heap x) ∧ s'.env = s.env ∧ s'.log = s.log ∧ s'.added = s.added := by
  induction fuel generalizing s curr as ls with
  | zero => left; simp [delLoop]
  | succ fuel ih =>
    unfold delLoop
    cases hc with
    | nil => right; simp only [if_true]; refine ⟨_, rfl, rfl, ?_, by simp, rfl, rfl, rfl⟩; simpa using hdom
    | cons p n l as ls hp hh hc =>
      simp only [hp, if_false, hh]
      simp only [List.nodup_cons] at nd
      have hpf : curr ∉ F := hd curr (by simp)
      have c1 : Chain (freeNode s curr).heap n as ls := by
        refine hc.congr fun x hx => ?_
        have : x ≠ curr := by rintro rfl; exact nd.1 hx
        simp [freeNode, setHeap, this]
      have c2 : ∀ x, (freeNode s curr).heap x ≠ none ↔ x ∈ as ∨ x ∈ F := by
        intro x
        simp only [freeNode, setHeap]
        by_cases e : x = curr
        · subst e; simp [nd.1, hpf]
        · have := hdom x
          simp [e, this]
      rcases ih (freeNode s curr) n as ls c1 nd.2 (fun x hx => hd x (by simp [hx])) c2 with h | ⟨s', h1, h2, h3, h4, h5, h6, h7⟩
      · exact .inl h
      · refine .inr ⟨s', h1, h2, h3, ?_, h5, h6, h7⟩
        intro x hx
        rw [h4 x hx]
        have : x ≠ curr := by rintro rfl; exact hpf hx
        simp [freeNode, setHeap, this]

/-- The simulation: no fault, and the result is one the specification allows. -/
theorem sim (alloc : (Nat → Option (Node L)) → Nat) (ha : AllocOk alloc) (beh : L → Prog σ L) (fuel : Nat) :
    (∀ (p : Prog σ L) (s : St σ L) (a : Abs σ L) (as F : List Nat), Rep s a as F →
      exec alloc beh fuel p s = .timeout ∨ ∃ s' a' as', exec alloc beh fuel p s = .ok s' ∧ Rep s' a' as' F ∧
        (∀ x ∈ F, s'.heap x = s.heap x) ∧ Does beh p a a') ∧
    (∀ (s : St σ L) (a : Abs σ L) (as F : List Nat), Rep s a as F →
      runQueue alloc beh fuel s = .timeout ∨ ∃ s' a' as', runQueue alloc beh fuel s = .ok s' ∧ Rep s' a' as' F ∧
        (∀ x ∈ F, s'.heap x = s.heap x) ∧ Runs beh a.queue { a with queue := [] } a') ∧
    (∀ (s : St σ L) (a : Abs σ L) (as F : List Nat) (curr : Nat) (cs : List Nat) (ls : List L),
      Rep s a as (cs ++ F) → Chain s.heap curr cs ls → cs.Nodup → (∀ x ∈ cs, x ∉ F) →
      runLoop alloc beh fuel curr s = .timeout ∨ ∃ s' a' as', runLoop alloc beh fuel curr s = .ok s' ∧ Rep s' a' as' F ∧
        (∀ x ∈ F, s'.heap x = s.heap x) ∧ Runs beh ls a a') := by
  induction fuel with
  | zero => simp [exec, runQueue, runLoop]
  | succ fuel ih =>
    obtain ⟨ih1, ih2, ih3⟩ := ih
    refine ⟨?_, ?_, ?_⟩
    · intro p s a as F r
      cases p with
      | done => right; exact ⟨s, a, as, by simp [exec], r, fun _ _ => rfl, .done a⟩
      | upd f k =>
        simp only [exec]
        rcases ih1 k { s with env := f s.env } { a with env := f a.env } as F
          ⟨r.chain, r.tail, r.nodup, r.disj, r.dom, by simp [r.env], r.log, r.added⟩ with h | ⟨s', a', as', h1, h2, h3, h4⟩
        · exact .inl h
        · exact .inr ⟨s', a', as', h1, h2, h3, .upd _ _ _ _ h4⟩
      | add f k =>
        simp only [exec]
        obtain ⟨s1, as1, e1, r1, f1⟩ := add_rep alloc ha s a as F (f s.env) r
        rw [e1]; simp only [Res.bind]
        rcases ih1 k s1 _ as1 F r1 with h | ⟨s', a', as', h1, h2, h3, h4⟩
        · exact .inl h
        · refine .inr ⟨s', a', as', h1, h2, fun x hx => (h3 x hx).trans (f1 x hx), .add _ _ _ _ ?_⟩
          have := r.env; rw [this] at h4; exact h4
      | run k =>
        simp only [exec]
        rcases ih2 s a as F r with h | ⟨s1, a1, as1, h1, h2, h3, h4⟩
        · left; rw [h]; rfl
        · rw [h1]; simp only [Res.bind]
          rcases ih1 k s1 a1 as1 F h2 with h | ⟨s', a', as', g1, g2, g3, g4⟩
          · exact .inl h
          · exact .inr ⟨s', a', as', g1, g2, fun x hx => (g3 x hx).trans (h3 x hx), .run _ _ _ _ h4 g4⟩
      | runIf k =>
        simp only [exec]
        split
        · rcases ih2 s a as F r with h | ⟨s1, a1, as1, h1, h2, h3, h4⟩
          · left; rw [h]; rfl
          · rw [h1]; simp only [Res.bind]
            rcases ih1 k s1 a1 as1 F h2 with h | ⟨s', a', as', g1, g2, g3, g4⟩
            · exact .inl h
            · exact .inr ⟨s', a', as', g1, g2, fun x hx => (g3 x hx).trans (h3 x hx), .runIf _ _ _ _ h4 g4⟩
        · rename_i hh
          have hq : a.queue = [] := r.chain.ls_nil.mp (by simpa using hh)
          rcases ih1 k s a as F r with h | ⟨s', a', as', g1, g2, g3, g4⟩
          · exact .inl h
          · refine .inr ⟨s', a', as', g1, g2, g3, .runIf _ _ a _ ?_ g4⟩
            rw [hq]
            have : ({ a with queue := [] } : Abs σ L) = a := by cases a; simp_all
            rw [this]; exact .nil a
      | del k =>
        simp only [exec]
        rcases del_rep fuel s s.head as F a.queue r.chain r.nodup r.disj r.dom with h | ⟨s1, h1, h2, h3, h4, h5, h6, h7⟩
        · left; rw [h]; rfl
        · rw [h1]; simp only [Res.bind]
          rcases ih1 k s1 { a with queue := [] } [] F
            ⟨by rw [h2]; exact .nil, by simp, by simp, by simp, by simpa using h3, by simp [h5, r.env], by simp [h6, r.log], by simp [h7, r.added]⟩ with h | ⟨s', a', as', g1, g2, g3, g4⟩
          · exact .inl h
          · exact .inr ⟨s', a', as', g1, g2, fun x hx => (g3 x hx).trans (h4 x hx), .del _ _ _ g4⟩
      | branch c p q =>
        simp only [exec]
        split
        · rename_i hc
          rcases ih1 p s a as F r with h | ⟨s', a', as', g1, g2, g3, g4⟩
          · exact .inl h
          · exact .inr ⟨s', a', as', g1, g2, g3, .branchT _ _ _ _ _ (by rw [← r.env]; exact hc) g4⟩
        · rename_i hc
          rcases ih1 q s a as F r with h | ⟨s', a', as', g1, g2, g3, g4⟩
          · exact .inl h
          · exact .inr ⟨s', a', as', g1, g2, g3, .branchF _ _ _ _ _ (by rw [← r.env]; simpa using hc) g4⟩
    · intro s a as F r
      simp only [runQueue]
      exact ih3 { s with head := 0 } { a with queue := [] } [] F s.head as a.queue
        ⟨.nil, by simp, by simp, by simp, by simpa using r.dom, r.env, r.log, r.added⟩ r.chain r.nodup r.disj
    · intro s a as F curr cs ls r hc nd hd
      unfold runLoop
      cases hc with
      | nil => right; exact ⟨s, a, as, by simp, by simpa using r, fun _ _ => rfl, .nil a⟩
      | cons p n l cs ls hp hh hc =>
        simp only [hp, if_false, hh]
        simp only [List.nodup_cons] at nd
        have hpf : curr ∉ F := hd curr (by simp)
        have hpas : ∀ x ∈ as, x ≠ curr := by
          intro x hx e; subst e; exact r.disj _ hx (by simp)
        have rr : Rep { (freeNode s curr) with log := (freeNode s curr).log ++ [l] } { a with log := a.log ++ [l] } as (cs ++ F) := by
          refine ⟨r.chain.congr ?_, r.tail, r.nodup, ?_, ?_, r.env, by simp [freeNode, r.log], r.added⟩
          · intro x hx; simp [freeNode, setHeap, hpas x hx]
          · intro x hx h; exact r.disj x hx (by simp at h ⊢; exact .inr h)
          · intro x
            have := r.dom x
            simp only [freeNode, setHeap]
            by_cases e : x = curr
            · subst e
              simp only [if_true, ne_eq, not_true, false_iff, List.mem_append, not_or]
              exact ⟨fun h => hpas _ h rfl, nd.1, hpf⟩
            · simp only [e, if_false, this, List.cons_append, List.mem_cons, false_or]
        rcases ih1 (beh l) _ _ as (cs ++ F) rr with h | ⟨s1, a1, as1, h1, h2, h3, h4⟩
        · left; rw [h]; rfl
        · rw [h1]; simp only [Res.bind]
          have hch : Chain s1.heap n cs ls := by
            refine hc.congr fun x hx => ?_
            rw [h3 x (by simp [hx])]
            have : x ≠ curr := by rintro rfl; exact nd.1 hx
            simp [freeNode, setHeap, this]
          rcases ih3 s1 a1 as1 F n cs ls h2 hch nd.2 (fun x hx => hd x (by simp [hx])) with h | ⟨s', a', as', g1, g2, g3, g4⟩
          · exact .inl h
          · refine .inr ⟨s', a', as', g1, g2, ?_, .cons _ _ _ _ _ h4 g4⟩
            intro x hx
            rw [g3 x hx, h3 x (by simp [hx])]
            have : x ≠ curr := by rintro rfl; exact hpf hx
            simp [freeNode, setHeap, this]

theorem free_rep (s : St σ L) (a : Abs σ L) (as F : List Nat) (curr n : Nat) (cs : List Nat) (l : L)
    (r : Rep s a as (curr :: cs ++ F)) (_hh : s.heap curr = some ⟨n, l⟩) (nd : curr ∉ cs) (hpf : curr ∉ F) :
    Rep { (freeNode s curr) with log := (freeNode s curr).log ++ [l] } { a with log := a.log ++ [l] } as (cs ++ F) ∧
    ∀ x ∈ F, (freeNode s curr).heap x = s.heap x := by
  have hpas : ∀ x ∈ as, x ≠ curr := by
    intro x hx e; subst e; exact r.disj _ hx (by simp)
  refine ⟨⟨r.chain.congr ?_, r.tail, r.nodup, ?_, ?_, r.env, by simp [freeNode, r.log], r.added⟩, ?_⟩
  · intro x hx; simp [freeNode, setHeap, hpas x hx]
  · intro x hx h; exact r.disj x hx (by simp at h ⊢; exact .inr h)
  · intro x
    have := r.dom x
    simp only [freeNode, setHeap]
    by_cases e : x = curr
    · subst e
      simp only [if_true, ne_eq, not_true, false_iff, List.mem_append, not_or]
      exact ⟨fun h => hpas _ h rfl, nd, hpf⟩
    · simp only [e, if_false, this, List.cons_append, List.mem_cons, false_or]
  · intro x hx
    have : x ≠ curr := by rintro rfl; exact hpf hx
    simp [freeNode, setHeap, this]

theorem del_mono (fuel curr : Nat) (s : St σ L) (h : delLoop fuel curr s ≠ .timeout) : delLoop (fuel + 1) curr s = delLoop fuel curr s := by
  induction fuel generalizing curr s with
  | zero => simp [delLoop] at h
  | succ fuel ih =>
    rw [delLoop]
    conv => rhs; rw [delLoop]
    rw [delLoop] at h
    split
    · rfl
    · rename_i hc
      rw [if_neg hc] at h
      split
      · rfl
      · rename_i n hn
        rw [hn] at h
        exact ih _ _ h

theorem bind_mono {α β : Type} {x y : Res α} {f g : α → Res β} (hx : x ≠ .timeout → y = x)
    (hf : ∀ a, f a ≠ .timeout → g a = f a) (h : x.bind f ≠ .timeout) : y.bind g = x.bind f := by
  cases x with
  | ok a => rw [hx (by simp)]; exact hf a h
  | fault => rw [hx (by simp)]; rfl
  | timeout => exact absurd rfl h

theorem mono (alloc : (Nat → Option (Node L)) → Nat) (beh : L → Prog σ L) (fuel : Nat) :
    (∀ (p : Prog σ L) (s : St σ L), exec alloc beh fuel p s ≠ .timeout → exec alloc beh (fuel + 1) p s = exec alloc beh fuel p s) ∧
    (∀ (s : St σ L), runQueue alloc beh fuel s ≠ .timeout → runQueue alloc beh (fuel + 1) s = runQueue alloc beh fuel s) ∧
    (∀ (c : Nat) (s : St σ L), runLoop alloc beh fuel c s ≠ .timeout → runLoop alloc beh (fuel + 1) c s = runLoop alloc beh fuel c s) := by
  induction fuel with
  | zero => simp [exec, runQueue, runLoop]
  | succ fuel ih =>
    obtain ⟨ih1, ih2, ih3⟩ := ih
    refine ⟨?_, ?_, ?_⟩
    · intro p s h
      cases p with
      | done => simp [exec]
      | upd f k => rw [exec] at h ⊢; rw [ih1 _ _ h]; rw [exec]
      | add f k =>
        rw [exec] at h ⊢; conv => rhs; rw [exec]
        exact bind_mono (fun _ => rfl) (fun a => ih1 k a) h
      | run k =>
        rw [exec] at h ⊢; conv => rhs; rw [exec]
        exact bind_mono (ih2 s) (fun a => ih1 k a) h
      | runIf k =>
        rw [exec] at h ⊢; conv => rhs; rw [exec]
        split
        · rename_i hc; rw [if_pos hc] at h
          exact bind_mono (ih2 s) (fun a => ih1 k a) h
        · rename_i hc; rw [if_neg hc] at h
          exact ih1 _ _ h
      | del k =>
        rw [exec] at h ⊢; conv => rhs; rw [exec]
        exact bind_mono (del_mono _ _ _) (fun a => ih1 k a) h
      | branch c p q =>
        rw [exec] at h ⊢; conv => rhs; rw [exec]
        split
        · rename_i hc; rw [if_pos hc] at h; exact ih1 _ _ h
        · rename_i hc; rw [if_neg hc] at h; exact ih1 _ _ h
    · intro s h
      rw [runQueue] at h ⊢; rw [ih3 _ _ h, runQueue]
    · intro c s h
      rw [runLoop] at h ⊢; conv => rhs; rw [runLoop]
      split
      · rfl
      · rename_i hc
        rw [if_neg hc] at h
        split
        · rfl
        · rename_i n hn
          rw [hn] at h
          exact bind_mono (ih1 _ _) (fun a => ih3 _ a) h

theorem mono_exec (alloc : (Nat → Option (Node L)) → Nat) (beh : L → Prog σ L) (p : Prog σ L) (s s' : St σ L) (f d : Nat)
    (h : exec alloc beh f p s = .ok s') : exec alloc beh (f + d) p s = .ok s' := by
  induction d with
  | zero => exact h
  | succ d ih => rw [← Nat.add_assoc, (mono alloc beh (f + d)).1 p s (by rw [ih]; simp), ih]

theorem mono_queue (alloc : (Nat → Option (Node L)) → Nat) (beh : L → Prog σ L) (s s' : St σ L) (f d : Nat)
    (h : runQueue alloc beh f s = .ok s') : runQueue alloc beh (f + d) s = .ok s' := by
  induction d with
  | zero => exact h
  | succ d ih => rw [← Nat.add_assoc, (mono alloc beh (f + d)).2.1 s (by rw [ih]; simp), ih]

theorem mono_loop (alloc : (Nat → Option (Node L)) → Nat) (beh : L → Prog σ L) (c : Nat) (s s' : St σ L) (f d : Nat)
    (h : runLoop alloc beh f c s = .ok s') : runLoop alloc beh (f + d) c s = .ok s' := by
  induction d with
  | zero => exact h
  | succ d ih => rw [← Nat.add_assoc, (mono alloc beh (f + d)).2.2 c s (by rw [ih]; simp), ih]

theorem del_fuel (fuel : Nat) (s : St σ L) (curr : Nat) (as : List Nat) (ls : List L) (hc : Chain s.heap curr as ls) (nd : as.Nodup)
    (hf : as.length < fuel) : delLoop fuel curr s ≠ .timeout := by
  induction fuel generalizing s curr as ls with
  | zero => omega
  | succ fuel ih =>
    rw [delLoop]
    cases hc with
    | nil => simp
    | cons p n l as ls hp hh hc =>
      simp only [hp, if_false, hh]
      simp only [List.nodup_cons] at nd
      refine ih _ n as ls (hc.congr fun x hx => ?_) nd.2 (by simp at hf; omega)
      have : x ≠ curr := by rintro rfl; exact nd.1 hx
      simp [freeNode, setHeap, this]

theorem det (beh : L → Prog σ L) (p : Prog σ L) (a b : Abs σ L) (h : Does beh p a b) : ∀ c, Does beh p a c → b = c := by
  refine Does.rec (motive_1 := fun p a b _ => ∀ c, Does beh p a c → b = c) (motive_2 := fun ls a b _ => ∀ c, Runs beh ls a c → b = c)
    ?_ ?_ ?_ ?_ ?_ ?_ ?_ ?_ ?_ ?_ h
  · intro a c h; cases h; rfl
  · intro f k a a' _ ih c h; cases h; exact ih _ (by assumption)
  · intro f k a a' _ ih c h; cases h; exact ih _ (by assumption)
  · intro k a b a' _ _ ih1 ih2 c h
    cases h with
    | run _ _ b' _ h1 h2 => cases ih1 _ h1; exact ih2 _ h2
  · intro k a b a' _ _ ih1 ih2 c h
    cases h with
    | runIf _ _ b' _ h1 h2 => cases ih1 _ h1; exact ih2 _ h2
  · intro k a a' _ ih c h; cases h; exact ih _ (by assumption)
  · intro cc p q a a' hc _ ih c h
    cases h with
    | branchT _ _ _ _ _ _ h2 => exact ih _ h2
    | branchF _ _ _ _ _ h1 _ => rw [hc] at h1; cases h1
  · intro cc p q a a' hc _ ih c h
    cases h with
    | branchF _ _ _ _ _ _ h2 => exact ih _ h2
    | branchT _ _ _ _ _ h1 _ => rw [hc] at h1; cases h1
  · intro a c h; cases h; rfl
  · intro l ls a b a' _ _ ih1 ih2 c h
    cases h with
    | cons _ _ _ b' _ h1 h2 => cases ih1 _ h1; exact ih2 _ h2

theorem sim_det (alloc : (Nat → Option (Node L)) → Nat) (ha : AllocOk alloc) (beh : L → Prog σ L) (fuel : Nat) (p : Prog σ L)
    (s s' : St σ L) (a a' : Abs σ L) (as F : List Nat) (r : Rep s a as F) (hd : Does beh p a a') (h : exec alloc beh fuel p s = .ok s') :
    ∃ as', Rep s' a' as' F ∧ (∀ x ∈ F, s'.heap x = s.heap x) := by
  rcases (sim alloc ha beh fuel).1 p s a as F r with h1 | ⟨s1, a1, as1, h1, h2, h3, h4⟩
  · rw [h1] at h; cases h
  · rw [h1] at h; cases h
    cases det beh p a a1 h4 _ hd
    exact ⟨as1, h2, h3⟩

theorem complete (alloc : (Nat → Option (Node L)) → Nat) (ha : AllocOk alloc) (beh : L → Prog σ L) (p : Prog σ L) (a a' : Abs σ L)
    (h : Does beh p a a') : ∀ (s : St σ L) (as F : List Nat), Rep s a as F → ∃ fuel s' as', exec alloc beh fuel p s = .ok s' ∧
      Rep s' a' as' F ∧ ∀ x ∈ F, s'.heap x = s.heap x := by
  refine Does.rec (motive_1 := fun p a a' _ => ∀ (s : St σ L) (as F : List Nat), Rep s a as F → ∃ fuel s' as', exec alloc beh fuel p s = .ok s' ∧
      Rep s' a' as' F ∧ ∀ x ∈ F, s'.heap x = s.heap x)
    (motive_2 := fun ls a a' _ => ∀ (s : St σ L) (as F : List Nat) (curr : Nat) (cs : List Nat), Rep s a as (cs ++ F) → Chain s.heap curr cs ls →
      cs.Nodup → (∀ x ∈ cs, x ∉ F) → ∃ fuel s' as', runLoop alloc beh fuel curr s = .ok s' ∧
      Rep s' a' as' F ∧ ∀ x ∈ F, s'.heap x = s.heap x)
    ?_ ?_ ?_ ?_ ?_ ?_ ?_ ?_ ?_ ?_ h
  · intro a s as F r; exact ⟨1, s, as, by simp [exec], r, fun _ _ => rfl⟩
  · intro f k a a' _ ih s as F r
    obtain ⟨n, s', as', h1, h2, h3⟩ := ih { s with env := f s.env } as F ⟨r.chain, r.tail, r.nodup, r.disj, r.dom, by simp [r.env], r.log, r.added⟩
    exact ⟨n + 1, s', as', by simpa [exec] using h1, h2, h3⟩
  · intro f k a a' _ ih s as F r
    obtain ⟨s1, as1, e1, r1, f1⟩ := add_rep alloc ha s a as F (f a.env) r
    obtain ⟨n, s', as', h1, h2, h3⟩ := ih s1 as1 F r1
    refine ⟨n + 1, s', as', ?_, h2, fun x hx => (h3 x hx).trans (f1 x hx)⟩
    rw [exec, r.env, e1]; exact h1
  · intro k a b a' _ _ ih1 ih2 s as F r
    obtain ⟨n, s1, as1, h1, h2, h3⟩ := ih1 { s with head := 0 } [] F s.head as
        ⟨.nil, by simp, by simp, by simp, by simpa using r.dom, r.env, r.log, r.added⟩ r.chain r.nodup r.disj
    obtain ⟨m, s', as', g1, g2, g3⟩ := ih2 s1 as1 F h2
    refine ⟨(n + 1 + m) + 1, s', as', ?_, g2, fun x hx => (g3 x hx).trans (h3 x hx)⟩
    have e1 : runQueue alloc beh (n + 1) s = .ok s1 := by rw [runQueue]; exact h1
    rw [exec, mono_queue alloc beh s s1 (n + 1) m e1]
    simp only [Res.bind]
    rw [Nat.add_comm]
    exact mono_exec alloc beh k s1 s' m (n + 1) g1
  · intro k a b a' _ _ ih1 ih2 s as F r
    obtain ⟨n, s1, as1, h1, h2, h3⟩ := ih1 { s with head := 0 } [] F s.head as
        ⟨.nil, by simp, by simp, by simp, by simpa using r.dom, r.env, r.log, r.added⟩ r.chain r.nodup r.disj
    obtain ⟨m, s', as', g1, g2, g3⟩ := ih2 s1 as1 F h2
    refine ⟨(n + 1 + m) + 1, s', as', ?_, g2, fun x hx => (g3 x hx).trans (h3 x hx)⟩
    have e1 : runQueue alloc beh (n + 1) s = .ok s1 := by rw [runQueue]; exact h1
    rw [exec]
    have hk : exec alloc beh (n + 1 + m) k s1 = .ok s' := by
      rw [Nat.add_comm]; exact mono_exec alloc beh k s1 s' m (n + 1) g1
    split
    · rw [mono_queue alloc beh s s1 (n + 1) m e1]
      exact hk
    · rename_i hh
      simp only [ne_eq, Decidable.not_not] at hh
      have : s1 = s := by
        rw [hh] at h1
        cases n with
        | zero => simp [runLoop] at h1
        | succ n => simp [runLoop] at h1; rw [← h1]; cases s; simp_all
      rw [← this]; exact hk
  · intro k a a' _ ih s as F r
    rcases del_rep (as.length + 1) s s.head as F a.queue r.chain r.nodup r.disj r.dom with h | ⟨s1, h1, h2, h3, h4, h5, h6, h7⟩
    · exact absurd h (del_fuel _ s s.head as a.queue r.chain r.nodup (by omega))
    · obtain ⟨n, s', as', g1, g2, g3⟩ := ih s1 [] F
        ⟨by rw [h2]; exact .nil, by simp, by simp, by simp, by simpa using h3, by simp [h5, r.env], by simp [h6, r.log], by simp [h7, r.added]⟩
      refine ⟨(as.length + 1 + n) + 1, s', as', ?_, g2, fun x hx => (g3 x hx).trans (h4 x hx)⟩
      have e1 : delLoop (as.length + 1 + n) s.head s = .ok s1 := by
        clear g1
        induction n with
        | zero => exact h1
        | succ d ihd => rw [← Nat.add_assoc, del_mono _ _ _ (by rw [ihd]; simp), ihd]
      rw [exec, e1]
      simp only [Res.bind]
      rw [Nat.add_comm]
      exact mono_exec alloc beh k s1 s' n _ g1
  · intro c p q a a' hc _ ih s as F r
    obtain ⟨n, s', as', h1, h2, h3⟩ := ih s as F r
    exact ⟨n + 1, s', as', by rw [exec, r.env, hc]; exact h1, h2, h3⟩
  · intro c p q a a' hc _ ih s as F r
    obtain ⟨n, s', as', h1, h2, h3⟩ := ih s as F r
    exact ⟨n + 1, s', as', by rw [exec, r.env, hc]; exact h1, h2, h3⟩
  · intro a s as F curr cs r hc _ _
    cases hc
    exact ⟨1, s, as, by simp [runLoop], by simpa using r, fun _ _ => rfl⟩
  · intro l ls a b a' _ _ ih1 ih2 s as F curr cs r hc nd hd
    cases hc with
    | cons p n l cs ls hp hh hc =>
      simp only [List.nodup_cons] at nd
      obtain ⟨rr, hfr⟩ := free_rep s a as F curr n cs l r hh nd.1 (hd curr (by simp))
      obtain ⟨n1, s1, as1, h1, h2, h3⟩ := ih1 _ as (cs ++ F) rr
      have hch : Chain s1.heap n cs ls := by
        refine hc.congr fun x hx => ?_
        rw [h3 x (by simp [hx])]
        have : x ≠ curr := by rintro rfl; exact nd.1 hx
        simp [freeNode, setHeap, this]
      obtain ⟨n2, s', as', g1, g2, g3⟩ := ih2 s1 as1 F n cs h2 hch nd.2 (fun x hx => hd x (by simp [hx]))
      refine ⟨(n1 + n2) + 1, s', as', ?_, g2, ?_⟩
      · rw [runLoop, if_neg hp, hh]
        simp only
        rw [mono_exec alloc beh _ _ s1 n1 n2 h1]
        simp only [Res.bind]
        rw [Nat.add_comm]
        exact mono_loop alloc beh _ _ _ _ _ g1
      · intro x hx
        rw [g3 x hx, h3 x (by simp [hx])]
        exact hfr x hx

/-- The assembler at start: no nodes, empty queue; `tail` is whatever an earlier module left there. -/
def start (e : σ) (tail : Nat) : St σ L := ⟨fun _ => none, 0, tail, e, [], []⟩

/-- **C10** (refinement) Whatever the lines do - queueing further lines, running or deleting the queue from within a line - no
computation ever touches a node that was freed, and every finished computation did what the abstract queue does: lines are
assembled in the order queued, each completely before the next. The memory in use afterwards is exactly one node per line
still queued. -/
theorem C10_fifo (alloc : (Nat → Option (Node L)) → Nat) (ha : AllocOk alloc) (beh : L → Prog σ L) (fuel : Nat) (p : Prog σ L)
    (e : σ) (tail : Nat) :
    exec alloc beh fuel p (start e tail) ≠ .fault ∧
    ∀ s', exec alloc beh fuel p (start e tail) = .ok s' →
      ∃ a', Does beh p ⟨[], e, [], []⟩ a' ∧ s'.log = a'.log ∧ s'.env = a'.env ∧ s'.added = a'.added ∧
        ∃ as, Chain s'.heap s'.head as a'.queue ∧ as.Nodup ∧ ∀ x, s'.heap x ≠ none ↔ x ∈ as := by
  have r : Rep (start e tail : St σ L) ⟨[], e, [], []⟩ [] [] := ⟨.nil, by simp, by simp, by simp, by simp [start], rfl, rfl, rfl⟩
  rcases (sim alloc ha beh fuel).1 p _ _ _ _ r with h | ⟨s1, a1, as1, h1, h2, _, h4⟩
  · rw [h]; exact ⟨by simp, by simp⟩
  · rw [h1]
    refine ⟨by simp, ?_⟩
    rintro s' ⟨⟩
    exact ⟨a1, h4, h2.log, h2.env, h2.added, as1, h2.chain, h2.nodup, by simpa using h2.dom⟩

/-- **C10** (completeness) Whatever the abstract queue can finish, the linked-list implementation finishes too, with the same
lines assembled in the same order and the same lines left in the queue. -/
theorem C10_complete (alloc : (Nat → Option (Node L)) → Nat) (ha : AllocOk alloc) (beh : L → Prog σ L) (p : Prog σ L)
    (e : σ) (tail : Nat) (a' : Abs σ L) (h : Does beh p ⟨[], e, [], []⟩ a') :
    ∃ fuel s' as, exec alloc beh fuel p (start e tail) = .ok s' ∧ s'.log = a'.log ∧ s'.env = a'.env ∧ Chain s'.heap s'.head as a'.queue := by
  have r : Rep (start e tail : St σ L) ⟨[], e, [], []⟩ [] [] := ⟨.nil, by simp, by simp, by simp, by simp [start], rfl, rfl, rfl⟩
  obtain ⟨f, s', as', h1, h2, _⟩ := complete alloc ha beh p _ _ h _ _ _ r
  exact ⟨f, s', as', h1, h2.log, h2.env, h2.chain⟩

mutual
/-- Actions that never drop the queue. -/
def NoDel : Prog σ L → Prop
  | .done => True
  | .upd _ k => NoDel k
  | .add _ k => NoDel k
  | .run k => NoDel k
  | .runIf k => NoDel k
  | .del _ => False
  | .branch _ p q => NoDel p ∧ NoDel q
end

theorem spec_once (beh : L → Prog σ L) (hb : ∀ l, NoDel (beh l)) :
    (∀ p a a', Does beh p a a' → NoDel p → (a'.log ++ a'.queue).length + a.added.length = (a.log ++ a.queue).length + a'.added.length ∧
      ∀ f : L → Bool, (a'.log ++ a'.queue).countP f + a.added.countP f = (a.log ++ a.queue).countP f + a'.added.countP f) := by
  intro p a a' h
  refine Does.rec (motive_1 := fun p a a' _ => NoDel p → (a'.log ++ a'.queue).length + a.added.length = (a.log ++ a.queue).length + a'.added.length ∧
      ∀ f : L → Bool, (a'.log ++ a'.queue).countP f + a.added.countP f = (a.log ++ a.queue).countP f + a'.added.countP f)
    (motive_2 := fun ls a a' _ => (a'.log ++ a'.queue).length + a.added.length = (a.log ++ a.queue).length + ls.length + a'.added.length ∧
      ∀ f : L → Bool, (a'.log ++ a'.queue).countP f + a.added.countP f = (a.log ++ a.queue).countP f + ls.countP f + a'.added.countP f)
    ?_ ?_ ?_ ?_ ?_ ?_ ?_ ?_ ?_ ?_ h
  · intro a _; simp
  · intro f k a a' _ ih hn; exact ih hn
  · intro f k a a' _ ih hn
    obtain ⟨i1, i2⟩ := ih hn
    refine ⟨by simp at i1 ⊢; omega, fun g => ?_⟩
    have := i2 g
    simp [List.countP_append] at this ⊢; omega
  · intro k a b a' _ _ ih1 ih2 hn
    obtain ⟨i1, i2⟩ := ih1
    obtain ⟨j1, j2⟩ := ih2 hn
    refine ⟨by simp at i1 j1 ⊢; omega, fun g => ?_⟩
    have h1 := i2 g; have h2 := j2 g
    simp [List.countP_append] at h1 h2 ⊢; omega
  · intro k a b a' _ _ ih1 ih2 hn
    obtain ⟨i1, i2⟩ := ih1
    obtain ⟨j1, j2⟩ := ih2 hn
    refine ⟨by simp at i1 j1 ⊢; omega, fun g => ?_⟩
    have h1 := i2 g; have h2 := j2 g
    simp [List.countP_append] at h1 h2 ⊢; omega
  · intro k a a' _ _ hn; exact absurd hn (by simp [NoDel])
  · intro c p q a a' _ _ ih hn; exact ih hn.1
  · intro c p q a a' _ _ ih hn; exact ih hn.2
  · intro a; simp
  · intro l ls a b a' _ _ ih1 ih2
    obtain ⟨i1, i2⟩ := ih1 (hb l)
    obtain ⟨j1, j2⟩ := ih2
    refine ⟨by simp at i1 j1 ⊢; omega, fun g => ?_⟩
    have h1 := i2 g; have h2 := j2 g
    simp [List.countP_append, List.countP_cons] at h1 h2 ⊢; omega

/-- **C10** (each exactly once) If no line drops the queue: every line that was queued has been assembled exactly once, or is
still in the queue - counted with multiplicity for any kind `f` of lines. -/
theorem C10_once (alloc : (Nat → Option (Node L)) → Nat) (ha : AllocOk alloc) (beh : L → Prog σ L) (fuel : Nat) (p : Prog σ L)
    (e : σ) (tail : Nat) (hp : NoDel p) (hb : ∀ l, NoDel (beh l)) (s' : St σ L)
    (h : exec alloc beh fuel p (start e tail) = .ok s') :
    ∃ pending as, Chain s'.heap s'.head as pending ∧ ∀ f : L → Bool, (s'.log ++ pending).countP f = s'.added.countP f := by
  obtain ⟨a', h1, h2, _, h4, as, h5, _, _⟩ := (C10_fifo alloc ha beh fuel p e tail).2 s' h
  refine ⟨a'.queue, as, h5, fun f => ?_⟩
  have := (spec_once beh hb p _ _ h1 hp).2 f
  rw [h2, h4]
  simpa using this

/-- `p` followed by `if ( is_linequeue_populated() ) RunLineQueue();` on every path. -/
inductive EndsWithRun : Prog σ L → Prop
  | done : EndsWithRun (.runIf .done)
  | upd (f k) : EndsWithRun k → EndsWithRun (.upd f k)
  | add (f k) : EndsWithRun k → EndsWithRun (.add f k)
  | run (k) : EndsWithRun k → EndsWithRun (.run k)
  | runIf (k) : EndsWithRun k → EndsWithRun (.runIf k)
  | branch (c p q) : EndsWithRun p → EndsWithRun q → EndsWithRun (.branch c p q)

theorem spec_empty (beh : L → Prog σ L) (hb : ∀ l, EndsWithRun (beh l)) :
    (∀ p a a', Does beh p a a' → EndsWithRun p → a'.queue = []) := by
  intro p a a' h
  suffices (EndsWithRun p → a'.queue = []) ∧ (p = .done → a' = a) from this.1
  refine Does.rec (motive_1 := fun p a a' _ => (EndsWithRun p → a'.queue = []) ∧ (p = .done → a' = a))
    (motive_2 := fun ls a a' _ => a.queue = [] → a'.queue = [])
    ?_ ?_ ?_ ?_ ?_ ?_ ?_ ?_ ?_ ?_ h
  · intro a; exact ⟨fun h => (by cases h), fun _ => rfl⟩
  · intro f k a a' _ ih; exact ⟨fun hn => by cases hn; exact ih.1 (by assumption), fun h => by cases h⟩
  · intro f k a a' _ ih; exact ⟨fun hn => by cases hn; exact ih.1 (by assumption), fun h => by cases h⟩
  · intro k a b a' _ _ ih1 ih2; exact ⟨fun hn => by cases hn; exact ih2.1 (by assumption), fun h => by cases h⟩
  · intro k a b a' _ _ ih1 ih2
    refine ⟨fun hn => ?_, fun h => by cases h⟩
    cases hn with
    | done => rw [ih2.2 rfl]; exact ih1 rfl
    | runIf _ hk => exact ih2.1 hk
  · intro k a a' _ _; exact ⟨fun hn => (by cases hn), fun h => by cases h⟩
  · intro c p q a a' _ _ ih; exact ⟨fun hn => by cases hn; exact ih.1 (by assumption), fun h => by cases h⟩
  · intro c p q a a' _ _ ih; exact ⟨fun hn => by cases hn; exact ih.1 (by assumption), fun h => by cases h⟩
  · intro a h; exact h
  · intro l ls a b a' _ _ ih1 ih2 _; exact ih2 (ih1.1 (hb l))

/-- **C10** (queue empty) If every line, like the code generators do, ends with running what it queued, then after
`RunLineQueue` the queue is empty and no node is left in memory. -/
theorem C10_queue_empty (alloc : (Nat → Option (Node L)) → Nat) (ha : AllocOk alloc) (beh : L → Prog σ L) (fuel : Nat) (p : Prog σ L)
    (e : σ) (tail : Nat) (hp : EndsWithRun p) (hb : ∀ l, EndsWithRun (beh l)) (s' : St σ L)
    (h : exec alloc beh fuel p (start e tail) = .ok s') : s'.head = 0 ∧ ∀ x, s'.heap x = none := by
  obtain ⟨a', h1, _, _, _, as, h5, _, h6⟩ := (C10_fifo alloc ha beh fuel p e tail).2 s' h
  rw [spec_empty beh hb p _ _ h1 hp] at h5
  have hz := h5.ls_nil.mpr rfl
  refine ⟨hz, fun x => ?_⟩
  have := h5.zero.mp hz
  subst this
  have := h6 x
  simpa using this

/-- Queue the lines `ls` in order. -/
def addAll : List L → Prog σ L → Prog σ L
  | [], k => k
  | l :: ls, k => .add (fun _ => l) (addAll ls k)

theorem spec_addAll (beh : L → Prog σ L) (ls : List L) (k : Prog σ L) (a a' : Abs σ L) (h : Does beh (addAll ls k) a a') :
    Does beh k { a with queue := a.queue ++ ls, added := a.added ++ ls } a' := by
  induction ls generalizing a with
  | nil => simpa [addAll] using h
  | cons l ls ih =>
    simp only [addAll] at h
    cases h with
    | add _ _ _ _ h => have := ih _ h; simpa using this

theorem spec_plain (beh : L → Prog σ L) (hb : ∀ l, ∃ f, beh l = .upd f .done) (ls : List L) (a a' : Abs σ L) (h : Runs beh ls a a') :
    a'.log = a.log ++ ls ∧ a'.queue = a.queue := by
  induction ls generalizing a with
  | nil => cases h; simp
  | cons l ls ih =>
    cases h with
    | cons _ _ _ b _ h1 h2 =>
      obtain ⟨f, hf⟩ := hb l
      rw [hf] at h1
      cases h1 with
      | upd _ _ _ _ h1 =>
        cases h1
        have := ih _ h2
        simpa using this

/-- **C10** (plain statement) Queue any lines, then run: if the lines are ordinary instructions, they are assembled in the
order queued, once each, and nothing is left in the queue. -/
theorem C10_plain (alloc : (Nat → Option (Node L)) → Nat) (ha : AllocOk alloc) (beh : L → Prog σ L) (fuel : Nat) (ls : List L)
    (hb : ∀ l, ∃ f, beh l = .upd f .done) (e : σ) (tail : Nat) (s' : St σ L)
    (h : exec alloc beh fuel (addAll ls (.run .done)) (start e tail) = .ok s') :
    s'.log = ls ∧ s'.head = 0 ∧ ∀ x, s'.heap x = none := by
  obtain ⟨a', h1, h2, _, _, as, h5, _, h6⟩ := (C10_fifo alloc ha beh fuel _ e tail).2 s' h
  have h7 := spec_addAll beh ls _ _ _ h1
  cases h7 with
  | run _ _ b _ h8 h9 =>
    cases h9
    obtain ⟨i1, i2⟩ := spec_plain beh hb _ _ _ h8
    simp at i1 i2
    rw [i2] at h5
    have hz := h5.ls_nil.mpr rfl
    refine ⟨by rw [h2, i1], hz, fun x => ?_⟩
    have := h5.zero.mp hz
    subst this
    have := h6 x
    simpa using this

/-- A counting allocator-free instance for the examples: the lowest free address in a finite range is enough here. -/
def demoBeh : Nat → Prog Nat Nat
  | 0 => .add (fun n => n + 10) (.add (fun n => n + 20) (.runIf .done))
  | n => .upd (· + n) (.runIf .done)

/-- Allocator of the example: smallest of the first addresses that is free. -/
def demoAlloc (h : Nat → Option (Node Nat)) : Nat :=
  if (h 1).isNone then 1 else if (h 2).isNone then 2 else if (h 3).isNone then 3 else if (h 4).isNone then 4 else 5

/-- Non-vacuity: a line that generates two further lines is completed before the next queued line, and freed nodes are reused. -/
example : (match exec demoAlloc demoBeh 40 (.add (fun _ => 5) (.add (fun _ => 0) (.add (fun _ => 7) (.run .done)))) (start 0 99) with
    | .ok s => some (s.log, s.head, s.env) | _ => none) = some ([5, 0, 15, 25, 7], 0, 52) := by decide +kernel

end Verif.LineQueue
