import Verif.Passes.Model
import Verif.Align.Props
/-! # Lemmas about the pass loop -/
namespace Verif.Passes
open Verif.Branch

/-- Bytes of a list of chunks. -/
def total (cs : List (List (BitVec 8))) : Nat := cs.flatten.length

theorem itemsN_cons (c q s i is s2 cs) (h : itemsN c q s (i :: is) = .ok (s2, cs)) :
    ∃ s1 bs cs', stepN c q s i = .ok (s1, bs) ∧ itemsN c q s1 is = .ok (s2, cs') ∧ cs = bs :: cs' := by
  unfold itemsN at h
  split at h
  · simp at h
  · rename_i s1 bs h1
    split at h
    · simp at h
    · rename_i s2' cs' h2
      simp only [Except.ok.injEq, Prod.mk.injEq] at h
      obtain ⟨rfl, rfl⟩ := h
      exact ⟨s1, bs, cs', h1, h2, rfl⟩

theorem itemsN_split (c q) (a : List Item) (it : Item) (b : List Item) : ∀ s s3 cs, itemsN c q s (a ++ it :: b) = .ok (s3, cs) →
    ∃ s1 s2 ca bs cb, itemsN c q s a = .ok (s1, ca) ∧ stepN c q s1 it = .ok (s2, bs) ∧ itemsN c q s2 b = .ok (s3, cb) ∧
      cs = ca ++ bs :: cb := by
  induction a with
  | nil =>
    intro s s3 cs h
    obtain ⟨s1, bs, cs', h1, h2, rfl⟩ := itemsN_cons _ _ _ _ _ _ _ h
    exact ⟨s, s1, [], bs, cs', rfl, h1, h2, rfl⟩
  | cons x a ih =>
    intro s s3 cs h
    obtain ⟨s1, bs, cs', h1, h2, rfl⟩ := itemsN_cons _ _ _ _ _ _ _ h
    obtain ⟨t1, t2, ca, bs', cb, g1, g2, g3, rfl⟩ := ih _ _ _ h2
    refine ⟨t1, t2, bs :: ca, bs', cb, ?_, g2, g3, rfl⟩
    rw [itemsN, h1]; simp only [g1]

theorem itemsN_length (c q) (is : List Item) : ∀ s s2 cs, itemsN c q s is = .ok (s2, cs) → cs.length = is.length := by
  induction is with
  | nil => intro s s2 cs h; simp [itemsN] at h; simp [h.2]
  | cons i is ih =>
    intro s s2 cs h
    obtain ⟨s1, bs, cs', h1, h2, rfl⟩ := itemsN_cons _ _ _ _ _ _ _ h
    simp [ih _ _ _ h2]

/-- The three ways an item changes the state. -/
theorem stepN_cases (c q s i s1 bs) (h : stepN c q s i = .ok (s1, bs)) :
    (s1 = s.put bs ∧ (∀ l, i ≠ .label l) ∧ (∀ l fs b, i ≠ .data l fs b)) ∨ (∃ l, i = .label l ∧ bs = [] ∧ s1 = define s l q) ∨
      (∃ l fs, i = .data l fs bs ∧ s1 = (define s l fs).put bs) := by
  cases i with
  | bytes b => simp [stepN] at h; obtain ⟨rfl, rfl⟩ := h; simp
  | label l => simp [stepN] at h; obtain ⟨rfl, rfl⟩ := h; simp
  | data l fs b => simp [stepN] at h; obtain ⟨rfl, rfl⟩ := h; exact Or.inr (Or.inr ⟨l, fs, rfl, rfl⟩)
  | align k => simp [stepN] at h; obtain ⟨rfl, rfl⟩ := h; simp
  | branch b l =>
    simp only [stepN] at h
    split at h
    · simp at h
    · simp at h; obtain ⟨rfl, rfl⟩ := h; simp

theorem stepN_cur (c q s i s1 bs) (h : stepN c q s i = .ok (s1, bs)) : s1.cur = s.cur + BitVec.ofNat 32 bs.length := by
  rcases stepN_cases _ _ _ _ _ _ h with ⟨rfl, _⟩ | ⟨l, _, rfl, rfl⟩ | ⟨l, fs, _, rfl⟩ <;> simp [St.put, define]

theorem itemsN_cur (c q) (is : List Item) : ∀ s s2 cs, itemsN c q s is = .ok (s2, cs) → s2.cur = s.cur + BitVec.ofNat 32 (total cs) := by
  induction is with
  | nil => intro s s2 cs h; simp [itemsN] at h; simp [← h.1, h.2, total]
  | cons i is ih =>
    intro s s2 cs h
    obtain ⟨s1, bs, cs', h1, h2, rfl⟩ := itemsN_cons _ _ _ _ _ _ _ h
    rw [ih _ _ _ h2, stepN_cur _ _ _ _ _ _ h1]
    simp [total, BitVec.ofNat_add, BitVec.add_assoc]

/-- An item that ends without phase error started without one and left all offsets alone. -/
theorem stepN_stable (c q s i s1 bs) (h : stepN c q s i = .ok (s1, bs)) (hp : s1.phase = false) :
    s.phase = false ∧ ∀ l, (s1.labs l).offset = (s.labs l).offset := by
  have key : ∀ l ap, (define s l ap).phase = false → s.phase = false ∧ ∀ m, ((define s l ap).labs m).offset = (s.labs m).offset := by
    intro l ap hd
    simp [define] at hd
    refine ⟨hd.1, ?_⟩
    intro m
    simp only [define, upd]
    split
    · rename_i hm; rw [hm]; exact hd.2.symm
    · rfl
  rcases stepN_cases _ _ _ _ _ _ h with ⟨rfl, _⟩ | ⟨l, _, rfl, rfl⟩ | ⟨l, fs, _, rfl⟩
  · exact ⟨hp, fun _ => rfl⟩
  · exact key _ _ hp
  · exact key _ _ hp

theorem itemsN_stable (c q) (is : List Item) : ∀ s s2 cs, itemsN c q s is = .ok (s2, cs) → s2.phase = false →
    s.phase = false ∧ ∀ l, (s2.labs l).offset = (s.labs l).offset := by
  induction is with
  | nil => intro s s2 cs h hp; simp [itemsN] at h; obtain ⟨rfl, rfl⟩ := h; exact ⟨hp, fun _ => rfl⟩
  | cons i is ih =>
    intro s s2 cs h hp
    obtain ⟨s1, bs, cs', h1, h2, rfl⟩ := itemsN_cons _ _ _ _ _ _ _ h
    obtain ⟨p1, o1⟩ := ih _ _ _ h2 hp
    obtain ⟨p2, o2⟩ := stepN_stable _ _ _ _ _ _ h1 p1
    exact ⟨p2, fun l => (o1 l).trans (o2 l)⟩

/-- Once a code label is met its `asmpass` stays that of the pass. -/
theorem itemsN_met (c q l) (is : List Item) (hd : ∀ fs bs, Item.data l fs bs ∉ is) : ∀ s s2 cs, itemsN c q s is = .ok (s2, cs) →
    (s.labs l).asmpass = q → (s2.labs l).asmpass = q := by
  induction is with
  | nil => intro s s2 cs h hm; simp [itemsN] at h; rw [← h.1]; exact hm
  | cons i is ih =>
    intro s s2 cs h hm
    obtain ⟨s1, bs, cs', h1, h2, rfl⟩ := itemsN_cons _ _ _ _ _ _ _ h
    refine ih (fun fs bs hx => hd fs bs (List.mem_cons_of_mem _ hx)) _ _ _ h2 ?_
    rcases stepN_cases _ _ _ _ _ _ h1 with ⟨rfl, _⟩ | ⟨m, rfl, rfl, rfl⟩ | ⟨m, fs, rfl, rfl⟩
    · exact hm
    · simp only [define, upd]; split
      · rfl
      · exact hm
    · simp only [define, upd, St.put]; split
      · rename_i hlm; subst hlm; exact absurd (List.mem_cons_self ..) (hd fs bs)
      · exact hm

/-! ## Pass 1: every referenced label is defined -/

theorem moveLabs_defined (loc size) (ls : List Nat) : ∀ labs l, (moveLabs labs loc size ls l).defined = (labs l).defined := by
  induction ls with
  | nil => intro labs l; rfl
  | cons m ls ih =>
    intro labs l
    unfold moveLabs
    split
    · rfl
    · rw [ih]; simp only [upd]; split
      · rename_i h; rw [h]
      · rfl

theorem doPatch_defined (c sym s id l) : ((doPatch c sym s id).labs l).defined = (s.labs l).defined := by
  unfold doPatch
  split
  · rfl
  · simp only
    repeat' split
    all_goals first | rfl | exact moveLabs_defined ..

theorem backPatch_defined (c sym s l) : ((backPatch c sym s).labs l).defined = (s.labs l).defined := by
  unfold backPatch
  generalize (s.fixs.filter (·.sym = sym)).map (·.id) = ids
  induction ids generalizing s with
  | nil => rfl
  | cons i ids ih => rw [List.foldl_cons, ih, doPatch_defined]

theorem define1_defined (c s m ap s1) (h : define1 c s m ap = .ok s1) (l) (hl : (s1.labs l).defined = true) :
    (s.labs l).defined = true ∨ l = m := by
  unfold define1 at h
  split at h
  · simp at h
  · simp only [Except.ok.injEq] at h
    subst h
    rw [backPatch_defined] at hl
    simp only [upd] at hl
    split at hl
    · right; assumption
    · left; exact hl

theorem step1_defined (c s i s1) (h : step1 c s i = .ok s1) (l) (hl : (s1.labs l).defined = true) :
    (s.labs l).defined = true ∨ i = .label l ∨ ∃ fs bs, i = .data l fs bs := by
  cases i with
  | bytes b => simp [step1] at h; subst h; exact Or.inl hl
  | align k => simp [step1] at h; subst h; exact Or.inl hl
  | label m =>
    rcases define1_defined _ _ _ _ _ h _ hl with h | rfl
    · exact Or.inl h
    · exact Or.inr (Or.inl rfl)
  | data m fs bs =>
    simp only [step1] at h
    split at h
    · simp at h
    · rename_i s2 h2
      simp only [Except.ok.injEq] at h; subst h
      rcases define1_defined _ _ _ _ _ h2 _ hl with h | rfl
      · exact Or.inl h
      · exact Or.inr (Or.inr ⟨_, _, rfl⟩)
  | branch b m =>
    left
    simp only [step1] at h
    repeat' split at h
    all_goals first | (simp at h; done) | (simp only [Except.ok.injEq] at h; subst h; exact hl)

theorem items1_defined (c) (is : List Item) : ∀ s s1, items1 c s is = .ok s1 → ∀ l, (s1.labs l).defined = true →
    (s.labs l).defined = true ∨ Item.label l ∈ is ∨ ∃ fs bs, Item.data l fs bs ∈ is := by
  induction is with
  | nil => intro s s1 h l hl; simp [items1] at h; subst h; exact Or.inl hl
  | cons i is ih =>
    intro s s1 h l hl
    unfold items1 at h
    split at h
    · simp at h
    · rename_i s2 h2
      rcases ih _ _ h l hl with h3 | h3 | ⟨fs, bs, h3⟩
      · rcases step1_defined _ _ _ _ h2 _ h3 with h4 | rfl | ⟨fs, bs, rfl⟩
        · exact Or.inl h4
        · simp
        · exact Or.inr (Or.inr ⟨fs, bs, by simp⟩)
      · exact Or.inr (Or.inl (List.mem_cons_of_mem _ h3))
      · exact Or.inr (Or.inr ⟨fs, bs, List.mem_cons_of_mem _ h3⟩)

theorem pass1_refs (c prog s) (h : pass1 c prog = .ok s) (b l) (hb : Item.branch b l ∈ prog) :
    Item.label l ∈ prog ∨ ∃ fs bs, Item.data l fs bs ∈ prog := by
  unfold pass1 at h
  split at h
  · simp at h
  · rename_i s1 h1
    split at h
    · rename_i hall
      rw [List.all_eq_true] at hall
      have hm : l ∈ refs prog := by
        unfold refs; rw [List.mem_filterMap]; exact ⟨_, hb, rfl⟩
      rcases items1_defined c prog _ _ h1 l (hall l hm) with h2 | h2
      · simp at h2
      · exact h2
    · simp at h

/-! ## The driver -/

/-- What a finished run is: a pass without phase error. -/
theorem drive_final (c prog p labs prev r) (h : drive c prog p labs prev = some (.ok r)) :
    ∃ p labs s, passN c p labs prog = .ok (s, r.chunks) ∧ s.phase = false := by
  have key : ∀ p labs prev x, drive c prog p labs prev = some x → ∀ r, x = .ok r →
      ∃ p labs s, passN c p labs prog = .ok (s, r.chunks) ∧ s.phase = false := by
    apply drive.partial_correctness c prog (motive := fun p labs prev x => ∀ r, x = .ok r →
      ∃ p labs s, passN c p labs prog = .ok (s, r.chunks) ∧ s.phase = false)
    intro f ih p labs prev x hx r hr
    subst hr
    split at hx
    · simp at hx
    · rename_i s chunks h1
      split at hx
      · rename_i hp
        simp at hx
        subst hx
        exact ⟨p, labs, s, h1, hp.1⟩
      · exact ih _ _ _ _ hx r rfl
  exact key p labs prev _ h r rfl

end Verif.Passes
