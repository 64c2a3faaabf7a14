import Verif.Hll.BlocksComp
/-! The stack of open blocks during a program. -/
namespace Verif.Hll
section
variable {α β S : Type}

def itemLabs (x : Item α β) : List Nat := [x.lstart, x.ltest, x.lexit, x.lcont]
def stackLabs (s : List (Item α β)) : List Nat := s.flatMap itemLabs

/-- The labels of an item are different. -/
def ItemNd (x : Item α β) : Prop :=
  (x.lexit ≠ 0 → x.lexit ≠ x.lstart ∧ x.lexit ≠ x.ltest ∧ x.lexit ≠ x.lcont) ∧ (x.ltest ≠ 0 → x.ltest ≠ x.lstart ∧ x.ltest ≠ x.lcont) ∧
  (x.lcont ≠ 0 → x.lcont ≠ x.lstart ∨ (x.counter = [] ∧ x.condlines = []))

def ItemOk (cnt : Nat) (x : Item α β) : Prop :=
  (x.lstart ≤ cnt ∧ x.ltest ≤ cnt ∧ x.lexit ≤ cnt ∧ x.lcont ≤ cnt) ∧ ItemNd x ∧ (x.cmd ≠ .ifc → x.lstart ≠ 0)

def Inv' (st : HSt α β) : Prop := ∀ x ∈ st.stack, ItemOk st.cnt x

/-- Labels made on demand. -/
structure ItemUpd (c c' : Nat) (x x' : Item α β) : Prop where
  same : x' = { x with lexit := x'.lexit, ltest := x'.ltest, lcont := x'.lcont }
  lexit : x'.lexit = x.lexit ∨ (x.lexit = 0 ∧ c < x'.lexit ∧ x'.lexit ≤ c')
  ltest : x'.ltest = x.ltest ∨ (x.cmd = .repeatc ∧ x.ltest = 0 ∧ c < x'.ltest ∧ x'.ltest ≤ c')
  lcont : x'.lcont = x.lcont ∨ (x.lcont = 0 ∧ c < x'.lcont ∧ x'.lcont ≤ c')
  nd : ItemOk c x → ItemOk c' x'

theorem ItemUpd.refl (c : Nat) (x : Item α β) : ItemUpd c c x x := ⟨rfl, .inl rfl, .inl rfl, .inl rfl, id⟩

theorem ItemOk.mono {c c' : Nat} {x : Item α β} (h : ItemOk c x) (hc : c ≤ c') : ItemOk c' x :=
  ⟨⟨by have := h.1.1; omega, by have := h.1.2.1; omega, by have := h.1.2.2.1; omega, by have := h.1.2.2.2; omega⟩, h.2⟩

theorem ItemUpd.up {c c' c'' : Nat} {x x' : Item α β} (h : ItemUpd c c' x x') (hc : c' ≤ c'') : ItemUpd c c'' x x' :=
  ⟨h.same, by have := h.lexit; omega, h.ltest.imp id (fun h => ⟨h.1, h.2.1, h.2.2.1, by omega⟩), by have := h.lcont; omega, fun hx => (h.nd hx).mono hc⟩

theorem ItemUpd.trans {c0 c1 c2 : Nat} {x y z : Item α β} (h1 : ItemUpd c0 c1 x y) (h2 : ItemUpd c1 c2 y z) (hc : c0 ≤ c1) (hc' : c1 ≤ c2) :
    ItemUpd c0 c2 x z := by
  have hcmd : y.cmd = x.cmd := by rw [h1.same]
  refine ⟨?_, ?_, ?_, ?_, fun h => h2.nd (h1.nd h)⟩
  · have e2 := h2.same
    have e1 := h1.same
    rw [e2]
    conv => lhs; rw [e1]
  · have a := h1.lexit; have b := h2.lexit; omega
  · have a := h1.ltest; have b := h2.ltest; rw [hcmd] at b
    rcases a with a | ⟨a1, a2, a3, a4⟩
    · rcases b with b | ⟨b1, b2, b3, b4⟩
      · exact .inl (by omega)
      · exact .inr ⟨b1, by omega, by omega, by omega⟩
    · rcases b with b | ⟨b1, b2, b3, b4⟩
      · exact .inr ⟨a1, by omega, by omega, by omega⟩
      · exact .inr ⟨a1, by omega, by omega, by omega⟩
  · have a := h1.lcont; have b := h2.lcont; omega

def Upd (c c' : Nat) : List (Item α β) → List (Item α β) → Prop
  | [], s' => s' = []
  | x :: r, s' => (x.cmd = .ifc ∧ ∃ r', s' = x :: r' ∧ Upd c c' r r') ∨ (x.cmd ≠ .ifc ∧ ∃ x', s' = x' :: r ∧ ItemUpd c c' x x')

theorem Upd.refl (c : Nat) (s : List (Item α β)) : Upd c c s s := by
  induction s with
  | nil => rfl
  | cons x r ih =>
    by_cases hx : x.cmd = .ifc
    · exact .inl ⟨hx, r, rfl, ih⟩
    · exact .inr ⟨hx, x, rfl, .refl c x⟩

theorem Upd.up {c c' c'' : Nat} {s s' : List (Item α β)} (h : Upd c c' s s') (hc : c' ≤ c'') : Upd c c'' s s' := by
  induction s generalizing s' with
  | nil => exact h
  | cons x r ih =>
    rcases h with ⟨hx, r', rfl, h⟩ | ⟨hx, x', rfl, h⟩
    · exact .inl ⟨hx, r', rfl, ih h⟩
    · exact .inr ⟨hx, x', rfl, h.up hc⟩

theorem Upd.refl' {c c' : Nat} (h : c ≤ c') (s : List (Item α β)) : Upd c c' s s := (Upd.refl c s).up h

theorem Upd.trans {c0 c1 c2 : Nat} {s s1 s2 : List (Item α β)} (h1 : Upd c0 c1 s s1) (h2 : Upd c1 c2 s1 s2) (hc : c0 ≤ c1) (hc' : c1 ≤ c2) :
    Upd c0 c2 s s2 := by
  induction s generalizing s1 s2 with
  | nil => cases h1; exact h2
  | cons x r ih =>
    rcases h1 with ⟨hx, r', rfl, h1⟩ | ⟨hx, x', rfl, h1⟩
    · rcases h2 with ⟨_, r'', rfl, h2⟩ | ⟨hx', _⟩
      · exact .inl ⟨hx, r'', rfl, ih h1 h2⟩
      · exact absurd hx hx'
    · have hcmd : x'.cmd = x.cmd := by rw [h1.same]
      rcases h2 with ⟨hx', _⟩ | ⟨_, x'', rfl, h2⟩
      · rw [hcmd] at hx'; exact absurd hx' hx
      · exact .inr ⟨hx, x'', rfl, h1.trans h2 hc hc'⟩

def contLab (x : Item α β) : Nat :=
  match x.cmd with
  | .ifc => 0
  | .forc => x.lcont
  | .repeatc => x.ltest
  | .whilec => if x.ltest = 0 then x.lstart else x.ltest

def Compat (x : Item α β) (L : Lbl) : Prop := (x.lexit ≠ 0 → L.brk = x.lexit) ∧ (contLab x ≠ 0 → L.cont = contLab x)

def StackCompat (L : Lbl) : List (Item α β) → Prop
  | [] => True
  | x :: r => (x.cmd = .ifc ∧ StackCompat L r) ∨ (x.cmd ≠ .ifc ∧ Compat x L)

def hasLoop : List (Item α β) → Prop
  | [] => False
  | x :: r => x.cmd ≠ .ifc ∨ hasLoop r

theorem ItemUpd.compat {c c' : Nat} {x x' : Item α β} (h : ItemUpd c c' x x') {L : Lbl} (hL : Compat x' L) : Compat x L := by
  have hcmd : x'.cmd = x.cmd := by rw [h.same]
  have hst : x'.lstart = x.lstart := by rw [h.same]
  have a := h.lexit
  have b := h.ltest
  have d := h.lcont
  refine ⟨fun hx => ?_, fun hx => ?_⟩
  · have := hL.1 (by omega)
    omega
  · have h2 := hL.2
    unfold contLab at hx h2 ⊢
    rw [hcmd, hst] at h2
    cases hk : x.cmd with
    | ifc => rw [hk] at hx; exact absurd rfl hx
    | forc => simp only [hk] at hx h2 ⊢; have := h2 (by omega); omega
    | repeatc => simp only [hk] at hx h2 ⊢; have := h2 (by omega); omega
    | whilec =>
      simp only [hk] at hx h2 ⊢
      have : x'.ltest = x.ltest := by
        rcases b with b | b
        · exact b
        · rw [hk] at b; cases b.1
      rw [this] at h2
      exact h2 hx

theorem Upd.compat {c c' : Nat} {s s' : List (Item α β)} (h : Upd c c' s s') {L : Lbl} (hL : StackCompat L s') : StackCompat L s := by
  induction s generalizing s' with
  | nil => trivial
  | cons x r ih =>
    rcases h with ⟨hx, r', rfl, h⟩ | ⟨hx, x', rfl, h⟩
    · rcases hL with ⟨_, hL⟩ | ⟨hx', _⟩
      · exact .inl ⟨hx, ih h hL⟩
      · exact absurd hx hx'
    · have hcmd : x'.cmd = x.cmd := by rw [h.same]
      rcases hL with ⟨hx', _⟩ | ⟨_, hL⟩
      · rw [hcmd] at hx'; exact absurd hx' hx
      · exact .inr ⟨hx, h.compat hL⟩

theorem Upd.hasLoop {c c' : Nat} {s s' : List (Item α β)} (h : Upd c c' s s') (hl : hasLoop s) : hasLoop s' := by
  induction s generalizing s' with
  | nil => exact hl.elim
  | cons x r ih =>
    rcases h with ⟨hx, r', rfl, h⟩ | ⟨hx, x', rfl, h⟩
    · exact .inr (ih h (hl.resolve_left (fun h => h hx)))
    · exact .inl (by rw [h.same]; exact hx)

theorem stackLabs_cons (x : Item α β) (r : List (Item α β)) (l : Nat) : l ∈ stackLabs (x :: r) ↔ l = x.lstart ∨ l = x.ltest ∨ l = x.lexit ∨
    l = x.lcont ∨ l ∈ stackLabs r := by
  simp [stackLabs, itemLabs, or_assoc]

theorem Upd.labs {c c' : Nat} {s s' : List (Item α β)} (h : Upd c c' s s') {l : Nat} (hl : l ∈ stackLabs s') :
    l ∈ stackLabs s ∨ (c < l ∧ l ≤ c') := by
  induction s generalizing s' with
  | nil => cases h; exact .inl hl
  | cons x r ih =>
    rcases h with ⟨hx, r', rfl, h⟩ | ⟨hx, x', rfl, h⟩
    · rw [stackLabs_cons] at hl ⊢
      rcases hl with hl | hl | hl | hl | hl
      · exact .inl (.inl hl)
      · exact .inl (.inr (.inl hl))
      · exact .inl (.inr (.inr (.inl hl)))
      · exact .inl (.inr (.inr (.inr (.inl hl))))
      · rcases ih h hl with h | h
        · exact .inl (.inr (.inr (.inr (.inr h))))
        · exact .inr h
    · have hst : x'.lstart = x.lstart := by rw [h.same]
      have a := h.lexit
      have b := h.ltest
      have d := h.lcont
      rw [stackLabs_cons] at hl ⊢
      rcases hl with hl | hl | hl | hl | hl
      · exact .inl (.inl (by omega))
      · rcases b with b | b
        · exact .inl (.inr (.inl (by omega)))
        · exact .inr (by omega)
      · rcases a with a | a
        · exact .inl (.inr (.inr (.inl (by omega))))
        · exact .inr (by omega)
      · rcases d with d | d
        · exact .inl (.inr (.inr (.inr (.inl (by omega)))))
        · exact .inr (by omega)
      · exact .inl (.inr (.inr (.inr (.inr hl))))

theorem Upd.inv {c c' : Nat} {s s' : List (Item α β)} (h : Upd c c' s s') (hc : c ≤ c') (hi : Inv' ⟨s, c⟩) : Inv' ⟨s', c'⟩ := by
  induction s generalizing s' with
  | nil => cases h; intro x hx; cases hx
  | cons x r ih =>
    rcases h with ⟨hx, r', rfl, h⟩ | ⟨hx, x', rfl, h⟩
    · intro y hy
      rcases List.mem_cons.1 hy with rfl | hy
      · exact (hi y (by simp)).mono hc
      · exact ih h (fun z hz => hi z (by simp at hz ⊢; exact .inr hz)) y hy
    · intro y hy
      rcases List.mem_cons.1 hy with rfl | hy
      · exact h.nd (hi x (by simp))
      · exact (hi y (by simp at hy ⊢; exact .inr hy)).mono hc

theorem Inv'.labs {st : HSt α β} (h : Inv' st) {l : Nat} (hl : l ∈ stackLabs st.stack) : l ≤ st.cnt := by
  simp only [stackLabs, List.mem_flatMap, itemLabs, List.mem_cons, List.not_mem_nil, or_false] at hl
  obtain ⟨x, hx, hl⟩ := hl
  have := (h x hx).1
  omega

/-! ### Directives -/

theorem runDirs_append {masm : Bool} {st st1 st2 : HSt α β} {a b : List (Dir α β)} {c1 c2 : List (BLine α β)}
    (h1 : runDirs masm st a = some (st1, c1)) (h2 : runDirs masm st1 b = some (st2, c2)) : runDirs masm st (a ++ b) = some (st2, c1 ++ c2) := by
  induction a generalizing st c1 with
  | nil => cases h1; simpa [runDirs] using h2
  | cons d ds ih =>
    simp only [List.cons_append, runDirs] at h1 ⊢
    cases hs : stepDir masm st d with
    | none => rw [hs] at h1; cases h1
    | some x =>
      obtain ⟨sx, lx⟩ := x
      rw [hs] at h1
      simp only [] at h1 ⊢
      cases hr : runDirs masm sx ds with
      | none => rw [hr] at h1; cases h1
      | some y =>
        obtain ⟨sy, ly⟩ := y
        rw [hr] at h1
        simp only [] at h1
        cases h1
        rw [ih hr]
        simp

theorem runDirs_one {masm : Bool} {st st1 : HSt α β} {d : Dir α β} {c1 : List (BLine α β)} (h1 : stepDir masm st d = some (st1, c1)) :
    runDirs masm st [d] = some (st1, c1) := by
  simp [runDirs, h1]

theorem runDirs_cons {masm : Bool} {st st1 st2 : HSt α β} {d : Dir α β} {b : List (Dir α β)} {c1 c2 : List (BLine α β)}
    (h1 : stepDir masm st d = some (st1, c1)) (h2 : runDirs masm st1 b = some (st2, c2)) : runDirs masm st (d :: b) = some (st2, c1 ++ c2) :=
  runDirs_append (runDirs_one h1) h2

theorem onLoop_ok {γ : Type} {f : Item α β → Nat → Option (Item α β × Nat × γ)} {cnt : Nat} {s : List (Item α β)} (hl : hasLoop s)
    (hi : Inv' ⟨s, cnt⟩) (P : Item α β → Nat → γ → Prop)
    (hf : ∀ x, x.cmd ≠ .ifc → ItemOk cnt x → ∃ x' c' g, f x cnt = some (x', c', g) ∧ cnt ≤ c' ∧ ItemUpd cnt c' x x' ∧ P x' c' g) :
    ∃ s' c' g, onLoop f cnt s = some (s', c', g) ∧ cnt ≤ c' ∧ Upd cnt c' s s' ∧
      ∀ L, StackCompat L s' → ∃ x', Compat x' L ∧ x'.cmd ≠ .ifc ∧ P x' c' g := by
  induction s with
  | nil => exact hl.elim
  | cons x r ih =>
    simp only [onLoop]
    by_cases hx : x.cmd = .ifc
    · obtain ⟨s', c', g, h1, h2, h3, h4⟩ := ih (hl.resolve_left (fun h => h hx)) (fun z hz => hi z (by simp at hz ⊢; exact .inr hz))
      rw [if_pos hx, h1]
      refine ⟨x :: s', c', g, rfl, h2, .inl ⟨hx, s', rfl, h3⟩, ?_⟩
      intro L hL
      rcases hL with ⟨_, hL⟩ | ⟨hx', _⟩
      · exact h4 L hL
      · exact absurd hx hx'
    · obtain ⟨x', c', g, h1, h2, h3, h4⟩ := hf x hx (hi x (by simp))
      rw [if_neg hx, h1]
      have hcmd : x'.cmd = x.cmd := by rw [h3.same]
      refine ⟨x' :: r, c', g, rfl, h2, .inr ⟨hx, x', rfl, h3⟩, ?_⟩
      intro L hL
      rcases hL with ⟨hx', _⟩ | ⟨hx', hL⟩
      · rw [hcmd] at hx'; exact absurd hx' hx
      · exact ⟨x', hL, hx', h4⟩

theorem exitLabel_ok (isBreak : Bool) (cnt : Nat) (x : Item α β) (hx : x.cmd ≠ .ifc) (hi : ItemOk cnt x) :
    ∃ x' c' l, exitLabel isBreak x cnt = some (x', c', l) ∧ cnt ≤ c' ∧ ItemUpd cnt c' x x' ∧
      (l = (if isBreak then x'.lexit else contLab x') ∧ l ≠ 0 ∧ l ≤ c') := by
  obtain ⟨⟨b1, b2, b3, b4⟩, ⟨n1, n2, n3⟩, hs⟩ := hi
  have hs := hs hx
  unfold exitLabel
  cases isBreak with
  | true =>
    simp only [if_true]
    by_cases h0 : x.lexit = 0
    · rw [if_pos h0]
      refine ⟨_, _, _, rfl, by omega, ⟨rfl, .inr ⟨h0, by simp, by simp⟩, .inl rfl, .inl rfl, fun _ => ?_⟩, rfl, by simp, by simp⟩
      exact ⟨⟨by simp; omega, by simp; omega, by simp, by simp; omega⟩, ⟨by simp; omega, n2, n3⟩, fun _ => hs⟩
    · rw [if_neg h0]
      exact ⟨_, _, _, rfl, by omega, .refl _ _, rfl, h0, b3⟩
  | false =>
    simp only [Bool.false_eq_true, if_false]
    by_cases hf : x.cmd = .forc
    · rw [if_pos hf]
      by_cases h0 : x.lcont = 0
      · rw [if_pos h0]
        refine ⟨_, _, _, rfl, by omega, ⟨rfl, .inl rfl, .inl rfl, .inr ⟨h0, by simp, by simp⟩, fun _ => ?_⟩, by simp [contLab, hf], by simp, by simp⟩
        exact ⟨⟨by simp; omega, by simp; omega, by simp; omega, by simp⟩, ⟨fun h => ⟨(n1 h).1, (n1 h).2.1, by simp; omega⟩,
          fun h => ⟨(n2 h).1, by simp; omega⟩, fun _ => .inl (by simp; omega)⟩, fun _ => hs⟩
      · rw [if_neg h0]
        exact ⟨_, _, _, rfl, by omega, .refl _ _, by simp [contLab, hf], h0, b4⟩
    · rw [if_neg hf]
      by_cases hr : x.cmd = .repeatc ∧ x.ltest = 0
      · rw [if_pos hr]
        refine ⟨_, _, _, rfl, by omega, ⟨rfl, .inl rfl, .inr ⟨hr.1, hr.2, by simp, by simp⟩, .inl rfl, fun _ => ?_⟩, by simp [contLab, hr.1], by simp, by simp⟩
        exact ⟨⟨by simp; omega, by simp, by simp; omega, by simp; omega⟩, ⟨fun h => ⟨(n1 h).1, by simp; omega, (n1 h).2.2⟩,
          fun h => ⟨by simp; omega, by simp; omega⟩, n3⟩, fun _ => hs⟩
      · rw [if_neg hr]
        refine ⟨_, _, _, rfl, by omega, .refl _ _, ?_, ?_, ?_⟩
        · cases hk : x.cmd with
          | ifc => exact absurd hk hx
          | forc => exact absurd hk hf
          | repeatc => have : x.ltest ≠ 0 := fun h => hr ⟨hk, h⟩; simp [contLab, hk, this]
          | whilec => by_cases ht : x.ltest = 0 <;> simp [contLab, hk, ht]
        · split <;> omega
        · split <;> omega

end
end Verif.Hll
