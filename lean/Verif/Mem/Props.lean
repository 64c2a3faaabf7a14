import Verif.Mem.Model
/-! # Property theorems: local heap (C29) -/
namespace Verif.Mem

/-- Two address ranges (start, length) have no byte in common. -/
def Disjoint (a b : Nat × Nat) : Prop := a.1 + a.2 ≤ b.1 ∨ b.1 + b.2 ≤ a.1

/-- Range `a` lies in range `b`. -/
def Within (a b : Nat × Nat) : Prop := b.1 ≤ a.1 ∧ a.1 + a.2 ≤ b.1 + b.2

/-- Range `a` lies in the OS block `b` behind the pointer at its start that links the blocks. -/
def Usable (a b : Nat × Nat) : Prop := b.1 + 8 ≤ a.1 ∧ a.1 + a.2 ≤ b.1 + b.2

/-- The OS behaves: it returns pointer-aligned memory that does not overlap the blocks handed out before. -/
def OsOk (blocks : List (Nat × Nat)) (os : Nat → Option Nat) : Prop :=
  ∀ n base, os n = some base → base % 8 = 0 ∧ ∀ b ∈ blocks, Disjoint (base, n) b

/-- All OS answers along a history are well behaved with respect to the blocks existing at that time. -/
def HistOk : State → List (BitVec 64 × (Nat → Option Nat)) → Prop
  | _, [] => True
  | s, (n, os) :: t => OsOk s.blocks os ∧ ∀ p s', lclAlloc os s n = some (p, s') → HistOk s' t

theorem seven_bit : ∀ j : Fin 64, 3 ≤ j.1 → (7#64).getLsbD j.1 = false := by decide

theorem roundUp_spec (n : BitVec 64) (h : n.toNat < 2 ^ 32 - 8) :
    (roundUp n).toNat % 8 = 0 ∧ n.toNat ≤ (roundUp n).toNat ∧ (roundUp n).toNat < n.toNat + 8 := by
  have e : roundUp n = ((n + 7#64) >>> 3) <<< 3 := by
    unfold roundUp
    ext i hi
    simp only [BitVec.getElem_and, BitVec.getElem_not, BitVec.getElem_shiftLeft, BitVec.getElem_ushiftRight]
    by_cases h3 : i < 3
    · have : i = 0 ∨ i = 1 ∨ i = 2 := by omega
      rcases this with rfl | rfl | rfl <;> simp
    · have h7 : (7#64)[i] = false := by
        rw [← BitVec.getLsbD_eq_getElem]
        exact seven_bit ⟨i, hi⟩ (by simp; omega)
      rw [h7]
      simp [h3]
      rw [show 3 + (i - 3) = i by omega]
      rw [BitVec.getLsbD_eq_getElem hi]
  rw [e]
  have hn : (n + 7#64).toNat = n.toNat + 7 := by simp [BitVec.toNat_add]; omega
  simp only [BitVec.toNat_shiftLeft, BitVec.toNat_ushiftRight, hn, Nat.shiftRight_eq_div_pow, Nat.shiftLeft_eq]
  omega

/-- Invariant: the free part of the current block lies in an OS block behind everything handed out from it. -/
structure Inv (s : State) (given : List (Nat × Nat)) : Prop where
  align : s.pCurr % 8 = 0
  small : s.currfree < 2 ^ 32
  free : s.currfree = 0 ∨ ∃ b ∈ s.blocks, Usable (s.pCurr, s.currfree) b
  within : ∀ g ∈ given, g.2 = 0 ∨ ∃ b ∈ s.blocks, Usable g b
  blocksDisj : s.blocks.Pairwise Disjoint
  freeDisj : ∀ g ∈ given, g.2 = 0 ∨ s.currfree = 0 ∨ Disjoint g (s.pCurr, s.currfree)

theorem disj_within {a b a' b' : Nat × Nat} (h : Disjoint a b) (ha : Within a' a) (hb : Within b' b) : Disjoint a' b' := by
  unfold Disjoint Within at *; omega

theorem disj_symm {a b : Nat × Nat} (h : Disjoint a b) : Disjoint b a := by unfold Disjoint at *; omega

theorem step_inv (os : Nat → Option Nat) (s : State) (given : List (Nat × Nat)) (n : BitVec 64) (p : Nat) (s' : State)
    (hi : Inv s given) (ho : OsOk s.blocks os) (hn : n.toNat < 2 ^ 32 - 8) (h : lclAlloc os s n = some (p, s')) :
    Inv s' ((p, n.toNat) :: given) ∧ p % 8 = 0 ∧ (n.toNat = 0 ∨ ∃ b ∈ s'.blocks, Usable (p, n.toNat) b) ∧
      (∀ g ∈ given, g.2 = 0 ∨ n.toNat = 0 ∨ Disjoint (p, n.toNat) g) := by
  obtain ⟨r1, r2, r3⟩ := roundUp_spec n hn
  have hsm := hi.small
  have hal := hi.align
  have hcf : (roundUp n).toNat ≤ newFree (roundUp n) ∧ newFree (roundUp n) < 2 ^ 32 ∧ newFree (roundUp n) % 8 = 0 := by
    unfold newFree blkSize ptrSize
    generalize (roundUp n).toNat = z at *
    split
    · omega
    · omega
  unfold lclAlloc at h
  simp only at h
  generalize hsz : (roundUp n).toNat = sz at *
  generalize newFree (roundUp n) = cf at *
  split at h
  · rename_i hlt
    split at h
    · cases h
    · rename_i base hb
      simp only [Option.some.injEq, Prod.mk.injEq] at h
      obtain ⟨rfl, rfl⟩ := h
      obtain ⟨b1, b2⟩ := ho _ _ hb
      have hfree : (cf + 2 ^ 32 - sz % 2 ^ 32) % 2 ^ 32 = cf - sz := by omega
      rw [hfree]
      have hnew : Usable (base + ptrSize, n.toNat) (base, cf + ptrSize) := by
        simp only [Usable, ptrSize]; omega
      have hold : ∀ g ∈ given, g.2 = 0 ∨ Disjoint (base, cf + ptrSize) g := by
        intro g hg
        rcases hi.within g hg with h0 | ⟨b, hb1, hb2⟩
        · exact .inl h0
        · refine .inr (disj_within (b2 b hb1) ?_ ⟨by have := hb2.1; omega, hb2.2⟩)
          simp [Within]
      refine ⟨⟨?_, ?_, ?_, ?_, ?_, ?_⟩, ?_, ?_, ?_⟩
      · simp only [ptrSize]; omega
      · simp only; omega
      · right; refine ⟨_, List.mem_cons_self, ?_⟩
        simp only [Usable, ptrSize]; omega
      · intro g hg
        rcases List.mem_cons.mp hg with rfl | hg
        · exact .inr ⟨_, List.mem_cons_self, hnew⟩
        · rcases hi.within g hg with h0 | ⟨b, hb1, hb2⟩
          · exact .inl h0
          · exact .inr ⟨b, List.mem_cons_of_mem _ hb1, hb2⟩
      · exact List.pairwise_cons.mpr ⟨b2, hi.blocksDisj⟩
      · intro g hg
        rcases List.mem_cons.mp hg with rfl | hg
        · right; right; simp only [Disjoint, ptrSize]; omega
        · rcases hold g hg with h0 | h0
          · exact .inl h0
          · right; right
            refine disj_symm (disj_within h0 ?_ (b' := g) ⟨by omega, by omega⟩)
            simp only [Within, ptrSize]; omega
      · simp only [ptrSize]; omega
      · exact .inr ⟨_, List.mem_cons_self, hnew⟩
      · intro g hg
        rcases hold g hg with h0 | h0
        · exact .inl h0
        · exact .inr (.inr (disj_within h0 ⟨by have := hnew.1; omega, hnew.2⟩ ⟨by omega, by omega⟩))
  · rename_i hge
    simp only [Option.some.injEq, Prod.mk.injEq] at h
    obtain ⟨rfl, rfl⟩ := h
    have hw : n.toNat = 0 ∨ ∃ b ∈ s.blocks, Usable (s.pCurr, n.toNat) b := by
      rcases hi.free with h0 | ⟨b, hb1, hb2⟩
      · left; omega
      · right; refine ⟨b, hb1, ?_⟩
        simp only [Usable] at hb2 ⊢; omega
    refine ⟨⟨?_, ?_, ?_, ?_, hi.blocksDisj, ?_⟩, hal, hw, ?_⟩
    · simp only; omega
    · simp only; omega
    · rcases hi.free with h0 | ⟨b, hb1, hb2⟩
      · left; simp only; omega
      · right; refine ⟨b, hb1, ?_⟩
        simp only [Usable] at hb2 ⊢; omega
    · intro g hg
      rcases List.mem_cons.mp hg with rfl | hg
      · exact hw
      · exact hi.within g hg
    · intro g hg
      rcases List.mem_cons.mp hg with rfl | hg
      · right; right; simp only [Disjoint]; omega
      · rcases hi.freeDisj g hg with h0 | h0 | h0
        · exact .inl h0
        · right; left; simp only; omega
        · right; right; simp only [Disjoint] at h0 ⊢; omega
    · intro g hg
      rcases hi.freeDisj g hg with h0 | h0 | h0
      · exact .inl h0
      · right; left; omega
      · right; right; simp only [Disjoint] at h0 ⊢; omega

theorem blocks_mono (os : Nat → Option Nat) (s : State) (n : BitVec 64) (p : Nat) (s' : State)
    (h : lclAlloc os s n = some (p, s')) : ∀ b ∈ s.blocks, b ∈ s'.blocks := by
  unfold lclAlloc at h
  simp only at h
  split at h
  · split at h
    · cases h
    · simp only [Option.some.injEq, Prod.mk.injEq] at h
      obtain ⟨_, rfl⟩ := h
      intro b hb; exact List.mem_cons_of_mem _ hb
  · simp only [Option.some.injEq, Prod.mk.injEq] at h
    obtain ⟨_, rfl⟩ := h
    exact fun b hb => hb

theorem run_spec (hist : List (BitVec 64 × (Nat → Option Nat))) (s : State) (given : List (Nat × Nat)) (out : List (Nat × Nat)) (s' : State)
    (hi : Inv s given) (hh : HistOk s hist) (hn : ∀ x ∈ hist, x.1.toNat < 2 ^ 32 - 8)
    (h : runAll s hist = some (out, s')) :
    (∀ b ∈ s.blocks, b ∈ s'.blocks) ∧
    (∀ g ∈ out, g.1 % 8 = 0 ∧ (g.2 = 0 ∨ ∃ b ∈ s'.blocks, Usable g b)) ∧
      (∀ g ∈ out, ∀ g' ∈ given, g'.2 = 0 ∨ g.2 = 0 ∨ Disjoint g g') ∧
      out.Pairwise (fun g g' => g.2 = 0 ∨ g'.2 = 0 ∨ Disjoint g g') := by
  induction hist generalizing s given out with
  | nil =>
    simp [runAll] at h
    obtain ⟨rfl, rfl⟩ := h
    simp
  | cons x t ih =>
    obtain ⟨n, os⟩ := x
    simp only [runAll, bind, Option.bind] at h
    split at h
    · cases h
    · rename_i r hr
      obtain ⟨p, s1⟩ := r
      simp only at h
      split at h
      · cases h
      · rename_i r2 hr2
        obtain ⟨l, s2⟩ := r2
        simp only [pure, Option.some.injEq, Prod.mk.injEq] at h
        obtain ⟨rfl, rfl⟩ := h
        obtain ⟨a1, a2, a3, a4⟩ := step_inv os s given n p s1 hi hh.1 (hn (n, os) (by simp)) hr
        obtain ⟨c0, c1, c2, c3⟩ := ih s1 ((p, n.toNat) :: given) l a1 (hh.2 p s1 hr) (fun x hx => hn x (by simp [hx])) hr2
        refine ⟨fun b hb => c0 b (blocks_mono os s n p s1 hr b hb), ?_, ?_, ?_⟩
        · intro g hg
          rcases List.mem_cons.mp hg with rfl | hg
          · refine ⟨a2, ?_⟩
            rcases a3 with h0 | ⟨b, hb1, hb2⟩
            · exact .inl h0
            · exact .inr ⟨b, c0 b hb1, hb2⟩
          · exact c1 g hg
        · intro g hg g' hg'
          rcases List.mem_cons.mp hg with rfl | hg
          · exact a4 g' hg'
          · exact c2 g hg g' (by simp [hg'])
        · refine List.pairwise_cons.mpr ⟨?_, c3⟩
          intro g hg
          have := c2 g hg (p, n.toNat) (by simp)
          rcases this with h | h | h
          · exact .inl h
          · exact .inr (.inl h)
          · exact .inr (.inr (disj_symm h))

/-- **C29** For every history of requests below 4 GB, served from whatever memory the OS hands out: every returned block is
pointer aligned, lies completely inside a block obtained from the OS (behind its link field), and no two returned (nonempty) blocks overlap. -/
theorem C29_blocks_disjoint (hist : List (BitVec 64 × (Nat → Option Nat))) (out : List (Nat × Nat)) (s' : State)
    (hh : HistOk init hist) (hn : ∀ x ∈ hist, x.1.toNat < 2 ^ 32 - 8) (h : runAll init hist = some (out, s')) :
    (∀ g ∈ out, g.1 % 8 = 0 ∧ (g.2 = 0 ∨ ∃ b ∈ s'.blocks, Usable g b)) ∧
      out.Pairwise (fun g g' => g.2 = 0 ∨ g'.2 = 0 ∨ Disjoint g g') := by
  have hi : Inv init [] := ⟨rfl, by decide, .inl rfl, by simp, by simp [init], by simp⟩
  obtain ⟨_, a, _, b⟩ := run_spec hist init [] out s' hi hh hn h
  exact ⟨a, b⟩

/-- **C29** (every request answered) The result list has one block per request, of the requested size, in order. -/
theorem C29_sizes (hist : List (BitVec 64 × (Nat → Option Nat))) (s : State) (out : List (Nat × Nat)) (s' : State)
    (h : runAll s hist = some (out, s')) : out.map (·.2) = hist.map (·.1.toNat) := by
  induction hist generalizing s out with
  | nil => simp [runAll] at h; simp [h.1]
  | cons x t ih =>
    obtain ⟨n, os⟩ := x
    simp only [runAll, bind, Option.bind] at h
    split at h
    · cases h
    · rename_i r hr
      obtain ⟨p, s1⟩ := r
      simp only at h
      split at h
      · cases h
      · rename_i r2 hr2
        simp only [pure, Option.some.injEq, Prod.mk.injEq] at h
        obtain ⟨rfl, rfl⟩ := h
        simp [ih _ _ hr2]

/-- **C29** (finding) A single request of 4 GB is answered from a block of 8 bytes: `currfree` is a 32-bit variable. -/
theorem C29_4GB_request_overruns (base : Nat) :
    ∃ p s', lclAlloc (fun _ => some base) init 0x100000000#64 = some (p, s') ∧ s'.blocks = [(base, 8)] ∧
      ∀ b ∈ s'.blocks, ¬ Within (p, 0x100000000) b := by
  refine ⟨base + 8, ⟨[(base, 8)], base + 8 + 0x100000000, 0⟩, ?_, rfl, ?_⟩
  · simp [lclAlloc, init, roundUp, newFree, blkSize, ptrSize]
  · simp [Within]

/-- Non-vacuity: three requests, the second needs a block of its own. -/
example : runAll init [(5#64, fun _ => some 0x10000), (0x90000#64, fun _ => some 0x200000), (16#64, fun _ => some 0x400000)] =
    some ([(0x10008, 5), (0x200008, 0x90000), (0x400008, 16)],
      ⟨[(0x400000, 0x80000), (0x200000, 0x90008), (0x10000, 0x80000)], 0x400018, 0x7ffe8⟩) := by decide

end Verif.Mem
