import Verif.Proc.Spec
/-! # Regions, rounding, and the pieces of a frame -/
namespace Verif.Proc

/-! ## Rounding -/

theorem le_roundUp (i r : Nat) (h : r ≠ 0) : i ≤ roundUp i r := by
  simp only [roundUp, if_neg h]
  have : (i + (r - 1)) &&& (r - 1) ≤ r - 1 := Nat.and_le_right
  omega

theorem roundUp_pow (i k : Nat) : roundUp i (2 ^ k) = (i + (2 ^ k - 1)) / 2 ^ k * 2 ^ k := by
  have h : 0 < 2 ^ k := Nat.two_pow_pos k
  simp only [roundUp, if_neg (show 2 ^ k ≠ 0 by omega), Nat.and_two_pow_sub_one_eq_mod]
  have := Nat.div_add_mod (i + (2 ^ k - 1)) (2 ^ k)
  rw [Nat.mul_comm] at this
  omega

theorem roundUp_2 (i : Nat) : roundUp i 2 = (i + 1) / 2 * 2 := roundUp_pow i 1
theorem roundUp_4 (i : Nat) : roundUp i 4 = (i + 3) / 4 * 4 := roundUp_pow i 2
theorem roundUp_8 (i : Nat) : roundUp i 8 = (i + 7) / 8 * 8 := roundUp_pow i 3
theorem roundUp_16 (i : Nat) : roundUp i 16 = (i + 15) / 16 * 16 := roundUp_pow i 4
theorem roundUp_32 (i : Nat) : roundUp i 32 = (i + 31) / 32 * 32 := roundUp_pow i 5

/-! ## Regions in an interval -/

/-- Pairwise disjoint and within [lo, hi). -/
def In (lo hi : Int) (rs : List Region) : Prop := rs.Pairwise Region.Disjoint ∧ ∀ r ∈ rs, lo ≤ r.addr ∧ r.addr + r.size ≤ hi

theorem In.nil (lo hi : Int) : In lo hi [] := ⟨List.Pairwise.nil, by simp⟩

theorem In.mono {lo hi lo' hi' : Int} {rs : List Region} (h : In lo hi rs) (h1 : lo' ≤ lo) (h2 : hi ≤ hi') : In lo' hi' rs :=
  ⟨h.1, fun r hr => ⟨Int.le_trans h1 (h.2 r hr).1, Int.le_trans (h.2 r hr).2 h2⟩⟩

theorem In.append {lo mid hi : Int} {A B : List Region} (ha : In lo mid A) (hb : In mid hi B) (h1 : lo ≤ mid) (h2 : mid ≤ hi) :
    In lo hi (A ++ B) := by
  refine ⟨List.pairwise_append.2 ⟨ha.1, hb.1, ?_⟩, ?_⟩
  · intro a hA b hB
    exact Or.inl (Int.le_trans (ha.2 a hA).2 (hb.2 b hB).1)
  · intro r hr
    rcases List.mem_append.1 hr with hr | hr
    · have := ha.2 r hr; omega
    · have := hb.2 r hr; omega

theorem In.append' {lo mid hi : Int} {A B : List Region} (ha : In mid hi A) (hb : In lo mid B) (h1 : lo ≤ mid) (h2 : mid ≤ hi) :
    In lo hi (A ++ B) := by
  refine ⟨List.pairwise_append.2 ⟨ha.1, hb.1, ?_⟩, ?_⟩
  · intro a hA b hB
    exact Or.inr (Int.le_trans (hb.2 b hB).2 (ha.2 a hA).1)
  · intro r hr
    rcases List.mem_append.1 hr with hr | hr
    · have := ha.2 r hr; omega
    · have := hb.2 r hr; omega

theorem In.single (r : Region) (lo hi : Int) (h1 : lo ≤ r.addr) (h2 : r.addr + r.size ≤ hi) : In lo hi [r] :=
  ⟨List.pairwise_singleton .., by intro x hx; rw [List.mem_singleton.1 hx]; exact ⟨h1, h2⟩⟩

/-! ## Running prologues -/

theorem run_append (ws : Nat) (far : Bool) (a b : List Op) : run ws far (a ++ b) = b.foldl (step ws) (run ws far a) := by
  simp [run]

/-- A series of pushes. -/
theorem pushes {α : Type} (ws : Nat) : ∀ (l : List α) (s : St), ∃ P, (l.map (fun _ => Op.push)).foldl (step ws) s =
    ⟨s.sp - (l.length * ws : Nat), s.bp, P ++ s.saved⟩ ∧ In (s.sp - (l.length * ws : Nat)) s.sp P
  | [], s => ⟨[], by simp, In.nil ..⟩
  | x :: l, s => by
    obtain ⟨P, h1, h2⟩ := pushes ws l (step ws s .push)
    refine ⟨P ++ [⟨s.sp - ws, ws⟩], ?_, ?_⟩
    · rw [List.map_cons, List.foldl_cons, h1]
      simp only [step, List.append_assoc, List.cons_append, List.nil_append, List.length_cons, St.mk.injEq, and_true, true_and]
      rw [Nat.succ_mul]; omega
    · simp only [step] at h2
      simp only [List.length_cons]
      have e : s.sp - ((l.length + 1) * ws : Nat) = s.sp - ws - (l.length * ws : Nat) := by rw [Nat.succ_mul]; omega
      rw [e]
      exact In.append h2 (In.single _ _ _ (by simp) (by simp)) (by omega) (by omega)

theorem cntVec_cons (r : Reg) (l : List Reg) :
    cntVec (r :: l) = (match r with | .gpr => 0 | .xmm => 1 | .ymm => 2 | .zmm => 4) + cntVec l := by
  cases r <;> simp [cntVec]

/-- The vector registers are stored one above the other. -/
theorem saves (ws : Nat) : ∀ (l : List Reg) (i : Nat) (s : St), ∃ P, (vecSaves i l).foldl (step ws) s = ⟨s.sp, s.bp, P ++ s.saved⟩ ∧
    In (s.sp + i) (s.sp + i + 16 * cntVec l) P
  | [], i, s => ⟨[], by simp [vecSaves], In.nil ..⟩
  | r :: l, i, s => by
    have one : ∀ (n k : Nat), n = 16 * k → ∃ P, (Op.save i n :: vecSaves (i + n) l).foldl (step ws) s = ⟨s.sp, s.bp, P ++ s.saved⟩ ∧
        In (s.sp + i) (s.sp + i + 16 * (k + cntVec l : Nat)) P := by
      intro n k hn
      obtain ⟨P, h1, h2⟩ := saves ws l (i + n) (step ws s (.save i n))
      refine ⟨P ++ [⟨s.sp + i, n⟩], ?_, ?_⟩
      · rw [List.foldl_cons, h1]; simp [step]
      · simp only [step] at h2
        exact In.append' (mid := s.sp + i + n) (h2.mono (by push_cast; omega) (by push_cast; omega)) (In.single _ _ _ (by simp) (by simp)) (by omega) (by push_cast; omega)
    rw [cntVec_cons]
    cases r with
    | gpr =>
      simp only [vecSaves, Nat.zero_add]
      exact saves ws l i s
    | xmm => exact one 16 1 rfl
    | ymm => exact one 32 2 rfl
    | zmm => exact one 64 4 rfl

/-! ## Locals -/

/-- Offsets descending from `-hi`: pairwise disjoint, within [-lo, -hi). -/
theorem regions_In (base lo hi : Int) (vars : List (Local × Int))
    (h1 : vars.Pairwise (fun a b => b.2 + (b.1.size : Int) ≤ a.2)) (h2 : ∀ v ∈ vars, lo ≤ v.2 ∧ v.2 + (v.1.size : Int) ≤ hi) :
    In (base + lo) (base + hi) (regions base vars) := by
  refine ⟨?_, ?_⟩
  · rw [regions, List.pairwise_map]
    exact h1.imp (fun {a b} h => Or.inr (by simp only []; omega))
  · intro r hr
    obtain ⟨v, hv, rfl⟩ := List.mem_map.1 hr
    have := h2 v hv
    simp only []
    omega

theorem localLoop_spec (ws align : Nat) (hws : ws ≠ 0) (ha : align ≠ 0) : ∀ (l : List Local) (ls : Nat),
    ls ≤ (localLoop ws align ls l).2 ∧ (localLoop ws align ls l).1.map (·.1) = l ∧
    (localLoop ws align ls l).1.Pairwise (fun a b => b.2 + (b.1.size : Int) ≤ a.2) ∧
    ∀ v ∈ (localLoop ws align ls l).1, -((localLoop ws align ls l).2 : Int) ≤ v.2 ∧ v.2 + (v.1.size : Int) ≤ -(ls : Int)
  | [], ls => by simp [localLoop]
  | x :: l, ls => by
    simp only [localLoop]
    generalize hn : (if itemSize x > align then roundUp (ls + x.size) align
      else if itemSize x ≠ 0 then roundUp (ls + x.size) (if ws = 4 ∧ itemSize x = 3 then ws else itemSize x) else ls + x.size) = n
    have hle : ls + x.size ≤ n := by
      rw [← hn]
      split
      · exact le_roundUp _ _ ha
      · split
        · refine le_roundUp _ _ ?_
          split <;> assumption
        · omega
    obtain ⟨h1, h2, h3, h4⟩ := localLoop_spec ws align hws ha l n
    refine ⟨by omega, by simp [h2], List.Pairwise.cons ?_ h3, ?_⟩
    · intro v hv; exact (h4 v hv).2
    · intro v hv
      rcases List.mem_cons.1 hv with rfl | hv
      · simp only []; omega
      · have := h4 v hv; omega

theorem sysvLoop_spec : ∀ (l : List Local) (ls : Nat),
    ls ≤ (sysvLoop ls l).2 ∧ (sysvLoop ls l).1.map (·.1) = l ∧
    (sysvLoop ls l).1.Pairwise (fun a b => b.2 + (b.1.size : Int) ≤ a.2) ∧
    ∀ v ∈ (sysvLoop ls l).1, -((sysvLoop ls l).2 : Int) ≤ v.2 ∧ v.2 + (v.1.size : Int) ≤ -(ls : Int)
  | [], ls => by simp [sysvLoop]
  | x :: l, ls => by
    simp only [sysvLoop]
    generalize hn : (if itemSize x > 16 then roundUp (ls + x.size) (if itemSize x = 32 then 32 else 16)
      else if itemSize x ≠ 0 then roundUp (ls + x.size) (itemSize x) else ls + x.size) = n
    have hle : ls + x.size ≤ n := by
      rw [← hn]
      split
      · refine le_roundUp _ _ ?_
        split <;> omega
      · split
        · refine le_roundUp _ _ ?_
          assumption
        · omega
    obtain ⟨h1, h2, h3, h4⟩ := sysvLoop_spec l n
    refine ⟨by omega, by simp [h2], List.Pairwise.cons ?_ h3, ?_⟩
    · intro v hv; exact (h4 v hv).2
    · intro v hv
      rcases List.mem_cons.1 hv with rfl | hv
      · simp only []; omega
      · have := h4 v hv; omega

/-! ## Parameters -/

theorem paramOffs_slots (ws : Nat) (hw : ws = 2 ∨ ws = 4 ∨ ws = 8) (base : Int) : ∀ (l : List Nat) (ofs a : Int), base + ofs = a →
    pregions base (paramOffs ws ofs l) = slots ws a l
  | [], ofs, a, h => rfl
  | n :: l, ofs, a, h => by
    simp only [paramOffs, pregions, List.map_cons, slots, h]
    congr 1
    have : roundUp n ws = (n + (ws - 1)) / ws * ws := by
      rcases hw with rfl | rfl | rfl
      · exact roundUp_2 n
      · exact roundUp_4 n
      · exact roundUp_8 n
    refine paramOffs_slots ws hw base l _ _ ?_
    rw [this]; omega

theorem slots_shift (ws : Nat) (k : Int) (base : Int) : ∀ (l : List (Nat × Int)),
    pregions base (l.map (fun p => (p.1, p.2 + k))) = pregions (base + k) l := by
  intro l
  simp only [pregions, List.map_map]
  apply List.map_congr_left
  intro v _
  simp only [Function.comp, Region.mk.injEq, and_true]
  omega

theorem regions_shift (k : Int) (base : Int) (l : List (Local × Int)) :
    regions base (l.map (fun p => (p.1, p.2 + k))) = regions (base + k) l := by
  simp only [regions, List.map_map]
  apply List.map_congr_left
  intro v _
  simp only [Function.comp, Region.mk.injEq, and_true]
  omega

end Verif.Proc
