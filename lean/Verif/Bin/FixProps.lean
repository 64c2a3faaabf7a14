import Verif.Bin.FixProof
/-! # C24: fixups of BIN / MZ / PE images -/
namespace Verif.Bin
open Spec

/-- A fixup changes only its own bytes (except a selector fixup outside MZ files, see
`C24_selector_overwrites`). -/
theorem one_frame {p : FPar} {cur : FCur} {st st' : FSt} {f : FFix} (h : fixOne p cur st f = some st')
    (hs : f.type = .seg → p.fmt = .mz) {j : Nat} (hj : j < fixIdx cur f ∨ fixIdx cur f + width f.type ≤ j) :
    st'.mem j = st.mem j := by
  unfold fixOne at h
  split at h
  · cases h
  · rename_i value v64 seg _
    split at h
    · cases h
    · rename_i mem e hst
      cases h
      show mem j = st.mem j
      have p2 : ∀ (m : Mem) (a b v v' : Nat) (i : Nat), (j < i ∨ i + (a + b) ≤ j) →
          put b (put a m i v) (i + a) v' j = m j := by
        intro m a b v v' i h
        rw [put_out _ _ _ _ _ (by omega), put_out _ _ _ _ _ (by omega)]
      unfold fixStore at hst
      cases ht : f.type <;> rw [ht] at hst hj <;> simp only [width] at hst hj
      case seg =>
        have hmz := hs ht
        unfold storeSeg at hst
        simp only [hmz, if_true] at hst
        repeat' split at hst
        all_goals first | (cases hst; done) | (cases hst; exact put_out _ _ _ _ _ (by omega))
      case ptr16 =>
        unfold storePtr16 storePtr32 at hst
        repeat' split at hst
        all_goals first
          | (cases hst; done)
          | (cases hst; exact p2 _ 2 2 _ _ _ (by omega))
          | (cases hst; rfl)
          | (simp_all; done)
      case ptr32 =>
        unfold storePtr32 at hst
        repeat' split at hst
        all_goals first
          | (cases hst; done)
          | (cases hst; exact p2 _ 4 2 _ _ _ (by omega))
          | (cases hst; rfl)
      case off64 =>
        split at hst <;> (cases hst; exact put_out _ _ _ _ _ (by omega))
      all_goals first
        | (cases hst; exact put_out _ _ _ _ _ (by omega))
        | (cases hst; rfl)

theorem galign {f : FFix} {s : FSeg} (h : f.frame = .seg → groupStart s &&& 0xF = 0)
    (hn : ¬ (s.group.isSome ∧ f.frame ≠ .seg)) : groupStart s &&& 0xF = 0 := by
  by_cases hf : f.frame = .seg
  · exact h hf
  · have : s.group = none := by
      cases hg : s.group with
      | none => rfl
      | some g => exact absurd ⟨by rw [hg]; rfl, hf⟩ hn
    unfold groupStart; rw [this]; rfl

/-- One fixup stores what the specification says. -/
theorem one_correct {p : FPar} {cur : FCur} {st st' : FSt} {f : FFix} {s : FSeg} {o : W}
    (h : fixOne p cur st f = some st') (ht : Target f s o) (hsup : Supported p cur f s) :
    Correct p cur f s o st.mem st'.mem := by
  have hidx : fixIdx cur f = (f.locofs - cur.startLoc).toNat := rfl
  have m8 : (256 : Nat) ^ 1 = 256 := rfl
  have m16 : (256 : Nat) ^ 2 = 65536 := rfl
  have m32 : (256 : Nat) ^ 4 = 2 ^ 32 := rfl
  have m64 : (256 : Nat) ^ 8 = 2 ^ 64 := rfl
  have l8 : (1 : W).toNat = 1 := rfl
  have l16 : (2 : W).toNat = 2 := rfl
  unfold fixOne at h
  cases hty : f.type
  case relOff8 =>
    rw [value_target ht] at h
    simp only [hty, fixStore, Option.some.injEq] at h
    rw [← h]
    simp only [Correct, hty, width, ← hidx]
    rw [rd_put]
    refine rel_arith (by omega) ?_
    rw [and_ff]
    congr 2
    simp only [relEnd, hty, width, reduceCtorEq, false_and, if_false]
    apply BitVec.eq_of_toNat_eq
    simp only [BitVec.toNat_sub, BitVec.toNat_add, BitVec.toNat_ofNat]
    show _ = _
    have := s.startOffset.isLt; have := o.isLt; have := f.locofs.isLt; have := cur.startOffset.isLt
    omega
  case relOff16 =>
    rw [value_target ht] at h
    simp only [hty, fixStore, Option.some.injEq] at h
    rw [← h]
    simp only [Correct, hty, width, ← hidx]
    rw [rd_put]
    refine rel_arith (by omega) ?_
    rw [and_ffff]
    congr 2
    simp only [relEnd, hty, width, reduceCtorEq, false_and, if_false]
    apply BitVec.eq_of_toNat_eq
    simp only [BitVec.toNat_sub, BitVec.toNat_add, BitVec.toNat_ofNat]
    have := s.startOffset.isLt; have := o.isLt; have := f.locofs.isLt; have := cur.startOffset.isLt
    omega
  case relOff32 =>
    rw [value_target ht] at h
    simp only [hty, fixStore, Option.some.injEq] at h
    rw [← h]
    simp only [Correct, hty, width, ← hidx]
    rw [rd_put]
    refine rel_arith (by omega) ?_
    have : ∀ x : W, x.toNat = x.toNat % 256 ^ 4 := fun x => (Nat.mod_eq_of_lt x.isLt).symm
    rw [← this]
    congr 1
    simp only [relEnd, hty, width, true_and]
    have h4 : (4 : W).toNat = 4 := rfl
    apply BitVec.eq_of_toNat_eq
    have := s.startOffset.isLt; have := o.isLt; have := f.locofs.isLt; have := cur.startOffset.isLt
    cases cur.use64
    · simp only [BitVec.toNat_sub, BitVec.toNat_add, BitVec.toNat_ofNat, Bool.false_eq_true, if_false]
      omega
    · simp only [BitVec.toNat_sub, BitVec.toNat_add, BitVec.toNat_ofNat, if_true]
      have := f.addbytes.isLt
      omega
  case imgRel =>
    rw [value_target ht] at h
    simp only [hty, fixStore, Option.some.injEq] at h
    rw [← h]
    simp only [Correct, hty, width, ← hidx]
    rw [rd_put, BitVec.add_comm o]
    exact Nat.mod_eq_of_lt (BitVec.isLt _)
  case secRel =>
    rw [value_target ht] at h
    simp only [hty] at h
    have hb : ∀ l : List Char, '$' ∉ l → beforeDollar l = none := by
      intro l
      induction l with
      | nil => intro _; rfl
      | cons c r ih =>
        intro hn
        simp only [List.mem_cons, not_or] at hn
        unfold beforeDollar
        rw [if_neg (fun e => hn.1 e.symm), ih hn.2]; rfl
    simp only [Correct, hty, width, ← hidx]
    refine ⟨?_, ?_⟩
    · rintro first ⟨n, hn, hfind⟩
      rw [hn] at h
      simp only [hfind, fixStore, hty, Option.some.injEq] at h
      rw [← h, rd_put, BitVec.add_comm o]
      exact Nat.mod_eq_of_lt (BitVec.isLt _)
    · intro hn
      rw [hb _ hn] at h
      simp only [fixStore, hty, Option.some.injEq] at h
      rw [← h, rd_put]
      exact Nat.mod_eq_of_lt (BitVec.isLt _)
  case off8 =>
    have hsup' : f.frame = .seg → groupStart s &&& 0xF = 0 := by simpa only [Supported, hty] using hsup
    obtain ⟨w, hw, _⟩ := value_off (p := p) (u := cur.use64) (v64 := st.v64) ht (by simp [hty]) (galign hsup')
    rw [hw] at h
    simp only [hty, fixStore, Option.some.injEq] at h
    rw [← h]
    simp only [Correct, hty, width, ← hidx]
    rw [rd_put, and_ff, m8, Nat.mod_mod]
  case off16 =>
    have hsup' : f.frame = .seg → groupStart s &&& 0xF = 0 := by simpa only [Supported, hty] using hsup
    obtain ⟨w, hw, _⟩ := value_off (p := p) (u := cur.use64) (v64 := st.v64) ht (by simp [hty]) (galign hsup')
    rw [hw] at h
    simp only [hty, fixStore, Option.some.injEq] at h
    rw [← h]
    simp only [Correct, hty, width, ← hidx]
    rw [rd_put, and_ffff, m16, Nat.mod_mod]
  case off32 =>
    have hsup' : f.frame = .seg → groupStart s &&& 0xF = 0 := by simpa only [Supported, hty] using hsup
    obtain ⟨w, hw, _⟩ := value_off (p := p) (u := cur.use64) (v64 := st.v64) ht (by simp [hty]) (galign hsup')
    rw [hw] at h
    simp only [hty, fixStore, Option.some.injEq] at h
    rw [← h]
    simp only [Correct, hty, width, ← hidx]
    rw [rd_put]
  case hiByte =>
    have hsup' : f.frame = .seg → groupStart s &&& 0xF = 0 := by simpa only [Supported, hty] using hsup
    obtain ⟨w, hw, _⟩ := value_off (p := p) (u := cur.use64) (v64 := st.v64) ht (by simp [hty]) (galign hsup')
    rw [hw] at h
    simp only [hty, fixStore, Option.some.injEq] at h
    rw [← h]
    simp only [Correct, hty, width, ← hidx]
    rw [rd_put, and_ff, BitVec.toNat_ushiftRight, Nat.shiftRight_eq_div_pow, m8, Nat.mod_mod]
  case off64 =>
    simp only [Supported, hty] at hsup
    by_cases hpe : p.fmt = .pe ∧ cur.use64 = true
    · rw [if_pos hpe] at hsup
      obtain ⟨w, hw, hw2⟩ := value_off (p := p) (u := cur.use64) (v64 := st.v64) ht (by simp [hty])
        (fun hn => absurd hsup hn)
      rw [hw] at h
      simp only [hty, fixStore, if_pos hpe, Option.some.injEq] at h
      rw [← h]
      simp only [Correct, hty, width, ← hidx, if_pos hpe]
      rw [rd_put, hw2 hsup.1 hsup.2 hpe.1 hpe.2, BitVec.toNat_add, BitVec.toNat_setWidth, m64]
      have := (frameOffset f s o).isLt
      omega
    · rw [if_neg hpe] at hsup
      obtain ⟨w, hw, _⟩ := value_off (p := p) (u := cur.use64) (v64 := st.v64) ht (by simp [hty]) (galign hsup)
      rw [hw] at h
      simp only [hty, fixStore, if_neg hpe, Option.some.injEq] at h
      rw [← h]
      simp only [Correct, hty, width, ← hidx, if_neg hpe]
      rw [rd_put, m64]
      exact Nat.mod_eq_of_lt (by have := (frameOffset f s o + base32 p f s).isLt; omega)
  case ptr16 =>
    simp only [Supported, hty] at hsup
    obtain ⟨hmz, habs, hfr⟩ := hsup
    have hal : ¬ (s.group.isSome ∧ f.frame ≠ .seg) → groupStart s &&& 0xF = 0 := by
      intro hn
      rcases hfr with ⟨h1, h2⟩ | ⟨_, h2⟩ | ⟨_, h2⟩
      · exact absurd ⟨h2, by rw [h1]; simp⟩ hn
      · exact h2
      · unfold groupStart; rw [h2]; rfl
    obtain ⟨w, hw, _⟩ := value_off (p := p) (u := cur.use64) (v64 := st.v64) ht (by simp [hty]) hal
    have hb0 : base32 p f s = 0 := by unfold base32; exact if_neg (by rw [hmz]; simp)
    rw [hw, hb0, show frameOffset f s o + 0 = frameOffset f s o from BitVec.add_zero _] at h
    have hpar : ∃ P : W, paragraph f s = P ∧ st'.mem =
        put 2 (put 2 st.mem (fixIdx cur f) (frameOffset f s o).toNat) (fixIdx cur f + 2) P.toNat := by
      refine ⟨_, rfl, ?_⟩
      simp only [hty, fixStore, storePtr16, habs, hmz, if_true, Bool.false_eq_true, if_false] at h
      rcases hfr with ⟨h1, h2⟩ | ⟨h1, h2⟩ | ⟨h1, h2⟩
      · obtain ⟨g, hg⟩ := Option.isSome_iff_exists.1 h2
        simp only [h1, hg, if_true, Option.some.injEq] at h
        rw [← h]
        unfold paragraph groupStart
        rw [hg, if_pos (by rw [h1]; simp)]; rfl
      · simp only [h1, reduceCtorEq, if_false, Option.some.injEq] at h
        rw [← h]
        unfold paragraph groupStart
        rw [if_neg (by rw [h1]; simp), BitVec.add_comm]
      · simp only [h1, reduceCtorEq, if_false, Option.some.injEq] at h
        rw [← h]
        unfold paragraph groupStart
        rw [if_neg (by rw [h2]; simp), BitVec.add_comm]
    obtain ⟨P, hP, hm⟩ := hpar
    simp only [Correct, hty, ← hidx, hP]
    rw [hm]
    refine ⟨?_, ?_⟩
    · rw [rd_congr 2 (m' := put 2 st.mem (fixIdx cur f) (frameOffset f s o).toNat) _
        (fun j h1 h2 => put_out _ _ _ _ _ (by omega)), rd_put]
      
    · rw [rd_put]
  case ptr32 =>
    simp only [Supported, hty] at hsup
    obtain ⟨hmz, habs, hfr⟩ := hsup
    have hal : ¬ (s.group.isSome ∧ f.frame ≠ .seg) → groupStart s &&& 0xF = 0 := by
      intro hn
      rcases hfr with ⟨h1, h2⟩ | ⟨_, h2⟩ | ⟨_, h2⟩
      · exact absurd ⟨h2, by rw [h1]; simp⟩ hn
      · exact h2
      · unfold groupStart; rw [h2]; rfl
    obtain ⟨w, hw, _⟩ := value_off (p := p) (u := cur.use64) (v64 := st.v64) ht (by simp [hty]) hal
    have hb0 : base32 p f s = 0 := by unfold base32; exact if_neg (by rw [hmz]; simp)
    rw [hw, hb0, show frameOffset f s o + 0 = frameOffset f s o from BitVec.add_zero _] at h
    have hpar : ∃ P : W, paragraph f s = P ∧ st'.mem =
        put 2 (put 4 st.mem (fixIdx cur f) (frameOffset f s o).toNat) (fixIdx cur f + 4) P.toNat := by
      refine ⟨_, rfl, ?_⟩
      simp only [hty, fixStore, storePtr32, habs, hmz, if_true, Bool.false_eq_true, if_false] at h
      rcases hfr with ⟨h1, h2⟩ | ⟨h1, h2⟩ | ⟨h1, h2⟩
      · obtain ⟨g, hg⟩ := Option.isSome_iff_exists.1 h2
        simp only [h1, hg, if_true, Option.some.injEq] at h
        rw [← h]
        unfold paragraph groupStart
        rw [hg, if_pos (by rw [h1]; simp)]; rfl
      · simp only [h1, reduceCtorEq, if_false, Option.some.injEq] at h
        rw [← h]
        unfold paragraph groupStart
        rw [if_neg (by rw [h1]; simp), BitVec.add_comm]
      · simp only [h1, reduceCtorEq, if_false, Option.some.injEq] at h
        rw [← h]
        unfold paragraph groupStart
        rw [if_neg (by rw [h2]; simp), BitVec.add_comm]
    obtain ⟨P, hP, hm⟩ := hpar
    simp only [Correct, hty, ← hidx, hP]
    rw [hm]
    refine ⟨?_, ?_⟩
    · rw [rd_congr 4 (m' := put 4 st.mem (fixIdx cur f) (frameOffset f s o).toNat) _
        (fun j h1 h2 => put_out _ _ _ _ _ (by omega)), rd_put]
      exact Nat.mod_eq_of_lt (BitVec.isLt _)
    · rw [rd_put]
  case seg =>
    simp only [Supported, hty] at hsup
    obtain ⟨hmz, habs, hst, hfr⟩ := hsup
    have hal : ¬ (s.group.isSome ∧ f.frame ≠ .seg) → groupStart s &&& 0xF = 0 := by
      intro hn
      rcases hfr with ⟨h1, h2⟩ | ⟨_, h2⟩
      · exact absurd ⟨h2, by rw [h1]; simp⟩ hn
      · unfold groupStart; rw [h2]; rfl
    obtain ⟨w, hw, _⟩ := value_off (p := p) (u := cur.use64) (v64 := st.v64) ht (by simp [hty]) hal
    obtain ⟨y, hy, _⟩ := id ht
    have hyst := hst y hy
    rw [hw] at h
    simp only [hty, fixStore, storeSeg, hy, hyst, hmz, if_true] at h
    simp only [Correct, hty, ← hidx]
    rcases hfr with ⟨h1, h2⟩ | ⟨h1, h2⟩
    · obtain ⟨g, hg⟩ := Option.isSome_iff_exists.1 h2
      simp only [h1, hg, if_true, Option.some.injEq] at h
      rw [← h, rd_put]
      unfold paragraph groupStart
      rw [hg, if_pos (by rw [h1]; simp)]; rfl
    · simp only [h1, if_false, Option.some.injEq] at h
      rw [← h, rd_put]
      unfold paragraph groupStart
      rw [if_neg (by rw [h2]; simp), h2]
      have z : (0 : W) + s.startOffset = s.startOffset := BitVec.zero_add _
      show _ = (((0 : W) + s.startOffset) >>> 4).toNat % 65536
      rw [z]
  case void => simp only [Supported, hty] at hsup
  case other => simp only [Supported, hty] at hsup

/-- `Correct` looks only at the bytes of the fixup. -/
theorem correct_congr {p : FPar} {cur : FCur} {f : FFix} {s : FSeg} {o : W} {m m' n n' : Mem}
    (h : Correct p cur f s o m n)
    (h1 : ∀ j, fixIdx cur f ≤ j → j < fixIdx cur f + width f.type → m j = m' j)
    (h2 : ∀ j, fixIdx cur f ≤ j → j < fixIdx cur f + width f.type → n j = n' j) :
    Correct p cur f s o m' n' := by
  have hidx : fixIdx cur f = (f.locofs - cur.startLoc).toNat := rfl
  unfold Correct at h ⊢
  simp only [← hidx] at h ⊢
  have r1 := rd_congr _ _ h1
  have r2 := rd_congr _ _ h2
  have sub : ∀ a k, a + k ≤ width f.type → rd k n (fixIdx cur f + a) = rd k n' (fixIdx cur f + a) :=
    fun a k hk => rd_congr k _ (fun j g1 g2 => h2 j (by omega) (by omega))
  cases hty : f.type <;> rw [hty] at h <;> simp only [hty, width] at h r1 r2 sub ⊢ <;>
    first
    | (rw [← r1, ← r2]; exact h)
    | (rw [← r2]; exact h)
    | (exact ⟨(sub 0 2 (by omega)).symm.trans h.1, (sub 2 2 (by omega)).symm.trans h.2⟩)
    | (exact ⟨(sub 0 4 (by omega)).symm.trans h.1, (sub 4 2 (by omega)).symm.trans h.2⟩)

theorem loop_frame {p : FPar} {cur : FCur} : ∀ {fs : List FFix} {st st' : FSt},
    fixLoop p cur st fs = some st' → (∀ f ∈ fs, f.type = .seg → p.fmt = .mz) → ∀ {j : Nat},
    (∀ f ∈ fs, j < fixIdx cur f ∨ fixIdx cur f + width f.type ≤ j) → st'.mem j = st.mem j
  | [], st, st', h, _, j, _ => by cases h; rfl
  | f :: r, st, st', h, hs, j, hj => by
    unfold fixLoop at h
    split at h
    · cases h
    · rename_i st1 h1
      rw [loop_frame h (fun g hg => hs g (List.mem_cons_of_mem _ hg)) (fun g hg => hj g (List.mem_cons_of_mem _ hg)),
        one_frame h1 (hs f List.mem_cons_self) (hj f List.mem_cons_self)]

theorem loop_correct {p : FPar} {cur : FCur} : ∀ {fs : List FFix} {st st' : FSt},
    fixLoop p cur st fs = some st' → (∀ f ∈ fs, f.type = .seg → p.fmt = .mz) → Disjoint cur fs →
    ∀ f ∈ fs, ∀ s o, Target f s o → Supported p cur f s → Correct p cur f s o st.mem st'.mem
  | [], _, _, _, _, _, f, hf, _, _, _, _ => by cases hf
  | g :: r, st, st', h, hs, hd, f, hf, s, o, ht, hsup => by
    unfold fixLoop at h
    split at h
    · cases h
    · rename_i st1 h1
      unfold Disjoint at hd
      rw [List.pairwise_cons] at hd
      have hs' : ∀ f ∈ r, f.type = .seg → p.fmt = .mz := fun f hf => hs f (List.mem_cons_of_mem _ hf)
      rcases List.mem_cons.1 hf with rfl | hf
      · refine correct_congr (one_correct h1 ht hsup) (fun _ _ _ => rfl) (fun j g1 g2 => ?_)
        symm
        refine loop_frame h hs' (fun g hg => ?_)
        have := hd.1 g hg
        unfold fixIdx at *
        omega
      · refine correct_congr (loop_correct h hs' hd.2 f hf s o ht hsup) (fun j g1 g2 => ?_) (fun _ _ _ => rfl)
        refine one_frame h1 (hs g List.mem_cons_self) ?_
        have := hd.1 f hf
        unfold fixIdx at *
        omega

/-- **C24.**  After the fixups of a segment have been applied, every supported fixup location contains what
the specification asks for - whatever other fixups there are, as long as they do not overlap it -, and bytes that
belong to no fixup are unchanged. -/
theorem C24_fixups_partial (p : FPar) (cur : FCur) (st st' : FSt) (fs : List FFix) (hcur : cur.abs = false)
    (h : doFixup p cur st fs = some st') (hs : ∀ f ∈ fs, f.type = .seg → p.fmt = .mz) (hd : Disjoint cur fs) :
    (∀ f ∈ fs, ∀ s o, Target f s o → Supported p cur f s → Correct p cur f s o st.mem st'.mem) ∧
    (∀ j, (∀ f ∈ fs, j < (f.locofs - cur.startLoc).toNat ∨ (f.locofs - cur.startLoc).toNat + width f.type ≤ j) →
      st'.mem j = st.mem j) := by
  unfold doFixup at h
  rw [hcur, if_neg (by simp)] at h
  exact ⟨loop_correct h hs hd, fun j hj => loop_frame h hs hj⟩

theorem one_ok {p : FPar} {cur : FCur} {st : FSt} {f : FFix} {s : FSeg} {o : W}
    (ht : Target f s o) (hsup : Supported p cur f s) : ∃ st', fixOne p cur st f = some st' ∧ st'.err = st.err := by
  have hv : ∃ v w, fixValue p cur.use64 f st.v64 = some (v, w, some s) := by
    rw [value_target ht]
    cases f.type <;> simp only <;> (repeat' split) <;> exact ⟨_, _, rfl⟩
  obtain ⟨v, w, hv⟩ := hv
  unfold fixOne
  rw [hv]
  cases hty : f.type <;> simp only [Supported, hty] at hsup
  case off64 =>
    simp only [fixStore, hty]
    split
    · rename_i hn; split at hn <;> cases hn
    · rename_i mem e hn; split at hn <;> (cases hn; exact ⟨_, rfl, by simp⟩)
  case ptr16 =>
    obtain ⟨hmz, habs, hfr⟩ := hsup
    simp only [fixStore, hty, storePtr16, habs, hmz, if_true, Bool.false_eq_true, if_false]
    rcases hfr with ⟨h1, h2⟩ | ⟨h1, h2⟩ | ⟨h1, h2⟩
    · obtain ⟨g, hg⟩ := Option.isSome_iff_exists.1 h2
      simp [h1, hg]
    · simp [h1]
    · simp [h1]
  case ptr32 =>
    obtain ⟨hmz, habs, hfr⟩ := hsup
    simp only [fixStore, hty, storePtr32, habs, hmz, if_true, Bool.false_eq_true, if_false]
    rcases hfr with ⟨h1, h2⟩ | ⟨h1, h2⟩ | ⟨h1, h2⟩
    · obtain ⟨g, hg⟩ := Option.isSome_iff_exists.1 h2
      simp [h1, hg]
    · simp [h1]
    · simp [h1]
  case seg =>
    obtain ⟨hmz, habs, hst, hfr⟩ := hsup
    obtain ⟨y, hy, _⟩ := id ht
    simp only [fixStore, hty, storeSeg, hy, hst y hy, hmz, if_true]
    rcases hfr with ⟨h1, h2⟩ | ⟨h1, h2⟩
    · obtain ⟨g, hg⟩ := Option.isSome_iff_exists.1 h2
      simp [h1, hg]
    · simp [h1]
  all_goals (simp only [fixStore, hty]; exact ⟨_, rfl, by simp⟩)

/-- **C24.**  If every fixup has a target segment and is supported, all of them are applied without error. -/
theorem C24_completes (p : FPar) (cur : FCur) : ∀ (fs : List FFix) (st : FSt),
    (∀ f ∈ fs, ∃ s o, Target f s o ∧ Supported p cur f s) →
    ∃ st', doFixup p cur st fs = some st' ∧ st'.err = st.err := by
  intro fs st h
  unfold doFixup
  split
  · exact ⟨_, rfl, rfl⟩
  · rename_i hc
    clear hc
    induction fs generalizing st with
    | nil => exact ⟨_, rfl, rfl⟩
    | cons f r ih =>
      obtain ⟨s, o, ht, hs⟩ := h f List.mem_cons_self
      obtain ⟨st1, h1, he⟩ := one_ok (st := st) ht hs
      obtain ⟨st2, h2, he2⟩ := ih st1 (fun g hg => h g (List.mem_cons_of_mem _ hg))
      refine ⟨st2, ?_, by rw [he2, he]⟩
      unfold fixLoop; rw [h1]; exact h2

/-- **C24 (far pointers).**  What the specification asks of a far pointer in an MZ file is that
`16 * selector + offset` is the linear address of the target, whenever selector and offset fit their fields. -/
theorem C24_far_pointer (f : FFix) (s : FSeg) (o : W) (off sel : Nat)
    (h1 : off = (frameOffset f s o).toNat) (h2 : sel = (paragraph f s).toNat)
    (h : (linear s o).toNat = (groupStart s).toNat + s.startOffset.toNat + o.toNat) :
    16 * sel + off = (linear s o).toNat := by
  subst h1 h2
  have hle : ((paragraph f s) <<< 4).toNat ≤ (linear s o).toNat ∧ 
      ((paragraph f s) <<< 4).toNat = 16 * (paragraph f s).toNat := by
    unfold paragraph
    have hl := (linear s o).isLt
    split
    · rw [para_toNat, BitVec.toNat_ushiftRight, Nat.shiftRight_eq_div_pow]; omega
    · rw [para_toNat, BitVec.toNat_ushiftRight, Nat.shiftRight_eq_div_pow, BitVec.toNat_add]; omega
  unfold frameOffset
  rw [BitVec.toNat_sub]
  have := (linear s o).isLt
  have := ((paragraph f s) <<< 4).isLt
  omega

/-! ## A concrete case -/

def sData : FSeg := ⟨"_DATA".toList, 0x30, 0, some 0x1004, false, 0⟩
def sFar : FSeg := ⟨"FARSEG".toList, 0x2008, 0, none, false, 0⟩
def yLab (s : FSeg) (o : W) : FSym := ⟨false, some s, o, .other⟩
def fx (t : FixType) (fr : Frame) (loc ofs : W) (y : FSym) : FFix := ⟨t, fr, loc, ofs, 4, some y, none⟩
def mzPar : FPar := ⟨.mz, 0, 0, 0, [sData, sFar]⟩
def cur16 : FCur := ⟨0x10, 0, false, false⟩

def sampleFix : List FFix :=
  [fx .relOff16 .other 1 2 (yLab sData 0x20), fx .off16 .grp 5 0 (yLab sData 8),
   fx .ptr16 .grp 10 1 (yLab sData 0x100), fx .ptr16 .seg 14 0 (yLab sFar 3), fx .seg .other 20 0 (yLab sFar 3)]

example : Disjoint cur16 sampleFix ∧ (∀ f ∈ sampleFix, f.type = .seg → mzPar.fmt = .mz) ∧
    (∀ f ∈ sampleFix, ∃ s o, Target f s o ∧ Supported mzPar cur16 f s) ∧
    (doFixup mzPar cur16 ⟨fun _ => 0, 0, false⟩ sampleFix).map (fun st => (st.err,
      [rd 2 st.mem 1, rd 2 st.mem 5, rd 2 st.mem 10, rd 2 st.mem 12, rd 2 st.mem 14, rd 2 st.mem 16, rd 2 st.mem 20])) =
      some (false, [0x52 - 0x13, 0x3c, 0x135, 0x100, 0xb, 0x200, 0x200]) := by
  refine ⟨?_, by intros; rfl, ?_, by decide +kernel⟩
  · unfold Disjoint
    decide +kernel
  · intro f hf
    simp only [sampleFix, List.mem_cons, List.not_mem_nil, or_false] at hf
    rcases hf with rfl | rfl | rfl | rfl | rfl
    · exact ⟨sData, 2 + 0x20, ⟨_, rfl, Or.inr ⟨rfl, rfl, rfl⟩⟩, trivial⟩
    · exact ⟨sData, 0 + 8, ⟨_, rfl, Or.inr ⟨rfl, rfl, rfl⟩⟩, by intro h; cases h⟩
    · exact ⟨sData, 1 + 0x100, ⟨_, rfl, Or.inr ⟨rfl, rfl, rfl⟩⟩, rfl, rfl, Or.inl ⟨rfl, rfl⟩⟩
    · exact ⟨sFar, 0 + 3, ⟨_, rfl, Or.inr ⟨rfl, rfl, rfl⟩⟩, rfl, rfl, Or.inr (Or.inl ⟨rfl, by decide⟩)⟩
    · exact ⟨sFar, 0 + 3, ⟨_, rfl, Or.inr ⟨rfl, rfl, rfl⟩⟩, rfl, rfl, by intro y hy; cases hy; rfl,
        Or.inr ⟨by decide, rfl⟩⟩

/-! ## Findings: what is missing in the full property -/

def sAbs : FSeg := ⟨"BIOS".toList, 0, 0, none, true, 0x40⟩

/-- Finding: the selector of a label in an absolute segment: outside MZ files the offset is stored instead of
the frame and the two bytes behind the fixup are overwritten; in MZ files 0 is stored instead of the frame. -/
theorem C24_selector_overwrites :
    (doFixup ⟨.none, 0, 0, 0, []⟩ cur16 ⟨fun _ => 0xCC, 0, false⟩ [fx .seg .other 0 0 (yLab sAbs 0x17)]).map
      (fun st => (rd 2 st.mem 0, rd 2 st.mem 2)) = some (0x17, 0x40) ∧
    (doFixup ⟨.mz, 0, 0, 0, []⟩ cur16 ⟨fun _ => 0xCC, 0, false⟩ [fx .seg .other 0 0 (yLab sAbs 0x17)]).map
      (fun st => rd 2 st.mem 0) = some 0 := by decide +kernel

/-- Finding: a 64-bit address in a PE image whose target is not in a group is whatever `value64` held before: the
address of the previous 64-bit fixup, or an uninitialised value. -/
theorem C24_stale_value64 (p : FPar) (cur : FCur) (st : FSt) (f : FFix) (s : FSeg) (o : W)
    (hp : p.fmt = .pe) (hu : cur.use64 = true) (hty : f.type = .off64) (ht : Target f s o) (hg : s.group = none) :
    ∃ st', fixOne p cur st f = some st' ∧ rd 8 st'.mem (fixIdx cur f) = st.v64.toNat := by
  refine ⟨⟨put 8 st.mem (fixIdx cur f) st.v64.toNat, st.v64, st.err || false⟩, ?_, ?_⟩
  · unfold fixOne
    rw [value_target ht]
    simp only [hty, hg, fixStore, hp, hu, and_self, if_true]
  · rw [rd_put]; exact Nat.mod_eq_of_lt st.v64.isLt

/-- Finding: a far pointer to a label in a group with a frame other than group or segment holds an offset relative
to the group and the selector of the segment; and `SEG label` with the segment as frame ignores the group. -/
theorem C24_frame_mismatch :
    (doFixup mzPar cur16 ⟨fun _ => 0, 0, false⟩ [fx .ptr16 .other 0 0 (yLab sData 0x100)]).map
      (fun st => 16 * rd 2 st.mem 2 + rd 2 st.mem 0) = some 0x1164 ∧
    (linear sData 0x100).toNat = 0x1134 ∧
    (doFixup mzPar cur16 ⟨fun _ => 0, 0, false⟩ [fx .seg .seg 0 0 (yLab sData 0x100)]).map
      (fun st => rd 2 st.mem 0) = some 3 ∧
    paragraph (fx .seg .seg 0 0 (yLab sData 0x100)) sData = 0x103 := by decide +kernel

/-- Finding: an offset relative to a segment in a group that does not start at a paragraph is too small. -/
theorem C24_unaligned_group :
    (doFixup mzPar cur16 ⟨fun _ => 0, 0, false⟩ [fx .off16 .seg 0 0 (yLab sData 0x100)]).map
      (fun st => rd 2 st.mem 0) = some 0x100 ∧
    frameOffset (fx .off16 .seg 0 0 (yLab sData 0x100)) sData 0x100 = 0x104 := by decide +kernel

/-- Finding: an assembly-time variable without segment in a fixup dereferences a null pointer; a symbol without
segment silently stores 0 for an offset. -/
theorem C24_no_segment (p : FPar) (cur : FCur) (st : FSt) (f : FFix) (y : FSym) (hy : f.sym = some y)
    (hc : cur.abs = false) :
    (y.isVar = true → f.segmentVar = none → doFixup p cur st [f] = none) ∧
    (y.isVar = false → y.segment = none → f.type = .off32 →
      ∃ st', doFixup p cur st [f] = some st' ∧ rd 4 st'.mem (fixIdx cur f) = 0) := by
  refine ⟨fun h1 h2 => ?_, fun h1 h2 h3 => ?_⟩
  · simp [doFixup, hc, fixLoop, fixOne, fixValue, hy, h1, h2]
  · refine ⟨⟨put 4 st.mem (fixIdx cur f) 0, st.v64, st.err || false⟩, ?_, ?_⟩
    · simp [doFixup, hc, fixLoop, fixOne, fixValue, hy, h1, h2, h3, fixStore]
    · rw [rd_put]

end Verif.Bin
