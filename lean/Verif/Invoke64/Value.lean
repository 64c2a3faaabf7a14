import Verif.Invoke64.Lemmas
namespace Verif.Invoke64
open Frame (store load)

theorem regVal_range (m : M) (r : Reg) : 0 ≤ regVal m r ∧ regVal m r < 256 ^ partSize r.part := by
  rcases r with ⟨n, p⟩
  cases p <;> simp [regVal, partSize] <;> omega

theorem regVal_set (m : M) (r : Reg) (v : Int) (h : r.part ≠ .h) : regVal (setReg m r v) r = v % 256 ^ partSize r.part := by
  rcases r with ⟨n, p⟩
  cases p <;> simp [regVal, partSize, setReg, merge] at * <;> omega

theorem gpr_set (m : M) (r : Reg) (v : Int) (n : Nat) (h : r.part ≠ .h) (hn : partSize r.part = n) :
    (setReg m r v).gpr r.num % 256 ^ n = v % 256 ^ n := by
  subst hn
  rcases r with ⟨k, p⟩
  cases p <;> simp [partSize, setReg, merge] at * <;> omega

theorem mod_mod_pow (v : Int) (k n : Nat) (h : k ≤ n) : v % 256 ^ n % 256 ^ k = v % 256 ^ k :=
  Int.emod_emod_of_dvd v ⟨256 ^ (n - k), by rw [← Int.pow_add]; congr 1; omega⟩

theorem srcVal_range (m : M) (size : Nat) (s : Src) (h : ∀ r, s = .reg r → partSize r.part = size) :
    0 ≤ srcVal m size s ∧ srcVal m size s < 256 ^ size := by
  cases s with
  | mem x => exact Invoke.load_range _ _ _
  | reg r => have := h r rfl; subst this; exact regVal_range m r

/-- Two dwords are a qword. -/
theorem load_two (mem : Int → Int) (a v : Int) :
    load (store (store mem a 4 v) (a + 4) 4 (v / 2 ^ 32)) a 8 = v % 256 ^ 8 := by
  simp only [load, store]
  simp only [show ∀ b c : Int, (a + b = a + c ↔ b = c) from fun b c => by omega, Int.add_assoc]
  simp (decide := true) only [if_true, if_false, Int.reduceAdd, show ∀ b : Int, (a + b = a ↔ b = 0) from fun b => by omega, show ∀ b : Int, (a = a + b ↔ b = 0) from fun b => by omega]
  omega

theorem found_int (m : M) (p : Param) (i w : Nat) (hi : i < 4) (h : ¬ (p.kind = .real ∧ p.vararg = false)) :
    found m p i w = m.gpr (preg i) % 256 ^ w := by
  unfold found
  rw [if_pos hi, if_neg h]
  unfold preg
  split <;> simp_all

theorem found_real (m : M) (p : Param) (i w : Nat) (hi : i < 4) (h : p.kind = .real ∧ p.vararg = false) :
    found m p i w = m.xmm i % 256 ^ w := by
  unfold found
  rw [if_pos hi, if_pos h]

theorem found_stack (m : M) (p : Param) (i w : Nat) (hi : 4 ≤ i) : found m p i w = load m.mem (m.gpr 4 + 8 * i) w := by
  unfold found
  rw [if_neg (by omega)]

/-- Put a register that has just been set. -/
theorem put_value (m : M) (i : Nat) (pt : Part) (hpt : pt ≠ .h) (v : Int) (w : Nat) (hw : w ≤ partSize pt) :
    load (exec (setReg m ⟨0, pt⟩ v) (.put (8 * i) ⟨0, pt⟩)).mem ((exec (setReg m ⟨0, pt⟩ v) (.put (8 * i) ⟨0, pt⟩)).gpr 4 + 8 * i) w =
      v % 256 ^ w := by
  have e : (setReg m ⟨0, pt⟩ v).gpr 4 = m.gpr 4 := by simp [setReg]
  simp only [exec]
  rw [regVal_set _ _ _ hpt, e]
  push_cast
  rw [Invoke.load_store_le _ _ _ _ _ hw, mod_mod_pow _ _ _ hw]

theorem ext_mod (s : Bool) (size : Nat) (v : Int) : ext s size v % 256 ^ size = v % 256 ^ size := by
  unfold ext sext
  split
  · split
    · exact Int.sub_emod_right v _
    · rfl
  · rfl

theorem stack_value (i : Nat) (p : Param) (a : Arg) (used : List Nat) (o : List Ins × List Nat) (m : M)
    (hi : 4 ≤ i) (h : stackArg i p a used = some o) (hp : p.vararg = true ∨ WfParam p) (hs : Sound p i a) :
    found (run m o.1) p i (width p a) = argVal m p a % 256 ^ width p a := by
  rw [found_stack _ _ _ _ hi]
  cases a with
  | addr x =>
    simp only [stackArg, psz_eq] at h
    repeat' split at h
    all_goals simp at h
    all_goals subst h; simp only [run_cons, run_nil]
    · rename_i h4
      simp only [width, h4]
      exact put_value m i .d (by simp) (eaVal m x) 4 (by simp [partSize])
    · refine put_value m i .q (by simp) (eaVal m x) _ ?_
      simp only [width, partSize]; split <;> omega
  | const v nm =>
    simp only [stackArg, Option.bind_eq_some_iff, psz_eq] at h
    split at h
    · rename_i h8
      simp at h; subst h; simp only [run_cons, run_nil, exec, width, h8.1, argVal]
      have := load_two m.mem (m.gpr 4 + 8 * i) v
      simpa [Int.add_assoc] using this
    · simp only [Option.bind_eq_some_iff] at h
      rcases h with ⟨pt, hpt, h⟩
      have hle := partOf_le hpt
      have hw : width p (.const v nm) = psz p (.const v nm) := by simp only [width]; split <;> omega
      simp at h; subst h; simp only [run_cons, run_nil, exec, hw, argVal]
      push_cast
      rw [Frame.load_store]
  | float f4 f8 =>
    simp only [stackArg, psz_eq] at h
    split at h
    · rename_i hr
      have h48 : psz p (.float f4 f8) = 4 ∨ psz p (.float f4 f8) = 8 := by
        rcases hp with hp | hp
        · simp [hp] at hr
        · simp [psz, hp.1]; exact hp.2.2 hr.1
      split at h
      · rename_i h8
        simp at h; subst h; simp only [run_cons, run_nil, exec, width, h8, argVal]
        have := load_two m.mem (m.gpr 4 + 8 * i) f8
        simpa [Int.add_assoc] using this
      · have h4 : psz p (.float f4 f8) = 4 := by omega
        simp at h; subst h; simp only [run_cons, run_nil, exec, width, h4, argVal]
        push_cast
        exact Frame.load_store _ _ _ _
    · simp at h
  | xmm k =>
    simp only [stackArg, psz_eq] at h
    split at h <;> simp at h
    rename_i hr
    have hw : width p (.xmm k) = psz p (.xmm k) := by
      rcases hp with hp | hp
      · simp [hp] at hr
      · have := hp.2.2 hr.1
        simp [width, psz, hr.2]; omega
    subst h; simp only [run_cons, run_nil, exec, hw, argVal]
    push_cast
    rw [Frame.load_store]
  | reg r s =>
    have hr := regVal_range m r
    simp only [stackArg, widen, Option.bind_eq_some_iff, psz_eq] at h
    rcases h with ⟨pt, hpt, h⟩
    have hz2 := partSize_le pt
    have hps := partOf_size hpt
    have hw : width p (.reg r s) = psz p (.reg r s) := by simp only [width]; split <;> omega
    rw [hw]
    split at h
    · rename_i he
      simp at h; subst h; simp only [run_cons, run_nil, exec, argVal, ← he]
      push_cast
      rw [Frame.load_store, ext_mod]
    · split at h
      · simp at h
      · split at h
        · simp at h
        · simp only [Option.bind_eq_some_iff] at h
          rcases h with ⟨l, hl, h⟩
          split at hl <;> simp at hl
          simp at h; subst h; subst hl
          exact put_value m i pt hps.2 (ext s (partSize r.part) (regVal m r)) _ (by omega)
  | mem x n s =>
    simp only [stackArg, widen, Option.bind_eq_some_iff, psz_eq] at h
    rcases h with ⟨pt, hpt, h⟩
    have hz2 := partSize_le pt
    have hps := partOf_size hpt
    have hw : width p (.mem x n s) = psz p (.mem x n s) := by simp only [width]; split <;> omega
    have hv : argVal m p (.mem x n s) = ext s n (load m.mem (eaVal m x) n) := by
      simp only [argVal]; rw [if_neg (by omega)]
    rw [hw, hv]
    split at h
    · simp at h
    · split at h
      · simp at h
      · split at h
        · rename_i he
          simp at h; subst h
          refine (put_value m i pt hps.2 _ _ (by omega)).trans ?_
          simp only [srcVal, hps.1]
          rw [← he, ext_mod]
        · simp only [Option.bind_eq_some_iff] at h
          rcases h with ⟨l, hl, h⟩
          split at hl <;> simp at hl
          simp at h; subst h; subst hl
          exact put_value m i pt hps.2 _ _ (by omega)
  | memU x =>
    simp only [stackArg, psz_eq] at h
    split at h
    · rename_i h8
      have := hs h8
      omega
    · simp only [Option.bind_eq_some_iff] at h
      rcases h with ⟨pt, hpt, h⟩
      have hz2 := partSize_le pt
      have hps := partOf_size hpt
      split at h <;> simp at h
      have hw : width p (.memU x) = psz p (.memU x) := by simp only [width]; split <;> omega
      have hv : argVal m p (.memU x) = load m.mem (eaVal m x) (psz p (.memU x)) := by
        simp only [argVal]; rw [if_neg (by omega)]
      rw [hw, hv]
      subst h
      refine (put_value m i pt hps.2 _ _ (by omega)).trans ?_
      simp only [srcVal, hps.1]

/-- `mov r32, x` for a parameter of 8 bytes. -/
theorem gpr_set_d (m : M) (k : Nat) (v : Int) (h : 0 ≤ v ∧ v < 256 ^ 4) : (setReg m ⟨k, .d⟩ v).gpr k = v := by
  simp [setReg, merge]; omega

theorem int_value (i : Nat) (p : Param) (a : Arg) (used : List Nat) (o : List Ins × List Nat) (m : M)
    (h : intArg i p a used = some o) (hs : Sound p i a) :
    (run m o.1).gpr (preg i) % 256 ^ width p a = argVal m p a % 256 ^ width p a := by
  cases a with
  | addr x =>
    simp only [intArg, psz_eq] at h
    split at h
    · simp at h
    · simp at h; subst h; simp only [run_cons, run_nil, exec, argVal]
      split
      · have : width p (.addr x) ≤ 8 := by simp only [width]; split <;> omega
        rw [← mod_mod_pow _ _ _ this, ← mod_mod_pow (eaVal m x) _ _ this]
        congr 1
        exact gpr_set m ⟨preg i, .q⟩ _ 8 (by simp) rfl
      · have : width p (.addr x) = 4 := by simp only [width]; split <;> omega
        rw [this]
        exact gpr_set m ⟨preg i, .d⟩ _ 4 (by simp) rfl
  | const v nm =>
    simp only [intArg, psz_eq, Option.bind_eq_some_iff] at h
    rcases h with ⟨pt, hpt, h⟩
    have hps := partOf_size hpt
    have hle := partOf_le hpt
    have hw : width p (.const v nm) = psz p (.const v nm) := by simp only [width]; split <;> omega
    rw [hw]
    split at h
    · rename_i hz
      have hv : v = 0 := by
        cases nm with
        | number => simpa [isZero] using hz
        | equate => exact hs.2.2 rfl (by simpa [isZero] using hz)
        | null => exact hs.2.1 rfl
      subst hv
      simp at h; subst h; simp only [run_cons, run_nil, exec, argVal]
      split
      · rename_i hq
        subst hq
        rw [← hps.1, gpr_set_d _ _ _ (by omega)]
      · exact gpr_set m ⟨preg i, pt⟩ _ _ hps.2 hps.1
    · simp at h; subst h
      exact gpr_set m ⟨preg i, pt⟩ _ _ hps.2 hps.1
  | float f4 f8 => simp [intArg] at h
  | xmm k => simp [intArg] at h
  | reg r s =>
    have hr := regVal_range m r
    simp only [intArg, psz_eq, Option.bind_eq_some_iff] at h
    rcases h with ⟨pt, hpt, h⟩
    have hps := partOf_size hpt
    have hle := partOf_le hpt
    have hw : width p (.reg r s) = psz p (.reg r s) := by simp only [width]; split <;> omega
    rw [hw]
    simp only [argVal]
    split at h
    · simp at h
    split at h
    · rename_i he
      simp at h; subst h
      subst he
      simp only [run_nil]
      rw [← hps.1, ext_mod]
      cases pt <;> simp [regVal, partSize] at *
    split at h
    · split at h
      · rename_i h4
        simp at h; subst h
        simp only [run_cons, run_nil, exec, srcVal]
        rw [gpr_set_d _ _ _ (by rw [← h4.1]; exact hr), h4.2]
        simp [ext]
      · split at h
        · simp at h
        · simp at h; subst h
          exact gpr_set m ⟨preg i, pt⟩ _ _ hps.2 hps.1
    · split at h
      · simp at h
      · have he : partSize r.part = psz p (.reg r s) := by omega
        simp at h; subst h
        refine (gpr_set m ⟨preg i, pt⟩ _ _ hps.2 hps.1).trans ?_
        simp only [srcVal]
        rw [← he, ext_mod]
  | mem x n s =>
    simp only [intArg, psz_eq] at h
    split at h
    · rename_i h8
      have hw : width p (.mem x n s) = 8 := by simp only [width]; split <;> omega
      simp at h; subst h
      rw [hw]
      simp only [argVal, if_pos h8]
      exact gpr_set m ⟨preg i, .q⟩ _ 8 (by simp) rfl
    · rename_i h8
      simp only [Option.bind_eq_some_iff] at h
      rcases h with ⟨pt, hpt, h⟩
      have hps := partOf_size hpt
      have hw : width p (.mem x n s) = psz p (.mem x n s) := by simp only [width]; split <;> omega
      have hl := Invoke.load_range m.mem (eaVal m x) n
      rw [hw]
      simp only [argVal, if_neg h8]
      split at h
      · simp at h
      split at h
      · simp at h
      split at h
      · split at h
        · rename_i h4
          simp at h; subst h
          simp only [run_cons, run_nil, exec, srcVal, partSize]
          rw [gpr_set_d _ _ _ (by rw [← h4.1]; exact hl), h4.2]
          simp [ext, h4.1]
        · simp at h; subst h
          exact gpr_set m ⟨preg i, pt⟩ _ _ hps.2 hps.1
      · have he : n = psz p (.mem x n s) := by omega
        simp at h; subst h
        refine (gpr_set m ⟨preg i, pt⟩ _ _ hps.2 hps.1).trans ?_
        simp only [srcVal, hps.1]
        rw [← he, ext_mod]
  | memU x =>
    simp only [intArg, psz_eq] at h
    split at h
    · rename_i h8
      have hw : width p (.memU x) = 8 := by simp only [width]; split <;> omega
      simp at h; subst h
      rw [hw]
      simp only [argVal, if_pos h8]
      exact gpr_set m ⟨preg i, .q⟩ _ 8 (by simp) rfl
    · rename_i h8
      simp only [Option.bind_eq_some_iff] at h
      rcases h with ⟨pt, hpt, h⟩
      have hps := partOf_size hpt
      have hw : width p (.memU x) = psz p (.memU x) := by simp only [width]; split <;> omega
      rw [hw]
      simp only [argVal, if_neg h8]
      simp at h; subst h
      refine (gpr_set m ⟨preg i, pt⟩ _ _ hps.2 hps.1).trans ?_
      simp only [srcVal, hps.1]

theorem real_value (i : Nat) (p : Param) (a : Arg) (used : List Nat) (o : List Ins × List Nat) (m : M) (hi : i < 4)
    (h : realArg i p a used = some o) (hs : Sound p i a) (hp : WfParam p) (hr : p.kind = .real) :
    (run m o.1).xmm i % 256 ^ width p a = argVal m p a % 256 ^ width p a := by
  have h48 := hp.2.2 hr
  have hz : ∀ b, psz p b = p.psize := fun b => by simp [psz, hp.1]
  have hw : ∀ b, width p b = p.psize := fun b => by simp only [width, hz]; split <;> omega
  rw [hw]
  cases a with
  | addr x => exact absurd (hs hr hp.1) (by omega)
  | const v nm => exact absurd (hs.1 hr hp.1) (by omega)
  | reg r s => exact absurd (hs.2 hr hp.1) (by omega)
  | xmm k =>
    simp only [realArg, Option.some.injEq] at h; subst h
    simp only [argVal]
    split
    · rename_i he; rw [he]; rfl
    · simp [run_cons, run_nil, exec, setX]
  | float f4 f8 =>
    simp only [realArg] at h
    simp only [argVal, hz]
    split at h
    · rename_i h4
      simp at h; subst h
      simp only [run_cons, run_nil, exec, setX, h4]
      have := regVal_set m ⟨0, .d⟩ f4 (by simp)
      simp [this, partSize]
    · rename_i h4
      have h8 : p.psize = 8 := by omega
      simp at h; subst h
      simp only [run_cons, run_nil, exec, setX, h8]
      have := regVal_set m ⟨0, .q⟩ f8 (by simp)
      simp [this, partSize]
  | mem x n s =>
    have hn := hs hr hp.1
    simp only [realArg, Option.some.injEq] at h; subst h
    simp only [argVal, hz]
    rw [if_neg (by omega), ← hn, ext_mod]
    simp [run_cons, run_nil, exec, setX, hn]
  | memU x =>
    simp only [realArg, Option.some.injEq] at h; subst h
    simp only [argVal, hz]
    rw [if_neg (by omega)]
    simp [run_cons, run_nil, exec, setX]

theorem param_value (i : Nat) (p : Param) (a : Arg) (used : List Nat) (o : List Ins × List Nat) (m : M)
    (hp : p.vararg = true ∨ WfParam p) (h : param i p a used = some o) (hs : Sound p i a) :
    found (run m o.1) p i (width p a) = argVal m p a % 256 ^ width p a := by
  rcases (param_cases i p a used o h).2 with ⟨hi, h⟩ | ⟨hi, hr, h⟩ | ⟨hi, hr, h⟩
  · exact stack_value i p a used o m hi h hp hs
  · rw [found_real _ _ _ _ hi hr]
    have hp' : WfParam p := by
      rcases hp with hp | hp
      · simp [hp] at hr
      · exact hp
    exact real_value i p a used o m hi h hs hp' hr.1
  · rw [found_int _ _ _ _ hi hr]
    exact int_value i p a used o m h hs

end Verif.Invoke64
