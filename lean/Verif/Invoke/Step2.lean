import Verif.Invoke.Step
/-! # One argument: registers, constants, addresses -/
namespace Verif.Invoke
open Frame (store load store_out load_congr load_store)

/-- A byte register in EAX, invoke by `movx`/`movAl`. -/
theorem regVal_eq (m0 m : M) (used : Bool) (p : Param) (a : Arg) (hp : Pre m0 m used p a) (r : Reg)
    (h : ¬ (used = true ∧ r.num = 0)) : regVal m r = regVal m0 r ∧ m.gpr r.num = m0.gpr r.num := by
  have e : m.gpr r.num = m0.gpr r.num := by
    by_cases h0 : r.num = 0
    · rw [h0]; apply hp.eax
      cases used with
      | false => rfl
      | true => exact absurd ⟨rfl, h0⟩ h
    · exact hp.gpr _ h0
  exact ⟨by unfold regVal; rw [e], e⟩

theorem step_reg (p : Param) (hv : p.vararg = true → p.psize = 0) (r : Reg) (signed : Bool) (used : Bool) (m0 m : M)
    (hp : Pre m0 m used p (.reg r signed)) (o : Out) (h : pushRegArg p r signed used = some o) :
    Pushed m (run m o.ins) (slot p (.reg r signed)) (width p (.reg r signed)) (argVal m0 p (.reg r signed)) ∧
    (o.used = false → used = false ∧ (run m o.ins).gpr 0 = m.gpr 0) := by
  unfold pushRegArg at h
  dsimp only at h
  generalize hq : (if p.vararg = true then partSize r.part else p.psize) = q at h
  generalize hps : (if p.vararg = true ∧ q < 4 then 4 else q) = ps at h
  have hpart : partSize r.part = 4 ∧ r.part = .full ∨ partSize r.part = 2 ∧ r.part = .word ∨
      partSize r.part = 1 ∧ (r.part = .low ∨ r.part = .high) := by
    cases r.part <;> simp [partSize]
  generalize hn : partSize r.part = n at *
  by_cases hsz : n > q ∨ (n < q ∧ p.isPtr = true)
  · rw [if_pos hsz] at h; cases h
  rw [if_neg hsz] at h
  by_cases hus : used = true ∧ r.num = 0
  · rw [if_pos hus] at h; cases h
  rw [if_neg hus] at h
  obtain ⟨hrv, hgr⟩ := regVal_eq _ _ _ _ _ hp r hus
  have hrng := regVal_range m hp.range r
  rw [hrv, hn] at hrng
  have hw : width p (.reg r signed) = ps := by
    simp only [width]
    cases hvv : p.vararg with
    | true => rw [hvv] at hq hps; simp only [if_true] at hq; simp only [true_and] at hps; rw [if_pos rfl]; split at hps <;> omega
    | false => rw [hvv] at hq hps; simp at hq hps; simp; omega
  have hqp : q ≤ ps := by split at hps <;> omega
  have hval : argVal m0 p (.reg r signed) = ext signed n (regVal m0 r) := by simp only [argVal, hn]
  rw [slot, hw, hval]
  have hmovx : ps ≤ 4 → Pushed m (run m [.movx signed n (.reg r), .pushReg 4 0]) ((ps + 3) / 4 * 4) ps (ext signed n (regVal m0 r)) := by
    intro h4
    refine pushed_eax m hp.range _ (ext signed n (regVal m0 r) % 2 ^ 32) _ ?_ ?_ _ (by omega) h4 ?_
    · simp only [exec, srcVal, hrv]
    · exact ⟨Int.emod_nonneg _ (by decide), Int.emod_lt_of_pos _ (by decide)⟩
    · rw [mod_w _ _ h4]
  have hlow : r.part ≠ .high → m.gpr r.num % 256 ^ n = ext signed n (regVal m0 r) % 256 ^ n := by
    intro hh
    rw [ext_mod, ← hrv]
    have := hp.range r.num
    rcases hpart with ⟨rfl, hpp⟩ | ⟨rfl, hpp⟩ | ⟨rfl, hpp | hpp⟩
    · simp only [regVal, hpp]
    · simp only [regVal, hpp]; omega
    · simp only [regVal, hpp]; omega
    · exact absurd hpp hh
  by_cases hne : n ≠ ps ∨ n < 4
  · rw [if_pos hne] at h
    by_cases h4 : ps > 4
    · rw [if_pos h4] at h; cases h
    rw [if_neg h4] at h
    by_cases he : n = ps
    · rw [if_pos he] at h
      by_cases h2 : n = 2 ∨ r.part = .low
      · rw [if_pos h2] at h
        cases h
        refine ⟨?_, fun hu => ⟨hu, rfl⟩⟩
        refine pushed_dword m hp.range ps (by omega) (by omega) _ (m.gpr r.num) ?_ _ rfl
        rw [← he]
        apply hlow
        rintro hh
        rcases h2 with h2 | h2
        · rw [hh] at hpart; simp at hpart; omega
        · rw [hh] at h2; cases h2
      · rw [if_neg h2] at h
        cases h
        refine ⟨?_, fun hu => by cases hu⟩
        have h1 : n = 1 := by omega
        rw [h1] at hrng
        refine pushed_eax m hp.range _ (m.gpr 0 / 256 * 256 + regVal m0 r) _ ?_ ?_ _ (by omega) (by omega) ?_
        · simp only [exec, srcVal, hrv]
        · have := hp.range 0; omega
        · rw [← he, ext_mod, h1]; omega
    · rw [if_neg he] at h
      by_cases h2 : n = 2
      · rw [if_pos h2] at h
        by_cases hsg : signed = true
        · rw [if_pos hsg] at h
          cases h
          refine ⟨?_, fun hu => by cases hu⟩
          have := hmovx (by omega)
          rw [hsg, h2] at this ⊢
          exact this
        · rw [if_neg hsg] at h
          cases h
          refine ⟨?_, fun hu => ⟨hu, rfl⟩⟩
          have hsg' : signed = false := by simpa using hsg
          rw [h2] at hrng
          refine pushed_words m hp.range (regVal m0 r) _ hrng _ (by omega) (by omega) (by rw [hsg']; rfl) _ ?_
          simp only [run, List.foldl_cons, List.foldl_nil, exec]
          have hw2 : r.part = .word := by rcases hpart with ⟨_, _⟩ | ⟨_, hh⟩ | ⟨_, _⟩ <;> first | omega | exact hh
          have : regVal m0 r = m.gpr r.num % 256 ^ 2 := by rw [← hrv]; simp only [regVal, hw2]; rfl
          rw [this, store_mod, show m.sp - ((2 : Nat) : Int) - ((2 : Nat) : Int) = m.sp - 4 by omega]
          rfl
      · rw [if_neg h2] at h
        cases h
        refine ⟨?_, fun hu => by cases hu⟩
        have := hmovx (by omega)
        have h1 : n = 1 := by omega
        rw [h1] at this ⊢
        exact this
  · rw [if_neg hne] at h
    cases h
    refine ⟨?_, fun hu => ⟨hu, rfl⟩⟩
    refine pushed_dword m hp.range ps (by omega) (by omega) _ (m.gpr r.num) ?_ _ rfl
    have : ps = n := by omega
    rw [this]
    apply hlow
    rintro hh
    rw [hh] at hpart; simp at hpart; omega

theorem step_const (p : Param) (hv : p.vararg = true → p.psize = 0) (v : Int) (used : Bool) (m0 m : M)
    (hp : Pre m0 m used p (.const v)) (o : Out) (h : pushConstArg p v used = some o) :
    Pushed m (run m o.ins) (slot p (.const v)) (width p (.const v)) (argVal m0 p (.const v)) ∧
    (o.used = false → used = false ∧ (run m o.ins).gpr 0 = m.gpr 0) := by
  unfold pushConstArg at h
  dsimp only at h
  by_cases h0 : p.psize = 0 ∧ p.vararg = false
  · rw [if_pos h0] at h; cases h
  rw [if_neg h0] at h
  by_cases h1 : p.vararg = false ∧ p.psize < constSize v
  · rw [if_pos h1] at h; cases h
  rw [if_neg h1] at h
  generalize hq : (if p.vararg = true then 4 else if p.psize < 4 then 4 else p.psize) = q at h
  have hw : width p (.const v) = if p.vararg = true then 4 else p.psize := rfl
  have hw0 : 0 < width p (.const v) := by
    rw [hw]; split
    · omega
    · rename_i hh; have : p.vararg = false := by simpa using hh
      simp only [this, and_true] at h0; omega
  have hval : argVal m0 p (.const v) = v := rfl
  rw [slot, hval]
  by_cases h4 : q = 4
  · rw [if_pos h4] at h
    split at h
    · cases h
      refine ⟨?_, fun hu => ⟨hu, rfl⟩⟩
      refine pushed_dword m hp.range _ hw0 ?_ _ v rfl _ rfl
      rw [hw]; split
      · omega
      · rename_i hh; rw [if_neg hh] at hq; split at hq <;> omega
    · cases h
  · rw [if_neg h4] at h
    split at h
    · rename_i h8
      cases h
      have hww : width p (.const v) = 8 := by
        rw [hw]; split at hq
        · omega
        · rename_i hh; rw [if_neg hh]; split at hq <;> omega
      rw [hww]
      refine ⟨?_, fun hu => ⟨hu, rfl⟩⟩
      have e : run m [.pushImm 4 (v / 2 ^ 32), .pushImm 4 v] = { m with sp := m.sp - 8, mem := store m.mem (m.sp - 8) 8 v } := by
        simp only [run, List.foldl_cons, List.foldl_nil, exec]
        have := store_split m.mem 4 4 (m.sp - 8) v
        rw [show m.sp - 8 + ((4 : Nat) : Int) = m.sp - 4 by omega] at this
        rw [← this, show m.sp - ((4 : Nat) : Int) - ((4 : Nat) : Int) = m.sp - 8 by omega]
        rfl
      rw [e]
      refine ⟨rfl, ?_, ?_, fun _ _ => rfl, hp.range⟩
      · simp only; rw [load_store]
      · intro x hx; simp only at hx; exact store_out _ _ _ _ _ (by omega)
    · cases h

theorem step_addr (p : Param) (hv : WfParam p) (a : Int ⊕ EA) (used : Bool) (m0 m : M) (arg : Arg)
    (harg : arg = match a with | .inl v => .addrDirect v | .inr x => .addrIndirect x) (ht : Tame arg)
    (hp : Pre m0 m used p arg) (o : Out) (h : pushAddrArg p a used = some o) :
    Pushed m (run m o.ins) (slot p arg) (width p arg) (argVal m0 p arg) ∧
    (o.used = false → used = false ∧ (run m o.ins).gpr 0 = m.gpr 0) := by
  unfold pushAddrArg at h
  dsimp only at h
  by_cases h4 : p.psize > 4
  · rw [if_pos h4] at h; cases h
  rw [if_neg h4] at h
  have hw : width p arg = if p.vararg = true then 4 else p.psize := by subst harg; cases a <;> rfl
  have hw4 : width p arg ≤ 4 := by rw [hw]; split <;> omega
  have hw0 : 0 < width p arg := by
    rw [hw]; unfold WfParam at hv; split
    · omega
    · rename_i hh; rw [if_neg hh] at hv; exact hv
  cases a with
  | inl v =>
    simp only at h harg
    subst harg
    cases h
    exact ⟨pushed_dword m hp.range _ hw0 hw4 _ v rfl _ rfl, fun hu => ⟨hu, rfl⟩⟩
  | inr x =>
    simp only at h harg
    subst harg
    cases h
    refine ⟨?_, fun hu => by cases hu⟩
    have hea : eaVal m x = eaVal m0 x := eaVal_congr _ _ _ fun r hr => hp.gpr r (by rintro rfl; exact ht.1 hr)
    refine pushed_eax m hp.range _ (eaVal m0 x % 2 ^ 32) _ ?_ ?_ _ hw0 hw4 ?_
    · simp only [exec, hea]
    · exact ⟨Int.emod_nonneg _ (by decide), Int.emod_lt_of_pos _ (by decide)⟩
    · rw [mod_w _ _ hw4]; rfl

/-- One argument. -/
theorem step (c : Cfg) (hc : c.espBase = false) (p : Param) (hv : WfParam p) (a : Arg) (ht : Tame a) (hs : Sound p a) (used : Bool)
    (m0 m : M) (hp : Pre m0 m used p a) (o : Out) (h : pushArg c p a used = some o) :
    Pushed m (run m o.ins) (slot p a) (width p a) (argVal m0 p a) ∧ (o.used = false → used = false ∧ (run m o.ins).gpr 0 = m.gpr 0) := by
  have hv' : p.vararg = true → p.psize = 0 := fun e => by unfold WfParam at hv; rwa [if_pos e] at hv
  cases a with
  | mem x ty => exact step_mem c hc p hv' x ty ht hs used m0 m hp o h
  | reg r sg => exact step_reg p hv' r sg used m0 m hp o h
  | xmm n => exact hs.elim
  | const v => exact step_const p hv' v used m0 m hp o h
  | addrDirect v => exact step_addr p hv (.inl v) used m0 m _ rfl ht hp o h
  | addrIndirect x => exact step_addr p hv (.inr x) used m0 m _ rfl ht hp o h

end Verif.Invoke
