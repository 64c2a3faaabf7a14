import Verif.Ins.Check
import Mathlib.Tactic.ByContra
/-! # C64: operand lists that no row accepts -/
namespace Verif.Ins
open Verif.ModRM (Mode)

def immT (t : Nat) : Prop := t = oI8 ∨ t = oI16 ∨ t = oI32

theorem idata_type {m : Mode} {fam : Fam} {i : Nat} {s s' : F} {f : Facts} {z : Option Sz} (h : idata m fam i s f z = some s') :
    ∃ t, immT t ∧ ∃ s0 : F, s0.t1 = s.t1 ∧ s0.t2 = s.t2 ∧ s0.t3 = s.t3 ∧ s' = s0.setT i t := by
  unfold idata at h
  split at h
  · exact absurd h (by simp)
  rename_i ty hty
  have hi : immT ty := by
    unfold immT
    unfold immType at hty
    split at hty <;> simp only [Option.some.injEq, reduceCtorEq] at hty
    · left; exact hty.symm
    · right; left; exact hty.symm
    · right; right; exact hty.symm
    · split at hty
      · left; exact hty.symm
      · split at hty
        · right; left; exact hty.symm
        · right; right; exact hty.symm
  simp only [Option.some.injEq] at h
  refine ⟨_, ?_, _, ?_, ?_, ?_, h.symm⟩
  · unfold pushType; split
    · right; right; rfl
    · exact hi
  all_goals rfl

theorem setT_t1 (s : F) (t : Nat) : (s.setT 0 t).t1 = t := rfl
theorem setT_t2 (s : F) (t : Nat) : (s.setT 1 t).t2 = t := rfl
theorem setT_1_t1 (s : F) (t : Nat) : (s.setT 1 t).t1 = s.t1 := rfl
theorem setT_2_t1 (s : F) (t : Nat) : (s.setT 2 t).t1 = s.t1 := rfl
theorem setT_2_t2 (s : F) (t : Nat) : (s.setT 2 t).t2 = s.t2 := rfl

/-- Registers have a type. -/
def AOp.wf : AOp → Prop
  | .reg ty _ _ => ty ≠ 0
  | _ => True

theorem procReg_t (m : Mode) (i : Nat) (s : F) (ty : Nat) (a b : Bool) :
    (procReg m i s ty a b).t1 = (s.setT i ty).t1 ∧ (procReg m i s ty a b).t2 = (s.setT i ty).t2 := by
  unfold procReg
  simp only
  split
  · exact ⟨rfl, rfl⟩
  · constructor <;> (repeat' split) <;> rfl

theorem setMemtype_t (m : Mode) (fam : Fam) (s : F) (z : Option Sz) :
    (setMemtype m fam s z).t1 = s.t1 ∧ (setMemtype m fam s z).t2 = s.t2 := by
  unfold setMemtype
  constructor <;> (repeat' split) <;> rfl

theorem memType_ne (z : Option Sz) : memType z ≠ 0 := by
  rcases z with _ | z
  · decide
  · cases z <;> decide

/-- What an operand does to the types. -/
theorem procOp_t {m : Mode} {fam : Fam} {i : Nat} {s s' : F} {o : AOp} (ho : o.wf) (h : procOp m fam i s o = some s') :
    ∃ t, t ≠ 0 ∧ (o.isImm = true → immT t) ∧ s'.t1 = (s.setT i t).t1 ∧ s'.t2 = (s.setT i t).t2 := by
  cases o with
  | reg ty a b =>
    simp only [procOp, Option.some.injEq] at h
    subst h
    exact ⟨ty, ho, by simp [AOp.isImm], procReg_t m i s ty a b⟩
  | mem z =>
    simp only [procOp, memOp] at h
    split at h
    · exact absurd h (by simp)
    simp only [Option.some.injEq] at h
    subst h
    obtain ⟨e1, e2⟩ := setMemtype_t m fam s z
    refine ⟨memType (setMemtype m fam s z).msize, memType_ne _, by simp [AOp.isImm], ?_, ?_⟩
    · generalize memType _ = t; unfold F.setT; split <;> simp [e1]
    · generalize memType _ = t; unfold F.setT; split <;> simp [e2]
  | imm f z =>
    simp only [procOp] at h
    obtain ⟨t, ht, s0, e1, e2, -, rfl⟩ := idata_type h
    refine ⟨t, ?_, fun _ => ht, ?_, ?_⟩
    · rcases ht with rfl | rfl | rfl <;> decide
    · unfold F.setT; split <;> simp [e1]
    · unfold F.setT; split <;> simp [e2]

theorem checkDefault_t {m : Mode} {s s' : F} {f : Facts} (h : checkDefault m s f = some s') :
    (immT s.t1 → s'.t1 = s.t1) ∧ (s.t2 ≠ 0 → s'.t2 ≠ 0) ∧ (immT s.t2 → immT s'.t2) := by
  unfold checkDefault at h
  simp only at h
  generalize (if opSize s s.t1 > opSize s s.t2 ∧ (s.t2 = oI8 ∨ s.t2 = oI16 ∨ s.t2 = oI32) then opSize s s.t1 else opSize s s.t2) = z2 at h
  have h16 : oI16 ≠ 0 := by decide
  have h32 : oI32 ≠ 0 := by decide
  have h8 : oI8 ≠ 0 := by decide
  split at h
  · cases h; exact ⟨fun _ => rfl, id, id⟩
  split at h
  · cases h; exact ⟨fun _ => rfl, id, id⟩
  split at h
  · exact absurd h (by simp)
  split at h
  · rename_i hc
    have hm : ¬ immT s.t1 := by
      rintro (q | q | q) <;> rw [q] at hc <;> exact hc.2.1 (by decide)
    split at h
    · generalize (if m = Mode.u16 ∧ z2 > 2 ∧ f.word = true then 2 else z2) = z at h
      split at h
      · cases h; exact ⟨fun _ => rfl, fun _ => h16, fun _ => Or.inr (Or.inl rfl)⟩
      · cases h; exact ⟨fun _ => rfl, fun _ => h32, fun _ => Or.inr (Or.inr rfl)⟩
    · split at h
      · cases h; exact ⟨fun _ => rfl, fun _ => h16, fun _ => Or.inr (Or.inl rfl)⟩
      · cases h; exact ⟨fun q => absurd q hm, fun _ => h8, fun _ => Or.inl rfl⟩
  · cases h; exact ⟨fun _ => rfl, id, id⟩

theorem checkImul_t {s s' : F} (h : checkImul s = some s') : s'.t1 = s.t1 ∧ s'.t2 = s.t2 := by
  unfold checkImul at h
  split at h
  · split at h
    · exact absurd h (by simp)
    · split at h <;> cases h <;> exact ⟨rfl, rfl⟩
  · cases h; exact ⟨rfl, rfl⟩

theorem checkSize_t {m : Mode} {fam : Fam} {s s' : F} {f : Facts} (h : checkSize m fam s f = some s') :
    (immT s.t1 → s'.t1 = s.t1) ∧ (s.t2 ≠ 0 → s'.t2 ≠ 0) ∧ (immT s.t2 → immT s'.t2) := by
  unfold checkSize at h
  split at h
  · cases h; exact ⟨fun _ => rfl, id, id⟩
  · split at h
    · exact absurd h (by simp)
    · simp only [Option.some.injEq] at h
      subst h
      split <;> exact ⟨fun _ => rfl, id, id⟩
  · simp only at h
    repeat' split at h
    all_goals first | (cases h; exact ⟨fun _ => rfl, id, id⟩) | (exact absurd h (by simp; done))
  · simp only [bind, Option.bind] at h
    split at h
    · exact absurd h (by simp)
    rename_i s1 h1
    obtain ⟨e1, e2⟩ := checkImul_t h1
    have := checkDefault_t h
    rw [e1, e2] at this
    exact this
  · exact checkDefault_t h

theorem scan_none {m : Mode} {fam : Fam} {s : F} {o1 : Nat} {f1 f2 f3 : Facts} {rs : List Form} :
    ∀ i, (∀ r ∈ rs, ∀ n, row m fam s o1 f1 f2 f3 r n = .no) → scan m fam s o1 f1 f2 f3 i rs = none := by
  induction rs with
  | nil => intro i _; rfl
  | cons r rs ih =>
    intro i h
    rw [scan, h r (by simp)]
    exact ih _ fun r hr => h r (by simp [hr])

theorem row_no {m : Mode} {fam : Fam} {s : F} {o1 : Nat} {f1 f2 f3 : Facts} {r : Form} {n : Option Form}
    (h : ∀ o, checkOp2 m fam s o f2 f3 r n = .no) : row m fam s o1 f1 f2 f3 r n = .no := by
  unfold row
  repeat' split
  all_goals first | rfl | exact h _

/-- Rows for constants in the first place have no second operand. -/
theorem forms_imm1 : ∀ m ∈ modes, ∀ fam ∈ fams, ∀ r ∈ forms m fam,
    (oI &&& r.t1 = 0 ∧ oIGE16 &&& r.t1 = 0 ∧ oI32 &&& r.t1 = 0) ∨ r.t2 = 0 := by decide +kernel

/-- Rows for three operands take no constant in the second place. -/
theorem forms_imm2 : ∀ m ∈ modes, ∀ fam ∈ fams, ∀ r ∈ (skip3 0 (forms m fam)).2,
    r.t2 ≠ oI ∧ r.t2 ≠ oI8U ∧ r.t2 ≠ oI8 ∧ r.t2 ≠ oI1 ∧ oI8 &&& r.t2 = 0 ∧ oI16 &&& r.t2 = 0 ∧ oI32 &&& r.t2 = 0 := by decide +kernel

theorem skip3_sub (i : Nat) (rs : List Form) : ∀ r ∈ (skip3 i rs).2, r ∈ rs := by
  induction rs generalizing i with
  | nil => intro r hr; exact hr
  | cons q rs ih =>
    intro r hr
    rw [skip3] at hr
    split at hr
    · exact List.mem_cons_of_mem _ (ih _ r hr)
    · exact hr

theorem mem_modes (m : Mode) : m ∈ modes := by cases m <;> decide
theorem mem_fams (fam : Fam) : fam ∈ fams := by cases fam <;> decide

theorem checkOp2_t2_zero {m : Mode} {fam : Fam} {s : F} {o : Nat} {f2 f3 : Facts} {r : Form} {n : Option Form} (hs : s.t2 ≠ 0)
    (hr : r.t2 = 0) : checkOp2 m fam s o f2 f3 r n = .no := by
  unfold checkOp2 matchOp2
  rw [if_neg hs, hr]
  simp only
  rw [if_neg (by decide), if_neg (by decide), if_neg (by decide), if_neg (by decide), if_neg (by simp)]

theorem go_imm1 {m : Mode} {fam : Fam} {ops : List AOp} {s : F} {i : Nat} {rs : List Form} (hs : immT s.t1) (h2 : s.t2 ≠ 0)
    (hr : ∀ r ∈ rs, r ∈ forms m fam) : plan.go m fam ops s i rs = none := by
  unfold plan.go
  apply scan_none
  intro r hr' n
  rcases forms_imm1 m (mem_modes m) fam (mem_fams fam) r (hr r hr') with ⟨a, b, c⟩ | q
  · unfold row
    rw [if_pos]
    rcases hs with e | e | e
    · rw [if_pos e]; exact a
    · rw [if_neg (by rw [e]; decide), if_pos e]; exact b
    · rw [if_neg (by rw [e]; decide), if_neg (by rw [e]; decide), e]; exact c
  · exact row_no fun o => checkOp2_t2_zero h2 q

theorem plan_imm_first (m : Mode) (fam : Fam) (f : Facts) (z : Option Sz) (o2 : AOp) (os : List AOp) (h2 : o2.wf)
    (hos : ∀ o ∈ os, o.wf) : plan m fam (.imm f z :: o2 :: os) = none := by
  cases hp : plan m fam (.imm f z :: o2 :: os) with
  | none => rfl
  | some p =>
    exfalso
    unfold plan at hp
    cases os with
    | nil =>
      simp only [List.length_cons, List.length_nil, procOps, Option.bind_eq_bind, Option.bind_eq_some_iff, Option.some.injEq] at hp
      obtain ⟨s, ⟨s1, hs1, s2, hs2, rfl⟩, s', hs', hp⟩ := hp
      obtain ⟨t, -, ht, e1, -⟩ := procOp_t (by trivial) hs1
      obtain ⟨t', ht', -, e1', e2'⟩ := procOp_t h2 hs2
      obtain ⟨c1, c2, -⟩ := checkSize_t hs'
      have i1 : immT s2.t1 := by rw [e1', setT_1_t1, e1, setT_t1]; exact ht rfl
      have i2 : s2.t2 ≠ 0 := by rw [e2', setT_t2]; exact ht'
      rw [go_imm1 (by rw [c1 i1]; exact i1) (c2 i2) (fun r hr => hr)] at hp
      exact absurd hp (by simp)
    | cons o3 os =>
      cases os with
      | nil =>
        simp only [List.length_cons, List.length_nil, procOps, Option.bind_eq_bind, Option.bind_eq_some_iff, Option.some.injEq] at hp
        obtain ⟨s, ⟨s1, hs1, s2, hs2, s3, hs3, rfl⟩, s', hs', hp⟩ := hp
        obtain ⟨t, -, ht, e1, -⟩ := procOp_t (by trivial) hs1
        obtain ⟨t', ht', -, e1', e2'⟩ := procOp_t h2 hs2
        obtain ⟨t3, -, -, e1'', e2''⟩ := procOp_t (hos o3 (by simp)) hs3
        obtain ⟨c1, c2, -⟩ := checkSize_t hs'
        have i1 : immT s3.t1 := by rw [e1'', setT_2_t1, e1', setT_1_t1, e1, setT_t1]; exact ht rfl
        have i2 : s3.t2 ≠ 0 := by rw [e2'', setT_2_t2, e2', setT_t2]; exact ht'
        rw [go_imm1 (by rw [c1 i1]; exact i1) (c2 i2) (skip3_sub _ _)] at hp
        exact absurd hp (by simp)
      | cons o4 os =>
        simp only [List.length_cons] at hp
        exact absurd hp (by simp)

theorem plan_imm_second (m : Mode) (fam : Fam) (f : Facts) (z : Option Sz) (o1 o3 : AOp) (h1 : o1.wf) (h3 : o3.wf) :
    plan m fam [o1, .imm f z, o3] = none := by
  cases hp : plan m fam [o1, .imm f z, o3] with
  | none => rfl
  | some p =>
    exfalso
    unfold plan at hp
    simp only [List.length_cons, List.length_nil, procOps, Option.bind_eq_bind, Option.bind_eq_some_iff, Option.some.injEq] at hp
    obtain ⟨s, ⟨s1, hs1, s2, hs2, s3, hs3, rfl⟩, s', hs', hp⟩ := hp
    obtain ⟨t, ht, i2, e1, e2⟩ := procOp_t (o := .imm f z) trivial hs2
    obtain ⟨t3, -, -, e1'', e2''⟩ := procOp_t h3 hs3
    obtain ⟨-, -, c3⟩ := checkSize_t hs'
    have i2 : immT s'.t2 := c3 (by rw [e2'', setT_2_t2, e2, setT_t2]; exact i2 rfl)
    have : plan.go m fam [o1, .imm f z, o3] s' (skip3 0 (forms m fam)).1 (skip3 0 (forms m fam)).2 = none := by
      unfold plan.go
      apply scan_none
      intro r hr n
      obtain ⟨a1, a2, a3, a4, a5, a6, a7⟩ := forms_imm2 m (mem_modes m) fam (mem_fams fam) r hr
      apply row_no
      intro o
      unfold checkOp2 matchOp2
      have : s'.t2 ≠ 0 := by rcases i2 with e | e | e <;> rw [e] <;> decide
      rw [if_neg this]
      simp only
      rw [if_neg a1, if_neg a2, if_neg a3, if_neg a4, if_neg]
      rcases i2 with e | e | e <;> rw [e]
      · exact fun q => q a5
      · exact fun q => q a6
      · exact fun q => q a7
    rw [this] at hp
    exact absurd hp (by simp)

/-- Families without rows for three operands. -/
theorem plan_no3 (m : Mode) (fam : Fam) (h : (skip3 0 (forms m fam)).2 = []) (o1 o2 o3 : AOp) : plan m fam [o1, o2, o3] = none := by
  cases hp : plan m fam [o1, o2, o3] with
  | none => rfl
  | some p =>
    exfalso
    unfold plan at hp
    simp only [List.length_cons, List.length_nil, Option.bind_eq_bind, Option.bind_eq_some_iff] at hp
    obtain ⟨s, -, s', -, hp⟩ := hp
    rw [h] at hp
    exact absurd hp (by simp [plan.go, scan])

theorem skip3_empty : ∀ m ∈ modes, ∀ fam ∈ fams, fam ≠ .imul → fam ≠ .shxd → (skip3 0 (forms m fam)).2 = [] := by decide +kernel

/-- Families without rows for two operands. -/
theorem plan_no2 (m : Mode) (fam : Fam) (h : ∀ r ∈ forms m fam, r.t2 = 0) (o1 o2 : AOp) (h2 : o2.wf) : plan m fam [o1, o2] = none := by
  cases hp : plan m fam [o1, o2] with
  | none => rfl
  | some p =>
    exfalso
    unfold plan at hp
    simp only [List.length_cons, List.length_nil, procOps, Option.bind_eq_bind, Option.bind_eq_some_iff, Option.some.injEq] at hp
    obtain ⟨s, ⟨s1, hs1, s2, hs2, rfl⟩, s', hs', hp⟩ := hp
    obtain ⟨t', ht', -, -, e2'⟩ := procOp_t h2 hs2
    obtain ⟨-, c2, -⟩ := checkSize_t hs'
    have i2 : s2.t2 ≠ 0 := by rw [e2', setT_t2]; exact ht'
    unfold plan.go at hp
    rw [scan_none 0 (fun r hr n => row_no fun o => checkOp2_t2_zero (c2 i2) (h r hr))] at hp
    exact absurd hp (by simp)

theorem fams2_all : ∀ m ∈ modes, ∀ fam ∈ fams, fam ∈ fams2 ∨ ∀ r ∈ forms m fam, r.t2 = 0 := by decide +kernel

theorem procOps_q {m : Mode} {fam : Fam} {f : Facts} : ∀ {ops : List AOp} {i : Nat} {s : F}, .imm f (some .q) ∈ ops → procOps m fam i s ops = none := by
  intro ops
  induction ops with
  | nil => intro i s h; simp at h
  | cons o os ih =>
    intro i s h
    rw [procOps]
    rcases List.mem_cons.mp h with rfl | h
    · rfl
    · cases procOp m fam i s o with
      | none => rfl
      | some s1 => exact ih h

theorem plan_q {m : Mode} {fam : Fam} {ops : List AOp} {f : Facts} (h : .imm f (some .q) ∈ ops) : plan m fam ops = none := by
  unfold plan
  split
  · rfl
  all_goals first | rfl | (rw [procOps_q h]; rfl)

theorem scan_some {m : Mode} {fam : Fam} {s : F} {o1 : Nat} {f1 f2 f3 : Facts} {rs : List Form} {i : Nat} {p : Plan}
    (h : scan m fam s o1 f1 f2 f3 i rs = some p) : ∃ r ∈ rs, ∃ n, row m fam s o1 f1 f2 f3 r n ≠ .no := by
  by_contra hn
  rw [scan_none i fun r hr n => Classical.byContradiction fun q => hn ⟨r, hr, n, q⟩] at h
  exact absurd h (by simp)

/-- What a third operand (not memory) leaves alone. -/
theorem procOp_third {m : Mode} {fam : Fam} {s s' : F} {o : AOp} (ho : o.isMem = false) (h : procOp m fam 2 s o = some s') :
    s'.t1 = s.t1 ∧ s'.t2 = s.t2 ∧ s'.msize = s.msize := by
  cases o with
  | reg ty a b =>
    simp only [procOp, procReg, Option.some.injEq] at h
    subst h
    rw [if_pos (by decide)]
    exact ⟨rfl, rfl, rfl⟩
  | mem z => simp [AOp.isMem] at ho
  | imm f z =>
    simp only [procOp, idata] at h
    split at h
    · exact absurd h (by simp)
    · simp only [Option.some.injEq] at h
      subst h
      exact ⟨rfl, rfl, rfl⟩

theorem procOp_third_mem {m : Mode} {fam : Fam} {s s' : F} {z : Option Sz} (h : procOp m fam 2 s (.mem z) = some s') :
    ∃ z, s'.t3 = memType z := by
  simp only [procOp, memOp] at h
  split at h
  · exact absurd h (by simp)
  · simp only [Option.some.injEq] at h
    subst h
    exact ⟨_, rfl⟩

theorem memType_t3 (z : Option Sz) : memType z &&& oI = 0 ∧ memType z &&& (oI16 ||| oI32) = 0 ∧ memType z ≠ oCL := by
  rcases z with _ | z
  · decide
  · cases z <;> decide

theorem opSize_congr {s s' : F} (h : s'.msize = s.msize) (t : Nat) : opSize s' t = opSize s t := by unfold opSize; rw [h]

theorem checkDefault_plain {m : Mode} {s s' : F} {f : Facts} (h2 : s.t2 &&& oI = 0) (h : checkDefault m s f = some s') :
    s' = s ∧ (opSize s s.t1 = opSize s s.t2 ∨ opSize s s.t1 = 0 ∨ opSize s s.t2 = 0) := by
  unfold checkDefault at h
  simp only at h
  have n : ¬ (s.t2 = oI8 ∨ s.t2 = oI16 ∨ s.t2 = oI32) := by rintro (e | e | e) <;> rw [e] at h2 <;> exact absurd h2 (by decide)
  rw [if_neg (fun q : _ ∧ _ => n q.2), if_neg (fun q => n (Or.inr (Or.inl q.2.1)))] at h
  split at h
  · cases h; exact ⟨rfl, Or.inl (by assumption)⟩
  split at h
  · exact absurd h (by simp)
  · rename_i h3
    rw [if_neg (fun q => q.2.2 h2)] at h
    cases h
    exact ⟨rfl, Or.inr (by omega)⟩

theorem checkImul_m {s s' : F} (h : checkImul s = some s') : s'.msize = s.msize ∧ (∀ z, s.t3 = memType z → s'.t3 = s.t3) := by
  unfold checkImul at h
  split at h
  · split at h
    · exact absurd h (by simp)
    · split at h
      · rename_i hc
        cases h
        refine ⟨rfl, fun z hz => absurd ?_ hc⟩
        rw [hz]; exact (memType_t3 z).2.1
      · cases h; exact ⟨rfl, fun _ _ => rfl⟩
  · cases h; exact ⟨rfl, fun _ _ => rfl⟩

theorem forms_t3 : ∀ m ∈ modes, ∀ fam ∈ fams, ∀ r ∈ (skip3 0 (forms m fam)).2, r.t3 ≠ .none := by decide +kernel

theorem checkDefault_t3 {m : Mode} {s s' : F} {f : Facts} (h : checkDefault m s f = some s') : s'.t3 = s.t3 := by
  unfold checkDefault at h
  simp only at h
  generalize (if opSize s s.t1 > opSize s s.t2 ∧ (s.t2 = oI8 ∨ s.t2 = oI16 ∨ s.t2 = oI32) then opSize s s.t1 else opSize s s.t2) = z2 at h
  split at h
  · cases h; rfl
  split at h
  · cases h; rfl
  split at h
  · exact absurd h (by simp)
  split at h
  · split at h
    · generalize (if m = Mode.u16 ∧ z2 > 2 ∧ f.word = true then 2 else z2) = z at h
      split at h <;> cases h <;> rfl
    · split at h <;> cases h <;> rfl
  · cases h; rfl

theorem checkSize3 {m : Mode} {fam : Fam} (hf : fam = .imul ∨ fam = .shxd) {s s' : F} {f : Facts} (h : checkSize m fam s f = some s') :
    ∃ s1 : F, s1.t1 = s.t1 ∧ s1.t2 = s.t2 ∧ s1.msize = s.msize ∧ (∀ z, s.t3 = memType z → s1.t3 = s.t3) ∧ checkDefault m s1 f = some s' := by
  rcases hf with rfl | rfl
  · simp only [checkSize, Option.bind_eq_bind, Option.bind_eq_some_iff] at h
    obtain ⟨s1, h1, h⟩ := h
    exact ⟨s1, (checkImul_t h1).1, (checkImul_t h1).2, (checkImul_m h1).1, (checkImul_m h1).2, h⟩
  · exact ⟨s, rfl, rfl, rfl, fun _ _ => rfl, h⟩

theorem plan_pre3 {m : Mode} {fam : Fam} (hf : fam = .imul ∨ fam = .shxd) {o1 o2 o3 : AOp} {p : Plan} (h2 : o2.wf)
    (hp : plan m fam [o1, o2, o3] = some p) : o3.isMem = false ∧ pre3 m fam o1 o2 = true := by
  unfold plan at hp
  simp only [List.length_cons, List.length_nil, procOps, Option.bind_eq_bind, Option.bind_eq_some_iff, Option.some.injEq] at hp
  obtain ⟨s, ⟨s1, hs1, s2, hs2, s3, hs3, rfl⟩, s', hs', hp⟩ := hp
  have hpre : pre3 m fam o1 o2 = (decide (s2.t2 &&& oI ≠ 0) ||
    (((skip3 0 (forms m fam)).2.any fun r => decide (first s2.t1 &&& r.t1 ≠ 0) && decide (s2.t2 &&& r.t2 ≠ 0)) &&
      (decide (opSize s2 s2.t1 = opSize s2 s2.t2) || decide (opSize s2 s2.t1 = 0) || decide (opSize s2 s2.t2 = 0)))) := by
    unfold pre3
    simp only [procOps, hs1, hs2, Option.bind_eq_bind, Option.bind_some]
  unfold plan.go at hp
  obtain ⟨r, hr, n, hrow⟩ := scan_some hp
  obtain ⟨a1, a2, a3, a4, -, -, -⟩ := forms_imm2 m (mem_modes m) fam (mem_fams fam) r hr
  have a0 := forms_t3 m (mem_modes m) fam (mem_fams fam) r hr
  obtain ⟨-, c2, c3⟩ := checkSize_t hs'
  have hmatch : first s'.t1 &&& r.t1 ≠ 0 ∧ (s'.t2 = 0 ∨ (s'.t2 &&& r.t2 ≠ 0 ∧ third fam s' (factsAt [o1, o2, o3] 2) r.t3 ≠ none)) := by
    constructor
    · intro e
      apply hrow
      unfold row
      exact if_pos e
    · by_contra hc
      rw [not_or] at hc
      apply hrow
      apply row_no
      intro o
      unfold checkOp2 matchOp2
      rw [if_neg hc.1]
      simp only
      rw [if_neg a1, if_neg a2, if_neg a3, if_neg a4]
      split
      · rename_i q
        have : third fam s' (factsAt [o1, o2, o3] 2) r.t3 = none := by
          by_contra q3; exact hc.2 ⟨q, q3⟩
        rw [this]
      · rfl
  obtain ⟨t2, ht2, -, -, e2⟩ := procOp_t h2 hs2
  have n2 : s2.t2 ≠ 0 := by rw [e2, setT_t2]; exact ht2
  obtain ⟨s4, d1, d2, d3, d4, hd⟩ := checkSize3 hf hs'
  have hd3 := checkDefault_t3 hd
  have hm3 : o3.isMem = false := by
    cases o3 with
    | mem z =>
      exfalso
      obtain ⟨z', hz'⟩ := procOp_third_mem hs3
      have ht3 : s'.t3 = memType z' := by rw [hd3, d4 z' hz', hz']
      have n3 : s3.t2 ≠ 0 := by
        obtain ⟨t, -, -, -, e3⟩ := procOp_t (o := .mem z) trivial hs3
        rw [e3, setT_2_t2]; exact n2
      rcases hmatch.2 with q | ⟨-, q⟩
      · exact c2 n3 q
      · apply q
        obtain ⟨m1, m2, m3⟩ := memType_t3 z'
        unfold third
        split
        · rename_i e; exact absurd e a0
        · rw [if_neg (by rw [ht3]; exact m3)]
        · rw [if_neg (fun w => w.1 (by rw [ht3]; exact m1))]
        · rw [if_neg (fun w => w (by rw [ht3]; exact m1))]
    | _ => rfl
  refine ⟨hm3, ?_⟩
  obtain ⟨k1, k2, k3⟩ := procOp_third hm3 hs3
  rw [hpre]
  by_cases q : s2.t2 &&& oI = 0
  · have q4 : s4.t2 &&& oI = 0 := by rw [d2, k2]; exact q
    obtain ⟨rfl, hz⟩ := checkDefault_plain q4 hd
    have z : ∀ t, opSize s' t = opSize s2 t := opSize_congr (by rw [d3, k3])
    rw [z, z, d1, d2, k1, k2] at hz
    rw [d1, k1, d2, k2] at hmatch
    rw [Bool.or_eq_true, Bool.and_eq_true, List.any_eq_true]
    right
    refine ⟨⟨r, hr, ?_⟩, ?_⟩
    · rcases hmatch.2 with e | e
      · exact absurd e n2
      · simp only [Bool.and_eq_true, decide_eq_true_eq]; exact ⟨hmatch.1, e.1⟩
    · simp only [Bool.or_eq_true, decide_eq_true_eq]
      rcases hz with e | e | e
      · exact Or.inl (Or.inl e)
      · exact Or.inl (Or.inr e)
      · exact Or.inr e
  · simp [q]

end Verif.Ins
