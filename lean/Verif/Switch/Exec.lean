import Verif.Switch.Lookup
namespace Verif.Switch

variable {σ : Type} {env : Env} {m : Mode} {prog : List (Line σ)}

theorem Reach.trans {c d e : Conf σ} (h1 : Reach env m prog c d) (h2 : Reach env m prog d e) :
    Reach env m prog c e := by
  induction h1 with
  | refl => exact h2
  | head s _ ih => exact .head s (ih h2)

theorem Reach.one {c d : Conf σ} (h : step env m prog c = some d) : Reach env m prog c d := .head h (.refl _)

theorem reach_strip (l : List (Line σ)) (s : St σ) : Reach env m prog (l, s) (strip l, s) := by
  induction l with
  | nil => exact .refl _
  | cons x xs ih =>
    cases x with
    | lab k => exact .head rfl ih
    | _ => exact .refl _

theorem afterA_of (l : Lbl) (r : List (Line σ)) (h : after l prog = some r) :
    ∃ k r', afterA env (env.adr l) prog = some r' ∧ after k prog = some r' ∧ env.adr k = env.adr l := by
  induction prog with
  | nil => simp [after] at h
  | cons x xs ih =>
    cases x with
    | lab k =>
      by_cases hk : env.adr k = env.adr l
      · exact ⟨k, xs, by simp [afterA, hk], by simp [after], hk⟩
      · have hkl : k ≠ l := fun e => hk (by rw [e])
        simp only [after, if_neg hkl] at h
        obtain ⟨k', r', h1, h2, h3⟩ := ih h
        refine ⟨k', r', by simp [afterA, hk, h1], ?_, h3⟩
        have : k ≠ k' := fun e => hk (by rw [e, h3])
        simp [after, this, h2]
    | ins i => exact ih h
    | stm f => exact ih h
    | brIf p q => exact ih h
    | loadOp f => exact ih h

theorem afterA_layout (hl : Layout env prog) (l : Lbl) (r : List (Line σ)) (h : after l prog = some r) :
    ∃ r', afterA env (env.adr l) prog = some r' ∧ strip r' = strip r := by
  obtain ⟨k, r', h1, h2, h3⟩ := afterA_of (env := env) l r h
  exact ⟨r', h1, hl k l r' r h2 h h3⟩

/-- the configuration passes to the label `l` with the same registers, except perhaps RAX -/
def Goes (env : Env) (m : Mode) (prog c : List (Line σ)) (s : St σ) (l : Lbl) : Prop :=
  ∃ r, after l prog = some r ∧ ∃ ax fl, Reach env m prog (c, s) (strip r, { s with r := s.r.set .ax ax, fl := fl })

theorem set_ax_self (r : Regs) : r.set .ax (r .ax) = r := by
  funext x; unfold Regs.set; split <;> simp_all

@[simp] theorem set_get (r : Regs) (d : Reg) (v : BitVec 64) : r.set d v d = v := by simp [Regs.set]
theorem set_get_ne (r : Regs) (d x : Reg) (v : BitVec 64) (h : x ≠ d) : r.set d v x = r x := by simp [Regs.set, h]
@[simp] theorem set_set (r : Regs) (d : Reg) (v w : BitVec 64) : (r.set d v).set d w = r.set d w := by
  funext x; unfold Regs.set; split <;> rfl

theorem Goes.of_jmp {c : List (Line σ)} {s : St σ} {l : Lbl} {r : List (Line σ)} {fl}
    (hr : after l prog = some r) (h : Reach env m prog (c, s) (r, { s with fl := fl })) : Goes env m prog c s l := by
  refine ⟨r, hr, s.r .ax, fl, ?_⟩
  rw [set_ax_self]
  exact h.trans (reach_strip _ _)

theorem Goes.reach {c d : List (Line σ)} {s : St σ} {l : Lbl} {fl} (h : Reach env m prog (c, s) (d, { s with fl := fl }))
    (g : Goes env m prog d { s with fl := fl } l) : Goes env m prog c s l := by
  obtain ⟨r, hr, ax, fl', h'⟩ := g
  exact ⟨r, hr, ax, fl', h.trans h'⟩

theorem sgn_ofInt (w : W) (n : Int) (h : -2147483648 ≤ n ∧ n < 2147483648) : sgn w (BitVec.ofInt 64 n) = n := by
  cases w
  · simp only [sgn]
    have : (BitVec.ofInt 64 n).setWidth 32 = BitVec.ofInt 32 n := by
      apply BitVec.eq_of_toNat_eq
      simp [BitVec.toNat_ofInt]
      omega
    rw [this]; exact wrap32_id n h
  · exact wrap64_id n (by omega)

theorem setWidth_ofInt (n : Int) : (BitVec.ofInt 64 n).setWidth 32 = BitVec.ofInt 32 n := by
  apply BitVec.eq_of_toNat_eq
  simp [BitVec.toNat_ofInt]
  omega

theorem of_sgn32 (x : BitVec 64) (v : Int) (h : sgn .w32 x = v) : x.setWidth 32 = BitVec.ofInt 32 v := by
  rw [← h]; simp only [sgn]; rw [BitVec.ofInt_toInt]

theorem of_sgn64 (x : BitVec 64) (v : Int) (h : sgn .w64 x = v) : x = BitVec.ofInt 64 v := by
  rw [← h]; simp only [sgn]; rw [BitVec.ofInt_toInt]

theorem step_jcc_t {c : CC} {l : Lbl} {rest r : List (Line σ)} {s : St σ} (h : holds c s.fl = true)
    (hr : after l prog = some r) : step env m prog (.ins (.jcc c l) :: rest, s) = some (r, s) := by
  simp [step, exec, h, hr]

theorem step_jcc_f {c : CC} {l : Lbl} {rest : List (Line σ)} {s : St σ} (h : holds c s.fl = false) :
    step env m prog (.ins (.jcc c l) :: rest, s) = some (rest, s) := by
  simp [step, exec, h]

theorem step_jmp {l : Lbl} {rest r : List (Line σ)} {s : St σ} (hr : after l prog = some r) :
    step env m prog (.ins (.jmp l) :: rest, s) = some (r, s) := by
  simp [step, exec, hr]

/-- the range check -/
theorem range_spec (dl : Lbl) (lo hi : Int) (hlo : -2147483648 ≤ lo ∧ lo < 2147483648)
    (hhi : -2147483648 ≤ hi ∧ hi < 2147483648) (rest rd : List (Line σ)) (hd : after dl prog = some rd) (s : St σ) :
    let v := sgn (opW m) (s.r .ax)
    ((v < lo ∨ v > hi) → Goes env m prog ((rangeCode m dl lo hi).map .ins ++ rest) s dl) ∧
    ((lo ≤ v ∧ v ≤ hi) → ∃ fl, Reach env m prog ((rangeCode m dl lo hi).map .ins ++ rest, s) (rest, { s with fl := fl })) := by
  simp only [rangeCode, List.map_cons, List.map_nil, List.cons_append, List.nil_append]
  constructor
  · intro h
    by_cases h1 : sgn (opW m) (s.r .ax) < lo
    · refine Goes.of_jmp (fl := (sgn (opW m) (s.r .ax), sgn (opW m) (BitVec.ofInt 64 lo))) hd ?_
      exact Reach.head rfl (Reach.one (step_jcc_t (by simp [holds, sgn_ofInt _ _ hlo, h1]) hd))
    · have h2 : sgn (opW m) (s.r .ax) > hi := by omega
      refine Goes.of_jmp (fl := (sgn (opW m) (s.r .ax), sgn (opW m) (BitVec.ofInt 64 hi))) hd ?_
      refine Reach.head rfl (Reach.head (step_jcc_f (by simp [holds, sgn_ofInt _ _ hlo]; omega)) (Reach.head rfl ?_))
      exact Reach.one (step_jcc_t (by simp [holds, sgn_ofInt _ _ hhi, h2]) hd)
  · rintro ⟨h1, h2⟩
    refine ⟨(sgn (opW m) (s.r .ax), sgn (opW m) (BitVec.ofInt 64 hi)), ?_⟩
    refine Reach.head rfl (Reach.head (step_jcc_f (by simp [holds, sgn_ofInt _ _ hlo]; omega)) (Reach.head rfl ?_))
    exact Reach.one (step_jcc_f (by simp [holds, sgn_ofInt _ _ hhi]; omega))

/-- up to three comparisons -/
theorem chain_spec (dl : Lbl) (cs : List (Int × Nat)) (hr : ∀ c ∈ cs, -2147483648 ≤ c.1 ∧ c.1 < 2147483648)
    (hc : ∀ c ∈ cs, ∃ r, after (.case c.2) prog = some r) (rd : List (Line σ)) (hd : after dl prog = some rd)
    (rest : List (Line σ)) (s : St σ) :
    Goes env m prog ((chainCode m dl cs).map .ins ++ rest) s (tgt dl cs (sgn (opW m) (s.r .ax))) := by
  induction cs generalizing s with
  | nil => exact Goes.of_jmp (fl := s.fl) hd (Reach.one (step_jmp hd))
  | cons c cs ih =>
    have hr0 := hr c (by simp)
    have ec : (chainCode m dl (c :: cs)).map (Line.ins (σ := σ)) ++ rest =
        .ins (.cmpI (opW m) .ax c.1) :: .ins (.jcc .e (.case c.2)) :: ((chainCode m dl cs).map .ins ++ rest) := by
      simp [chainCode]
    rw [ec]
    by_cases hv : c.1 = sgn (opW m) (s.r .ax)
    · have e : tgt dl (c :: cs) (sgn (opW m) (s.r .ax)) = .case c.2 := by
        unfold tgt; rw [List.find?_cons_of_pos (by simp [hv])]
      rw [e]
      obtain ⟨r, hr'⟩ := hc c (by simp)
      refine Goes.of_jmp (fl := (sgn (opW m) (s.r .ax), sgn (opW m) (BitVec.ofInt 64 c.1))) hr' ?_
      exact Reach.head rfl (Reach.one (step_jcc_t (by simp only [holds, sgn_ofInt _ _ hr0]; simp [hv]) hr'))
    · have e : tgt dl (c :: cs) (sgn (opW m) (s.r .ax)) = tgt dl cs (sgn (opW m) (s.r .ax)) := by
        unfold tgt; rw [List.find?_cons_of_neg (by simp [hv])]
      rw [e]
      have := ih (fun d hd => hr d (by simp [hd])) (fun d hd => hc d (by simp [hd]))
        { s with fl := (sgn (opW m) (s.r .ax), sgn (opW m) (BitVec.ofInt 64 c.1)) }
      refine Goes.reach (fl := (sgn (opW m) (s.r .ax), sgn (opW m) (BitVec.ofInt 64 c.1))) ?_ this
      have hv' : ¬ sgn (opW m) (s.r .ax) = c.1 := fun h => hv h.symm
      exact Reach.head rfl (Reach.one (step_jcc_f (by simp [holds, sgn_ofInt _ _ hr0, hv'])))

/-! ### the tables in memory -/

structure PlacedAt (env : Env) (m : Mode) (t1 : List Lbl) (t2 : List Int) (w2 : Nat) : Prop where
  t1 : ∀ (i : Nat) (l : Lbl), t1[i]? = some l →
    env.rd (trunc m (env.adr .data1 + BitVec.ofNat 64 i * (if m.is64 then 8 else 4))) (if m.is64 then 8 else 4) = env.adr l
  t2 : ∀ (i : Nat) (v : Int), t2[i]? = some v →
    env.rd (trunc m (env.adr .data2 + BitVec.ofNat 64 i * BitVec.ofNat 64 w2)) w2 = enc w2 v

theorem trunc32 (a b : BitVec 64) (h : a.setWidth 32 = b.setWidth 32) : trunc .m32 a = trunc .m32 b := by
  simp [trunc, Mode.is64, h]

theorem setWidth_mul' (x y : BitVec 64) : (x * y).setWidth 32 = x.setWidth 32 * y.setWidth 32 :=
  BitVec.setWidth_mul x y (by omega)
theorem setWidth_add' (x y : BitVec 64) : (x + y).setWidth 32 = x.setWidth 32 + y.setWidth 32 :=
  BitVec.setWidth_add x y (by omega)

/-- the register holds the index `i` -/
def IsIdx (m : Mode) (y : BitVec 64) (i : Nat) : Prop :=
  if m = .m32 then y.setWidth 32 = (BitVec.ofNat 64 i).setWidth 32 else y = BitVec.ofNat 64 i

theorem ea_idx (m : Mode) (a y : BitVec 64) (i k : Nat) (h : IsIdx m y i) :
    trunc m (a + y * BitVec.ofNat 64 k) = trunc m (a + BitVec.ofNat 64 i * BitVec.ofNat 64 k) := by
  unfold IsIdx at h
  split at h
  · rename_i e; subst e
    apply trunc32
    rw [setWidth_add', setWidth_add', setWidth_mul', setWidth_mul', h]
  · rw [h]

/-- `sub eax,mincase` -/
theorem subMin_spec (lo v : Int) (rest : List (Line σ)) (s : St σ) (hv : sgn (opW m) (s.r .ax) = v)
    (h1 : lo ≤ v) (h2 : v - lo < 2147483648)
    (hax : m = .m64d → s.r .ax = ((s.r .ax).setWidth 32).setWidth 64) :
    ∃ y, Reach env m prog ((subMin m lo).map .ins ++ rest, s) (rest, { s with r := s.r.set .ax y }) ∧
      IsIdx m y (v - lo).toNat := by
  have hi : BitVec.ofInt 32 (v - lo) = (BitVec.ofNat 64 (v - lo).toNat).setWidth 32 := by
    rw [← setWidth_ofInt]; congr 1
    rw [← BitVec.ofInt_natCast]; congr 1; omega
  have hi64 : BitVec.ofInt 64 (v - lo) = BitVec.ofNat 64 (v - lo).toNat := by
    rw [← BitVec.ofInt_natCast]; congr 1; omega
  have hz : (BitVec.ofInt 32 (v - lo)).setWidth 64 = BitVec.ofNat 64 (v - lo).toNat := by
    rw [hi]
    apply BitVec.eq_of_toNat_eq
    simp
    omega
  unfold subMin
  by_cases h0 : lo = 0
  · subst h0
    refine ⟨s.r .ax, ?_, ?_⟩
    · rw [set_ax_self]; exact .refl _
    · unfold IsIdx
      cases m
      · simp only [↓reduceIte]
        rw [of_sgn32 _ _ hv, ← hi]; simp
      · simp only [reduceCtorEq, ↓reduceIte]
        rw [hax rfl, of_sgn32 _ _ hv, ← hz]; simp
      · simp only [reduceCtorEq, ↓reduceIte]
        rw [of_sgn64 _ _ hv, ← hi64]; simp
  · rw [if_neg h0]
    have hs32 : (s.r .ax).setWidth 32 = BitVec.ofInt 32 v →
        (s.r .ax - BitVec.ofInt 64 lo).setWidth 32 = BitVec.ofInt 32 (v - lo) := by
      intro h
      rw [BitVec.sub_eq_add_neg, setWidth_add', h, ← BitVec.ofInt_neg, setWidth_ofInt, ← BitVec.ofInt_add]
      rfl
    cases m
    · refine ⟨_, Reach.one rfl, ?_⟩
      unfold IsIdx
      simp only [↓reduceIte]
      rw [hs32 (of_sgn32 _ _ hv), hz]
    · refine ⟨_, Reach.one rfl, ?_⟩
      unfold IsIdx
      simp only [reduceCtorEq, ↓reduceIte]
      rw [hs32 (of_sgn32 _ _ hv), hz]
    · refine ⟨_, Reach.one rfl, ?_⟩
      unfold IsIdx
      simp only [reduceCtorEq, ↓reduceIte]
      rw [of_sgn64 _ _ hv, ← hi64, BitVec.sub_eq_add_neg, ← BitVec.ofInt_neg, ← BitVec.ofInt_add]
      rfl

end Verif.Switch
