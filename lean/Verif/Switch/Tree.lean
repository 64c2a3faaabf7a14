import Verif.Switch.Jump
namespace Verif.Switch

variable {σ : Type} {env : Env} {m : Mode} {prog : List (Line σ)}

/-- the state during the search -/
def tst (s : St σ) (stk : List (BitVec 64)) (lo hi ax dx key di : BitVec 64) (fl : Int × Int) : St σ :=
  { s with
    r := fun
      | .ax => ax | .cx => lo | .bx => hi | .si => key | .di => di | .dx => dx | .r10 => s.r .r10
    stk := stk, fl := fl }

def saved (m : Mode) (s : St σ) : List (BitVec 64) :=
  match m with
  | .m32 => s.r .di :: s.r .si :: s.r .bx :: s.r .cx :: s.r .dx :: s.r .ax :: s.stk
  | _ => s.r .di :: s.r .si :: s.r .bx :: s.r .cx :: s.r .ax :: s.stk

def keyOf (m : Mode) (s : St σ) : BitVec 64 :=
  match m with
  | .m64q => s.r .ax
  | _ => ((s.r .ax).setWidth 32).setWidth 64

theorem sgn_key (s : St σ) : sgn (opW m) (keyOf m s) = sgn (opW m) (s.r .ax) := by
  cases m <;> simp only [keyOf, opW, sgn]
  · congr 1; apply BitVec.eq_of_toNat_eq; simp
  · congr 1; apply BitVec.eq_of_toNat_eq; simp

def diOf (env : Env) (m : Mode) : BitVec 64 := trunc m (env.adr .data2)

theorem trunc_idem (m : Mode) (a : BitVec 64) : trunc m (trunc m a) = trunc m a := by
  unfold trunc; split
  · rfl
  · apply BitVec.eq_of_toNat_eq; simp

theorem trunc_add (m : Mode) (a b : BitVec 64) : trunc m (trunc m a + b) = trunc m (a + b) := by
  cases m
  · apply trunc32
    rw [setWidth_add', setWidth_add']; congr 1
    simp only [trunc, Mode.is64, Bool.false_eq_true, ↓reduceIte]
    apply BitVec.eq_of_toNat_eq; simp
  · simp [trunc, Mode.is64]
  · simp [trunc, Mode.is64]

theorem clip (a : Nat) (h : a < 4294967296) : ((BitVec.ofNat 64 a).setWidth 32).setWidth 64 = BitVec.ofNat 64 a := by
  apply BitVec.eq_of_toNat_eq
  simp
  omega

theorem trunc_nat (m : Mode) (a : Nat) (h : a < 4294967296) : trunc m (BitVec.ofNat 64 a) = BitVec.ofNat 64 a := by
  unfold trunc; split
  · rfl
  · exact clip a h

theorem sar32 (a : Nat) (h : a < 2147483648) :
    (((BitVec.ofNat 64 a).setWidth 32).sshiftRight 1).setWidth 64 = BitVec.ofNat 64 (a / 2) := by
  have hm : ((BitVec.ofNat 64 a).setWidth 32).msb = false := by
    rw [BitVec.msb_eq_decide]; simp; omega
  rw [BitVec.sshiftRight_eq_of_msb_false hm]
  apply BitVec.eq_of_toNat_eq
  simp [Nat.shiftRight_eq_div_pow]
  omega

theorem sar64 (a : Nat) (h : a < 2147483648) : (BitVec.ofNat 64 a).sshiftRight 1 = BitVec.ofNat 64 (a / 2) := by
  have hm : (BitVec.ofNat 64 a).msb = false := by
    rw [BitVec.msb_eq_decide]; simp; omega
  rw [BitVec.sshiftRight_eq_of_msb_false hm]
  apply BitVec.eq_of_toNat_eq
  simp [Nat.shiftRight_eq_div_pow]
  omega

theorem cdq0 (a : Nat) (h : a < 2147483648) : ((BitVec.ofNat 64 a).setWidth 32).msb = false := by
  rw [BitVec.msb_eq_decide]; simp; omega

/-- in front of LTOP -/
theorem treeInit_spec (dl : Lbl) (n : Nat) (h1 : 1 ≤ n) (h2 : n < 1073741824) (rest : List (Line σ)) (s : St σ) :
    Reach env m prog ((treeInit m dl n).map .ins ++ rest, s)
      (rest, tst s (saved m s) 0 (BitVec.ofNat 64 (n - 1)) (s.r .ax) (s.r .dx) (keyOf m s) (diOf env m) (0, 0)) := by
  have hn : BitVec.ofInt 64 ((n : Int) - 1) = BitVec.ofNat 64 (n - 1) := by
    rw [← BitVec.ofInt_natCast]; congr 1; omega
  cases m
  · refine Reach.head rfl (Reach.head rfl (Reach.head rfl (Reach.head rfl (Reach.head rfl (Reach.head rfl (Reach.head rfl
      (Reach.head rfl (Reach.head rfl (Reach.head rfl (Reach.head (step_jcc_f rfl) (Reach.cast ?_ (Reach.refl _))))))))))))
    simp only [put, hn, tst, saved, St.mk.injEq, and_true]
    funext x; cases x <;> simp [Regs.set, keyOf, diOf, ea, lbA, rgA, trunc, Mode.is64]
    · apply BitVec.eq_of_toNat_eq; simp; omega
  · refine Reach.head rfl (Reach.head rfl (Reach.head rfl (Reach.head rfl (Reach.head rfl (Reach.head rfl (Reach.head rfl
      (Reach.head rfl (Reach.head rfl (Reach.head (step_jcc_f rfl) (Reach.cast ?_ (Reach.refl _)))))))))))
    simp only [put, hn, tst, saved, St.mk.injEq, and_true, opW]
    funext x; cases x <;> simp [Regs.set, keyOf, diOf, ea, lbA, rgA, trunc, Mode.is64]
    · apply BitVec.eq_of_toNat_eq; simp; omega
  · refine Reach.head rfl (Reach.head rfl (Reach.head rfl (Reach.head rfl (Reach.head rfl (Reach.head rfl (Reach.head rfl
      (Reach.head rfl (Reach.head rfl (Reach.head (step_jcc_f rfl) (Reach.cast ?_ (Reach.refl _)))))))))))
    simp only [put, hn, tst, saved, St.mk.injEq, and_true, opW]
    funext x; cases x <;> simp [Regs.set, keyOf, diOf, ea, lbA, rgA, trunc, Mode.is64]

/-- the number read from the table -/
theorem read_val {t1 : List Lbl} {t2 : List Int} (hp : PlacedAt env m t1 t2 (if m = .m64q then 8 else 4)) (k : Nat) (x : Int)
    (hx : t2[k]? = some x) (hr : -2147483648 ≤ x ∧ x < 2147483648) :
    sgn (opW m) (env.rd (trunc m (diOf env m + BitVec.ofNat 64 k * BitVec.ofNat 64 (if m = .m64q then 8 else 4)))
      (if m = .m64q then 8 else 4)) = x := by
  have := hp.t2 k x hx
  unfold diOf
  rw [trunc_add, this]
  cases m
  · change (((BitVec.ofInt 32 x).setWidth 64).setWidth 32).toInt = x
    rw [show ((BitVec.ofInt 32 x).setWidth 64).setWidth 32 = BitVec.ofInt 32 x from by
      apply BitVec.eq_of_toNat_eq; simp]
    exact wrap32_id x hr
  · change (((BitVec.ofInt 32 x).setWidth 64).setWidth 32).toInt = x
    rw [show ((BitVec.ofInt 32 x).setWidth 64).setWidth 32 = BitVec.ofInt 32 x from by
      apply BitVec.eq_of_toNat_eq; simp]
    exact wrap32_id x hr
  · change ((BitVec.ofInt 64 x).setWidth 64).toInt = x
    rw [show (BitVec.ofInt 64 x).setWidth 64 = BitVec.ofInt 64 x from by
      apply BitVec.eq_of_toNat_eq; simp]
    exact wrap64_id x (by omega)

/-- LTOP up to the comparison -/
theorem treeTop_spec {t1 : List Lbl} {t2 : List Int} (hp : PlacedAt env m t1 t2 (if m = .m64q then 8 else 4))
    (s : St σ) (stk : List (BitVec 64)) (lo hi : Nat) (hh : lo + hi < 2147483648) (ax dx key : BitVec 64) (fl : Int × Int)
    (x : Int) (hx : t2[(lo + hi) / 2]? = some x) (hr : -2147483648 ≤ x ∧ x < 2147483648) (rest : List (Line σ)) :
    ∃ dx', (m.is64 = true → dx' = dx) ∧
    Reach env m prog ((treeTop m).map .ins ++ rest,
      tst s stk (BitVec.ofNat 64 lo) (BitVec.ofNat 64 hi) ax dx key (diOf env m) fl)
      (.ins (.jcc .e .jump) :: .ins (.jcc .ge .skip) :: .ins (.lea (opW m) .cx { base := some .ax, disp := 1 }) ::
        .ins (.jmp .cont) :: rest,
       tst s stk (BitVec.ofNat 64 lo) (BitVec.ofNat 64 hi) (BitVec.ofNat 64 ((lo + hi) / 2)) dx' key (diOf env m)
        (x, sgn (opW m) key)) := by
  have hsum : BitVec.ofNat 64 lo + BitVec.ofNat 64 hi = BitVec.ofNat 64 (lo + hi) := by
    apply BitVec.eq_of_toNat_eq; simp
  have hrv := read_val hp _ _ hx hr
  have hmid : (lo + hi) / 2 < 2147483648 := by omega
  cases m
  · refine ⟨0, by simp [Mode.is64], ?_⟩
    refine Reach.head rfl (Reach.cast (s' := tst s stk (BitVec.ofNat 64 lo) (BitVec.ofNat 64 hi) (BitVec.ofNat 64 (lo + hi)) dx key (diOf env .m32) fl) ?_
      (Reach.head rfl (Reach.cast (s' := tst s stk (BitVec.ofNat 64 lo) (BitVec.ofNat 64 hi) (BitVec.ofNat 64 (lo + hi)) 0 key (diOf env .m32) fl) ?_
      (Reach.head rfl (Reach.cast (s' := tst s stk (BitVec.ofNat 64 lo) (BitVec.ofNat 64 hi) (BitVec.ofNat 64 (lo + hi)) 0 key (diOf env .m32) fl) ?_
      (Reach.head rfl (Reach.cast (s' := tst s stk (BitVec.ofNat 64 lo) (BitVec.ofNat 64 hi) (BitVec.ofNat 64 ((lo + hi) / 2)) 0 key (diOf env .m32) fl) ?_
      (Reach.head rfl (Reach.cast ?_ (Reach.refl _))))))))))
    · simp only [tst, put, St.mk.injEq, and_true]
      funext r; cases r <;> simp [Regs.set, ea, lbA, rgA, hsum]
      rw [trunc_nat _ _ (by omega), clip _ (by omega)]
    · simp only [tst, put, St.mk.injEq, and_true]
      funext r; cases r <;> simp only [Regs.set, reduceCtorEq, ↓reduceIte, cdq0 _ hh, Bool.false_eq_true]
      rfl
    · simp only [tst, put, St.mk.injEq, and_true]
      funext r; cases r <;> simp only [Regs.set, reduceCtorEq, ↓reduceIte, BitVec.sub_zero]
      rw [show (0 : BitVec 64) = 0#64 from rfl, BitVec.sub_zero, clip _ (by omega)]
    · simp only [tst, put, St.mk.injEq, and_true]
      funext r; cases r <;> simp only [Regs.set, reduceCtorEq, ↓reduceIte]
      rw [sar32 _ hh, clip _ (by omega)]
    · simp only [reduceCtorEq, ↓reduceIte, opW] at hrv
      simp only [tst, St.mk.injEq, and_true, true_and, ea, lbA, rgA, opW, Prod.mk.injEq]
      rw [← hrv]; simp
  · refine ⟨dx, fun _ => rfl, ?_⟩
    refine Reach.head rfl (Reach.cast (s' := tst s stk (BitVec.ofNat 64 lo) (BitVec.ofNat 64 hi) (BitVec.ofNat 64 (lo + hi)) dx key (diOf env .m64d) fl) ?_
      (Reach.head rfl (Reach.cast (s' := tst s stk (BitVec.ofNat 64 lo) (BitVec.ofNat 64 hi) (BitVec.ofNat 64 ((lo + hi) / 2)) dx key (diOf env .m64d) fl) ?_
      (Reach.head rfl (Reach.cast ?_ (Reach.refl _))))))
    · simp only [tst, put, St.mk.injEq, and_true]
      funext r; cases r <;> simp [Regs.set, ea, lbA, rgA, hsum]
      rw [trunc_nat _ _ (by omega), clip _ (by omega)]
    · simp only [tst, put, St.mk.injEq, and_true]
      funext r; cases r <;> simp only [Regs.set, reduceCtorEq, ↓reduceIte]
      rw [sar64 _ hh]
    · simp only [reduceCtorEq, ↓reduceIte, opW] at hrv
      simp only [tst, St.mk.injEq, and_true, true_and, ea, lbA, rgA, opW, Prod.mk.injEq]
      rw [← hrv]; simp
  · refine ⟨dx, fun _ => rfl, ?_⟩
    refine Reach.head rfl (Reach.cast (s' := tst s stk (BitVec.ofNat 64 lo) (BitVec.ofNat 64 hi) (BitVec.ofNat 64 (lo + hi)) dx key (diOf env .m64q) fl) ?_
      (Reach.head rfl (Reach.cast (s' := tst s stk (BitVec.ofNat 64 lo) (BitVec.ofNat 64 hi) (BitVec.ofNat 64 ((lo + hi) / 2)) dx key (diOf env .m64q) fl) ?_
      (Reach.head rfl (Reach.cast ?_ (Reach.refl _))))))
    · simp only [tst, put, St.mk.injEq, and_true]
      funext r; cases r <;> simp [Regs.set, ea, lbA, rgA, hsum]
      rw [trunc_nat _ _ (by omega)]
    · simp only [tst, put, St.mk.injEq, and_true]
      funext r; cases r <;> simp only [Regs.set, reduceCtorEq, ↓reduceIte]
      rw [sar64 _ hh]
    · simp only [↓reduceIte, opW] at hrv
      simp only [tst, St.mk.injEq, and_true, true_and, ea, lbA, rgA, opW, Prod.mk.injEq]
      rw [← hrv]; simp

/-- LJUMP -/
theorem treeJump_spec (hl : Layout env prog) {t1 : List Lbl} {t2 : List Int} {w2 : Nat} (hp : PlacedAt env m t1 t2 w2)
    (s : St σ) (lo hi dx key di : BitVec 64) (fl : Int × Int) (hdx : m.is64 = true → dx = s.r .dx) (k : Nat) (l : Lbl)
    (ht : t1[k]? = some l) (r : List (Line σ)) (hr : after l prog = some r) (rest : List (Line σ)) :
    Reach env m prog ((treeJump m).map .ins ++ rest, tst s (saved m s) lo hi (BitVec.ofNat 64 k) dx key di fl)
      (strip r, { s with fl := fl }) := by
  obtain ⟨r', h1, h2⟩ := afterA_layout hl l r hr
  have hfin : ∀ (c : List (Line σ)), step env m prog (.ins .retn :: c, { s with stk := env.adr l :: s.stk, fl := fl }) =
      some (r', { s with fl := fl }) := by
    intro c; simp [step, exec, h1]
  have e := hp.t1 k l ht
  cases m
  · refine Reach.head rfl (Reach.head rfl (Reach.head rfl (Reach.head rfl (Reach.head rfl (Reach.cast (s' := { s with r := s.r.set .ax (BitVec.ofNat 64 k), stk := s.r .ax :: s.stk, fl := fl }) ?_
      (Reach.head rfl (Reach.cast (s' := { s with r := s.r.set .ax (env.adr l), stk := s.r .ax :: s.stk, fl := fl }) ?_
      (Reach.head rfl (Reach.cast (s' := { s with stk := env.adr l :: s.stk, fl := fl }) ?_
      (Reach.head (hfin _) (by rw [← h2]; exact reach_strip _ _)))))))))))
    · simp only [tst, St.mk.injEq, and_true]
      funext x; cases x <;> simp [Regs.set]
    · simp only [Mode.is64, Bool.false_eq_true, ↓reduceIte] at e
      simp only [St.mk.injEq, and_true, set_set, idx4]
      congr 1
      rw [ea_lbl_idx, ← e, set_get]
      rfl
    · simp only [St.mk.injEq, and_true, set_set, set_get]
      exact set_ax_self _
  · simp only [Mode.is64, ↓reduceIte, trunc] at e hdx
    refine Reach.head rfl (Reach.head rfl (Reach.head rfl (Reach.head rfl (Reach.head rfl (Reach.head rfl (Reach.cast (s' := { s with r := s.r.set .ax (env.adr l), stk := s.r .ax :: s.stk, fl := fl }) ?_
      (Reach.head rfl (Reach.cast (s' := { s with stk := env.adr l :: s.stk, fl := fl }) ?_
      (Reach.head (hfin _) (by rw [← h2]; exact reach_strip _ _))))))))))
    · simp only [tst, St.mk.injEq, and_true]
      funext x; cases x <;> simp [Regs.set, hdx, ea, lbA, rgA, put, trunc, Mode.is64]
      exact e
    · simp only [St.mk.injEq, and_true, set_set, set_get]
      exact set_ax_self _
  · simp only [Mode.is64, ↓reduceIte, trunc] at e hdx
    refine Reach.head rfl (Reach.head rfl (Reach.head rfl (Reach.head rfl (Reach.head rfl (Reach.head rfl (Reach.cast (s' := { s with r := s.r.set .ax (env.adr l), stk := s.r .ax :: s.stk, fl := fl }) ?_
      (Reach.head rfl (Reach.cast (s' := { s with stk := env.adr l :: s.stk, fl := fl }) ?_
      (Reach.head (hfin _) (by rw [← h2]; exact reach_strip _ _))))))))))
    · simp only [tst, St.mk.injEq, and_true]
      funext x; cases x <;> simp [Regs.set, hdx, ea, lbA, rgA, put, trunc, Mode.is64]
      exact e
    · simp only [St.mk.injEq, and_true, set_set, set_get]
      exact set_ax_self _

/-- LCONT, when the search goes on -/
theorem treeCont_on (dl : Lbl) (s : St σ) (stk : List (BitVec 64)) (lo hi ax dx key di : BitVec 64) (fl : Int × Int)
    (h : sgn (opW m) lo ≤ sgn (opW m) hi) (rtop rest : List (Line σ)) (ht : after .top prog = some rtop) :
    ∃ fl', Reach env m prog ((treeCont m dl).map .ins ++ rest, tst s stk lo hi ax dx key di fl)
      (rtop, tst s stk lo hi ax dx key di fl') := by
  refine ⟨(sgn (opW m) lo, sgn (opW m) hi), ?_⟩
  cases m
  all_goals
    refine Reach.head rfl (Reach.one (step_jcc_t ?_ ht))
    exact decide_eq_true h

/-- LCONT, when nothing is left to search -/
theorem treeCont_off (dl : Lbl) (s : St σ) (lo hi ax dx key di : BitVec 64) (fl : Int × Int)
    (hdx : m.is64 = true → dx = s.r .dx)
    (h : sgn (opW m) hi < sgn (opW m) lo) (rd rest : List (Line σ)) (hd : after dl prog = some rd) :
    ∃ fl', Reach env m prog ((treeCont m dl).map .ins ++ rest, tst s (saved m s) lo hi ax dx key di fl)
      (rd, { s with fl := fl' }) := by
  refine ⟨(sgn (opW m) lo, sgn (opW m) hi), ?_⟩
  cases m
  · refine Reach.head rfl (Reach.head (step_jcc_f (decide_eq_false (Int.not_le.mpr h))) (Reach.head rfl (Reach.head rfl (Reach.head rfl
      (Reach.head rfl (Reach.head rfl (Reach.head rfl (Reach.cast (s' := { s with fl := _ }) ?_ (Reach.one (step_jmp hd))))))))))
    simp only [tst, St.mk.injEq, and_true, opW]
    funext x; cases x <;> simp [Regs.set]
  · refine Reach.head rfl (Reach.head (step_jcc_f (decide_eq_false (Int.not_le.mpr h))) (Reach.head rfl (Reach.head rfl (Reach.head rfl
      (Reach.head rfl (Reach.head rfl (Reach.cast (s' := { s with fl := _ }) ?_ (Reach.one (step_jmp hd)))))))))
    simp only [tst, St.mk.injEq, and_true, opW]
    funext x; cases x <;> simp [Regs.set]
    exact hdx rfl
  · refine Reach.head rfl (Reach.head (step_jcc_f (decide_eq_false (Int.not_le.mpr h))) (Reach.head rfl (Reach.head rfl (Reach.head rfl
      (Reach.head rfl (Reach.head rfl (Reach.cast (s' := { s with fl := _ }) ?_ (Reach.one (step_jmp hd)))))))))
    simp only [tst, St.mk.injEq, and_true, opW]
    funext x; cases x <;> simp [Regs.set]
    exact hdx rfl

/-- a number of the tree as it is in a register -/
def rv (m : Mode) (h : Int) : BitVec 64 :=
  match m with
  | .m64q => BitVec.ofInt 64 h
  | _ => (BitVec.ofInt 32 h).setWidth 64

theorem rv_nat (m : Mode) (h : Nat) (hh : h < 2147483648) : rv m (h : Int) = BitVec.ofNat 64 h := by
  cases m <;> simp only [rv]
  · rw [← setWidth_ofInt, BitVec.ofInt_natCast]; exact clip _ (by omega)
  · rw [← setWidth_ofInt, BitVec.ofInt_natCast]; exact clip _ (by omega)
  · exact BitVec.ofInt_natCast ..

theorem sgn_rv (m : Mode) (h : Int) (hh : -2147483648 ≤ h ∧ h < 2147483648) : sgn (opW m) (rv m h) = h := by
  cases m <;> simp only [rv, opW, sgn]
  · rw [show ((BitVec.ofInt 32 h).setWidth 64).setWidth 32 = BitVec.ofInt 32 h from by
      apply BitVec.eq_of_toNat_eq; simp]
    exact wrap32_id h hh
  · rw [show ((BitVec.ofInt 32 h).setWidth 64).setWidth 32 = BitVec.ofInt 32 h from by
      apply BitVec.eq_of_toNat_eq; simp]
    exact wrap32_id h hh
  · exact wrap64_id h (by omega)

theorem treeSkip_spec (s : St σ) (stk : List (BitVec 64)) (lo hi dx key di : BitVec 64) (k : Nat)
    (fl : Int × Int) (rest : List (Line σ)) :
    Reach env m prog ((treeSkip m).map .ins ++ rest, tst s stk lo hi (BitVec.ofNat 64 k) dx key di fl)
      (rest, tst s stk lo (rv m ((k : Int) - 1)) (BitVec.ofNat 64 k) dx key di fl) := by
  have e : BitVec.ofNat 64 k + BitVec.ofInt 64 (-1) = BitVec.ofInt 64 ((k : Int) - 1) := by
    rw [← BitVec.ofInt_natCast, ← BitVec.ofInt_add]; rfl
  have z : (0 : BitVec 64) = 0#64 := rfl
  cases m
  · refine Reach.head rfl (Reach.cast ?_ (Reach.refl _))
    simp only [tst, St.mk.injEq, and_true]
    funext x; cases x <;> simp only [put, Regs.set, reduceCtorEq, ↓reduceIte]
    simp only [ea, lbA, rgA, z, BitVec.zero_mul, BitVec.add_zero, BitVec.zero_add, e, trunc, Mode.is64, Bool.false_eq_true, ↓reduceIte, rv]
    rw [← setWidth_ofInt]
    apply BitVec.eq_of_toNat_eq; simp
  · refine Reach.head rfl (Reach.cast ?_ (Reach.refl _))
    simp only [tst, St.mk.injEq, and_true]
    funext x; cases x <;> simp only [put, Regs.set, reduceCtorEq, ↓reduceIte]
    simp only [ea, lbA, rgA, z, BitVec.zero_mul, BitVec.add_zero, BitVec.zero_add, e, trunc, Mode.is64, ↓reduceIte, rv]
    rw [← setWidth_ofInt]
  · refine Reach.head rfl (Reach.cast ?_ (Reach.refl _))
    simp only [tst, St.mk.injEq, and_true]
    funext x; cases x <;> simp only [put, Regs.set, reduceCtorEq, ↓reduceIte]
    simp only [ea, lbA, rgA, z, BitVec.zero_mul, BitVec.add_zero, BitVec.zero_add, e, trunc, Mode.is64, ↓reduceIte, rv]

theorem up_spec (s : St σ) (stk : List (BitVec 64)) (lo hi dx key di : BitVec 64) (k : Nat) (hk : k < 2147483647)
    (fl : Int × Int) (rest : List (Line σ)) :
    step env m prog (.ins (.lea (opW m) .cx { base := some .ax, disp := 1 }) :: rest,
        tst s stk lo hi (BitVec.ofNat 64 k) dx key di fl) =
      some (rest, tst s stk (BitVec.ofNat 64 (k + 1)) hi (BitVec.ofNat 64 k) dx key di fl) := by
  have e : BitVec.ofNat 64 k + BitVec.ofInt 64 1 = BitVec.ofNat 64 (k + 1) := by
    rw [← BitVec.ofInt_natCast, ← BitVec.ofInt_add, ← BitVec.ofInt_natCast]; congr 1
  have z : (0 : BitVec 64) = 0#64 := rfl
  simp only [step, exec, tst, Option.some.injEq, Prod.mk.injEq, St.mk.injEq, and_true, true_and]
  funext x
  cases m
  all_goals
    cases x <;> simp only [put, opW, Regs.set, reduceCtorEq, ↓reduceIte]
    simp only [ea, lbA, rgA, z, BitVec.zero_mul, BitVec.add_zero, BitVec.zero_add, e, trunc, Mode.is64, Bool.false_eq_true, ↓reduceIte]
  · rw [clip _ (by omega), clip _ (by omega)]
  · rw [clip _ (by omega)]

end Verif.Switch
