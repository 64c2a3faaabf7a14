import Verif.Invoke.Lemmas
/-! # One argument -/
namespace Verif.Invoke
open Frame (store load store_out load_congr load_store)

theorem mod_w (u : Int) (w : Nat) (h : w ≤ 4) : u % 2 ^ 32 % 256 ^ w = u % 256 ^ w := by
  apply Int.emod_emod_of_dvd
  have e : (2 : Int) ^ 32 = 256 ^ w * 256 ^ (4 - w) := by rw [← Int.pow_add, show w + (4 - w) = 4 by omega]; rfl
  exact ⟨_, e⟩

theorem store_mod (mem : Int → Int) (a v : Int) (n : Nat) : store mem a n (v % 256 ^ n) = store mem a n v := by
  induction n generalizing a v with
  | zero => rfl
  | succ n ih =>
    funext x
    simp only [store]
    have hp : (256 : Int) ^ (n + 1) = 256 * 256 ^ n := by rw [Int.pow_succ, Int.mul_comm]
    have h1 : v % 256 ^ (n + 1) % 256 = v % 256 := by
      rw [hp]; exact Int.emod_emod_of_dvd _ ⟨_, rfl⟩
    have h2 : v % 256 ^ (n + 1) / 256 = v / 256 % 256 ^ n := by
      rw [hp]
      have hpos : (0 : Int) < 256 ^ n := Int.pow_pos (by omega)
      generalize (256 : Int) ^ n = P at *
      have a1 := Int.emod_add_mul_ediv v (256 * P)
      have a2 := Int.emod_add_mul_ediv v 256
      have a3 := Int.emod_add_mul_ediv (v / 256) P
      have b2 := Int.emod_nonneg v (show (256 : Int) ≠ 0 by omega)
      have b3 := Int.emod_lt_of_pos v (show (0 : Int) < 256 by omega)
      have e : v / (256 * P) = v / 256 / P := (Int.ediv_ediv_of_nonneg (by omega)).symm
      rw [e] at a1
      have : 256 * P * (v / 256 / P) = 256 * (P * (v / 256 / P)) := Int.mul_assoc ..
      omega
    rw [h1, h2, ih]

/-- EAX is loaded and pushed. -/
theorem pushed_eax (m : M) (hr : ∀ r, 0 ≤ m.gpr r ∧ m.gpr r < 2 ^ 32) (i : Ins) (u v : Int) (hi : exec m i = setEax m u)
    (hu : 0 ≤ u ∧ u < 2 ^ 32) (w : Nat) (hw : 0 < w) (hw4 : w ≤ 4) (h : u % 256 ^ w = v % 256 ^ w) :
    Pushed m (run m [i, .pushReg 4 0]) ((w + 3) / 4 * 4) w v := by
  have e : run m [i, .pushReg 4 0] = { setEax m u with sp := m.sp - 4, mem := store m.mem (m.sp - 4) 4 u } := by
    simp only [run_cons, hi]; rfl
  have := pushed_dword (setEax m u) (by
    intro r; simp only [setEax]; split
    · exact hu
    · exact hr r) w hw hw4 v u h _ e
  refine ⟨this.sp, this.val, this.keep, ?_, this.range⟩
  intro r h0
  rw [this.gpr r h0]; simp [setEax, h0]

/-- A zero word and a word are pushed. -/
theorem pushed_words (m : M) (hr : ∀ r, 0 ≤ m.gpr r ∧ m.gpr r < 2 ^ 32) (u v : Int) (hu : 0 ≤ u ∧ u < 2 ^ 16) (w : Nat) (hw : 0 < w)
    (hw4 : w ≤ 4) (h : u % 256 ^ w = v % 256 ^ w) (m' : M)
    (hm : m' = { m with sp := m.sp - 4, mem := store (store m.mem (m.sp - 2) 2 0) (m.sp - 4) 2 u }) :
    Pushed m m' ((w + 3) / 4 * 4) w v := by
  apply pushed_dword m hr w hw hw4 v u h
  rw [hm]
  have := store_split m.mem 2 2 (m.sp - 4) u
  rw [show u / 256 ^ 2 = 0 by omega, show m.sp - 4 + ((2 : Nat) : Int) = m.sp - 2 by omega] at this
  rw [this]

theorem ext_of_unsigned (signed : Bool) (size : Nat) (v : Int) (h : signed = false) : ext signed size v = v := by
  subst h; rfl

theorem ext_mod (signed : Bool) (size : Nat) (v : Int) : ext signed size v % 256 ^ size = v % 256 ^ size := by
  unfold ext sext
  split
  · split
    · have := Int.sub_emod v (256 ^ size) (256 ^ size)
      rw [Int.emod_self, Int.sub_zero, Int.emod_emod] at this
      exact this
    · rfl
  · rfl

theorem regVal_range (m : M) (hr : ∀ r, 0 ≤ m.gpr r ∧ m.gpr r < 2 ^ 32) (r : Reg) :
    0 ≤ regVal m r ∧ regVal m r < 256 ^ partSize r.part := by
  have := hr r.num
  unfold regVal partSize
  cases r.part <;> simp only <;> omega

theorem eaVal_mk (m : M) (a : Nat → Int) (b : Int) (d : Int → Int) (x : EA) : eaVal ⟨m.gpr, a, b, d⟩ x = eaVal m x := rfl

/-- The state before an argument is pushed, compared with the state before INVOKE. -/
structure Pre (m0 m : M) (used : Bool) (p : Param) (a : Arg) : Prop where
  range : ∀ r, 0 ≤ m.gpr r ∧ m.gpr r < 2 ^ 32
  gpr : ∀ r, r ≠ 0 → m.gpr r = m0.gpr r
  eax : used = false → m.gpr 0 = m0.gpr 0
  mem : ∀ x, reads m0 p a x → m.mem x = m0.mem x
  free : ∀ x, reads m0 p a x → ¬ (m.sp - slot p a ≤ x ∧ x < m.sp)

theorem step_mem (c : Cfg) (hc : c.espBase = false) (p : Param) (hv : p.vararg = true → p.psize = 0) (x : EA) (ty : Ty)
    (ht : Tame (.mem x ty)) (hs : Sound p (.mem x ty)) (used : Bool) (m0 m : M) (hp : Pre m0 m used p (.mem x ty)) (o : Out)
    (h : pushMemArg c p x ty used = some o) :
    Pushed m (run m o.ins) (slot p (.mem x ty)) (width p (.mem x ty)) (argVal m0 p (.mem x ty)) ∧
    (o.used = false → used = false ∧ (run m o.ins).gpr 0 = m.gpr 0) := by
  have hne : usesEax x = false := by
    have := ht.1
    simp only [eaRegs, List.mem_append, not_or] at this
    obtain ⟨b, i, d⟩ := x
    cases b <;> cases i <;> simp_all [usesEax] <;> omega
  have hea : eaVal m x = eaVal m0 x := eaVal_congr _ _ _ fun r hr => hp.gpr r (by rintro rfl; exact ht.1 hr)
  have hld : ∀ k : Nat, k ≤ readSize p ty →
      load m.mem (eaVal m x) k = load m0.mem (eaVal m0 x) k := by
    intro k hk
    rw [hea]
    exact load_congr _ _ _ _ fun y h1 h2 => hp.mem y ⟨h1, by omega⟩
  unfold pushMemArg at h
  dsimp only at h
  by_cases hps : p.psize = 0 ∧ p.vararg = false
  · rw [if_pos hps] at h; cases h
  rw [if_neg hps] at h
  by_cases hsz : memSize p ty > (if p.vararg then memSize p ty else p.psize) ∨
      (memSize p ty < (if p.vararg then memSize p ty else p.psize) ∧ p.isPtr)
  · rw [if_pos hsz] at h; cases h
  rw [if_neg hsz] at h
  simp only [hne, Bool.false_eq_true, and_false, if_false] at h
  generalize hq : (if p.vararg = true then memSize p ty else p.psize) = q at h hsz
  obtain ⟨hs1, hs2⟩ := hs
  generalize hn : memSize p ty = n at *
  have hwid : width p (.mem x ty) = if p.vararg then max 4 n else p.psize := by simp [width, hn]
  split at h
  · -- more than a dword
    rename_i h4
    have hw : width p (.mem x ty) = n := by
      rw [hwid]
      rcases hs2 (by omega) with hvv | hpp
      · rw [if_pos hvv]; omega
      · by_cases hvv : p.vararg = true
        · rw [if_pos hvv]; omega
        · rw [if_neg hvv, hpp]
    have hbig : bigMem c p x n = bigLoop c x n := by
      unfold bigMem
      rw [if_neg (by omega), if_neg, if_neg (by omega)]
      rintro ⟨h6, hf⟩
      rcases hs1 with h | ⟨_, h⟩
      · omega
      · rw [h h6] at hf; cases hf
    cases h
    rw [hbig]
    have hval : argVal m0 p (.mem x ty) % 256 ^ n = load m0.mem (eaVal m0 x) n % 256 ^ n := by
      cases ty with
      | int s sg => simp only [memSize] at hn; subst hn; simp only [argVal]; rw [ext_mod]
      | struct s => simp only [memSize] at hn; subst hn; rfl
      | untyped =>
        simp only [memSize] at hn; subst hn
        have : p.vararg = false := by
          cases hvv : p.vararg with
          | false => rfl
          | true => have := hv hvv; omega
        simp [argVal, this]
    have hrd : n ≤ readSize p ty := by
      cases ty with
      | int s sg => simp only [readSize, hn]; omega
      | struct s => simp only [readSize, hn]; omega
      | untyped => simp only [memSize] at hn; simp only [readSize]; omega
    have hb := run_big c hc x n (by omega) m hp.range (by
      intro a h1 h2
      rw [hea] at h1 h2
      have := hp.free a ⟨h1, by omega⟩
      rw [slot, hw] at this
      exact this)
    rw [hld n hrd] at hb
    have hgpr : (run m (bigLoop c x n).1).gpr 0 = m.gpr 0 := by
      have : ∀ (k : Int) (m : M), (run m (bigLoop c x k).1).gpr = m.gpr := by
        intro k
        induction hk : k.toNat using Nat.strongRecOn generalizing k with
        | ind N ih =>
          intro m
          rw [bigLoop]
          split
          · split
            · simp only [List.cons_append, List.nil_append, run_cons]
              rw [ih _ (by omega) _ rfl]; rfl
            · simp only [List.cons_append, List.nil_append, run_cons]
              rw [ih _ (by omega) _ rfl]; rfl
          · rfl
      rw [this]
    rw [slot, hw]
    refine ⟨⟨hb.sp, by rw [hb.val, hval], hb.keep, hb.gpr, hb.range⟩, fun hu => ⟨hu, hgpr⟩⟩
  · split at h
    · -- less than a dword
      rename_i h4 h4'
      rw [Option.map_eq_some_iff] at h
      obtain ⟨r, hr, rfl⟩ := h
      unfold smallMem at hr
      split at hr
      · cases hr
      rename_i hps4
      have hw0 : 0 < width p (.mem x ty) := by
        rw [hwid]; split
        · omega
        · rename_i hvv
          have : p.vararg = false := by simpa using hvv
          simp only [this, and_true] at hps
          omega
      have hw4 : width p (.mem x ty) ≤ 4 := by
        rw [hwid]; split
        · omega
        · rename_i hvv; rw [if_neg hvv] at hq; omega
      cases ty with
      | int size signed =>
        simp only [memSize] at hn
        subst hn
        have hl := hld size (by simp [readSize, memSize])
        have hrng := load_range m0.mem (eaVal m0 x) size
        simp only at hr
        have hmovx : Pushed m (run m [.movx signed size (.mem x), .pushReg 4 0]) (slot p (.mem x (.int size signed)))
            (width p (.mem x (.int size signed))) (argVal m0 p (.mem x (.int size signed))) := by
          refine pushed_eax m hp.range _ (ext signed size (load m0.mem (eaVal m0 x) size) % 2 ^ 32) _ ?_ ?_ _ hw0 hw4 ?_
          · simp only [exec, srcVal, hl]
          · exact ⟨Int.emod_nonneg _ (by decide), Int.emod_lt_of_pos _ (by decide)⟩
          · rw [mod_w _ _ hw4]; rfl
        split at hr
        · rename_i hsg
          cases hr
          have : signed = true := hsg.2
          subst this
          exact ⟨hmovx, fun hu => by cases hu⟩
        · rename_i hsg
          split at hr
          · rename_i h1
            subst h1
            split at hr
            · rename_i hps1
              cases hr
              refine ⟨?_, fun hu => by cases hu⟩
              have hww : width p (.mem x (.int 1 signed)) = 1 := by
                rw [hwid, hps1.2]
                rw [hps1.1, hps1.2] at hq
                simpa using hq
              refine pushed_eax m hp.range _ (m.gpr 0 / 256 * 256 + load m0.mem (eaVal m0 x) 1) _ ?_ ?_ _ hw0 hw4 ?_
              · simp only [exec, srcVal, hl]
              · have := hp.range 0; omega
              · rw [hww]
                simp only [argVal]
                have := ext_mod signed 1 (load m0.mem (eaVal m0 x) 1)
                rw [this]; omega
            · cases hr
              exact ⟨hmovx, fun hu => by cases hu⟩
          · split at hr
            · rename_i h1 h2
              subst h2
              split at hr
              · rename_i hun
                obtain ⟨hun, hmasm⟩ := hun
                subst hun
                cases hr
                simp only at hwid hl hrng ⊢
                split
                · rename_i hz
                  refine ⟨?_, fun hu => ⟨hu, rfl⟩⟩
                  have hdis : ∀ y, eaVal m0 x ≤ y → y < eaVal m0 x + 2 → ¬ (m.sp - 4 ≤ y ∧ y < m.sp) := by
                    intro y a1 a2
                    have := hp.free y ⟨a1, by simp only [readSize, memSize]; omega⟩
                    rw [slot] at this
                    omega
                  have hl2 : load (store m.mem (m.sp - 2) 2 0) (eaVal m0 x) 2 = load m0.mem (eaVal m0 x) 2 := by
                    rw [← hl, hea]
                    exact load_congr _ _ _ _ fun y a1 a2 => store_out _ _ _ _ _ (by have := hdis y a1 (by omega); omega)
                  refine pushed_words m hp.range (load m0.mem (eaVal m0 x) 2) _ ⟨hrng.1, hrng.2⟩ _ hw0 hw4 rfl _ ?_
                  simp only [run, List.foldl_cons, List.foldl_nil, exec]
                  rw [eaVal_mk, hea]
                  rw [show m.sp - ((2 : Nat) : Int) = m.sp - 2 from rfl, hl2]
                  rw [show m.sp - 2 - ((2 : Nat) : Int) = m.sp - 4 by omega]
                · rename_i hz
                  refine ⟨?_, fun hu => ⟨hu, rfl⟩⟩
                  have hvv : p.vararg = false := by
                    cases hh : p.vararg with
                    | false => rfl
                    | true => exact absurd (.inl hh) hz
                  have hp2 : p.psize = 2 := by
                    have := not_or.1 hz
                    have := this.2
                    rw [hvv] at hq
                    simp only [Bool.false_eq_true, if_false] at hq
                    omega
                  have hww : width p (.mem x (.int 2 false)) = 2 := by rw [hwid, hvv]; simpa using hp2
                  rw [slot, hww]
                  have hsp : (run m [Ins.subSp 2, Ins.pushMem 2 x]).sp = m.sp - 4 := by
                    simp only [run, List.foldl_cons, List.foldl_nil, exec]; omega
                  have hmm : (run m [Ins.subSp 2, Ins.pushMem 2 x]).mem = store m.mem (m.sp - 4) 2 (load m0.mem (eaVal m0 x) 2) := by
                    simp only [run, List.foldl_cons, List.foldl_nil, exec]
                    rw [eaVal_mk, hl, show m.sp - ((2 : Nat) : Int) - ((2 : Nat) : Int) = m.sp - 4 by omega]
                  refine ⟨hsp, ?_, ?_, fun _ _ => rfl, hp.range⟩
                  · rw [hsp, hmm, load_store]; rfl
                  · intro y hy
                    rw [hsp] at hy
                    rw [hmm, store_out _ _ _ _ _ (by omega)]
              · cases hr
                exact ⟨hmovx, fun hu => by cases hu⟩
            · cases hr
      | struct size =>
        simp only at hr
        split at hr
        · simp only [memSize] at hn; omega
        · cases hr
      | untyped =>
        simp only at hr
        split at hr
        · rename_i h3
          simp only [memSize] at hn
          split at hq
          · omega
          · omega
        · cases hr
          refine ⟨?_, fun hu => ⟨hu, rfl⟩⟩
          refine pushed_dword m hp.range _ hw0 hw4 _ (load m0.mem (eaVal m0 x) 4) ?_ _ ?_
          · simp only [argVal]
            by_cases hvv : p.vararg = true
            · rw [if_pos hvv]
            · rw [if_neg hvv]
              have hww : width p (.mem x .untyped) = p.psize := by rw [hwid, if_neg hvv]
              rw [hww]
              rw [hww] at hw4
              rw [load_mod_self _ _ _ _ hw4, Int.emod_eq_of_lt (load_range _ _ _).1 (load_range _ _ _).2]
          · simp only [run, List.foldl_cons, List.foldl_nil, exec]
            rw [hld 4 (by simp only [readSize]; omega)]
            rfl
    · -- a dword
      rename_i h4 h4'
      have hn4 : n = 4 := by omega
      subst hn4
      split at h
      · cases h
      cases h
      have hw : width p (.mem x ty) = 4 := by
        rw [hwid]
        rcases hs2 (by omega) with hvv | hpp
        · rw [if_pos hvv]; rfl
        · rw [hpp]; split <;> rfl
      refine ⟨?_, fun hu => ⟨hu, rfl⟩⟩
      rw [slot, hw]
      refine pushed_dword m hp.range 4 (by omega) (by omega) _ (load m0.mem (eaVal m0 x) 4) ?_ _ ?_
      · cases ty with
        | int s sg => simp only [memSize] at hn; subst hn; simp only [argVal]; rw [ext_mod]
        | struct s => simp only [memSize] at hn; subst hn; rfl
        | untyped =>
          simp only [memSize] at hn
          simp only [argVal, hn]
          split <;> rfl
      · simp only [run, List.foldl_cons, List.foldl_nil, exec]
        rw [hld 4 (by
          cases ty with
          | int s sg => simp only [readSize, hn]; omega
          | struct s => simp only [readSize, hn]; omega
          | untyped => simp only [readSize]; omega)]
        rfl

end Verif.Invoke
