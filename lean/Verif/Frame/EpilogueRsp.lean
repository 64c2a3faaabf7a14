import Verif.Frame.Epilogue
/-! # Epilogue and prologue with RSP as stack base -/
namespace Verif.Frame

/-! ## The home slots -/

theorem homeSlots_fst (i : Nat) (h : List Bool) (l : List Nat) :
    (homeSlots i h l).map (·.1) = l.take (homeSlots i h l).length := by
  induction h generalizing i l with
  | nil => simp [homeSlots]
  | cons b h ih =>
    cases l with
    | nil => simp [homeSlots]
    | cons r l =>
      cases b
      · simp [homeSlots, ih]
      · simp only [homeSlots]; exact ih _ _

theorem homeSlots_lower (i : Nat) (h : List Bool) (l : List Nat) : ∀ p ∈ homeSlots i h l, 8 * (i + 1) ≤ p.2 := by
  induction h generalizing i l with
  | nil => simp [homeSlots]
  | cons b h ih =>
    cases l with
    | nil => simp [homeSlots]
    | cons r l =>
      cases b
      · intro p hp
        simp only [homeSlots, List.mem_cons] at hp
        rcases hp with rfl | hp
        · exact Nat.le_refl _
        · have := ih _ _ p hp; omega
      · intro p hp
        have := ih _ _ p hp; omega

theorem homeSlots_sorted (i : Nat) (h : List Bool) (l : List Nat) :
    (homeSlots i h l).Pairwise (fun p q => p.2 + 8 ≤ q.2) := by
  induction h generalizing i l with
  | nil => simp [homeSlots]
  | cons b h ih =>
    cases l with
    | nil => simp [homeSlots]
    | cons r l =>
      cases b
      · simp only [homeSlots, List.pairwise_cons]
        exact ⟨fun p hp => by have := homeSlots_lower _ _ _ p hp; omega, ih _ _⟩
      · exact ih _ _

/-- A register is only stored in a slot whose flag is clear. -/
theorem homeSlots_free (i : Nat) (h : List Bool) (l : List Nat) : ∀ p ∈ homeSlots i h l,
    ∃ k, h[k]? = some false ∧ p.2 = 8 * (i + k + 1) := by
  induction h generalizing i l with
  | nil => simp [homeSlots]
  | cons b h ih =>
    cases l with
    | nil => simp [homeSlots]
    | cons r l =>
      cases b
      · intro p hp
        simp only [homeSlots, List.mem_cons] at hp
        rcases hp with rfl | hp
        · exact ⟨0, by simp⟩
        · obtain ⟨k, h1, h2⟩ := ih _ _ p hp
          exact ⟨k + 1, by simpa using h1, by omega⟩
      · intro p hp
        obtain ⟨k, h1, h2⟩ := ih _ _ p hp
        exact ⟨k + 1, by simpa using h1, by omega⟩

def putSlots (l : List (Nat × Nat)) : List Ins := l.map (fun p => Ins.put p.1 p.2 8)
def getSlots (l : List (Nat × Nat)) : List Ins := l.map (fun p => Ins.get p.1 p.2)

theorem puts (l : List (Nat × Nat)) (m : M) (hs : l.Pairwise (fun p q => p.2 + 8 ≤ q.2)) :
    (∀ x, (∀ p ∈ l, x < m.sp + p.2 ∨ m.sp + p.2 + 8 ≤ x) → (run 8 m (putSlots l)).mem x = m.mem x)
    ∧ (∀ p ∈ l, ∀ x, m.sp + p.2 ≤ x → x < m.sp + p.2 + 8 → written 8 m x (putSlots l)
        ∧ (run 8 m (putSlots l)).mem x = store m.mem (m.sp + p.2) 8 (m.gpr p.1) x) := by
  induction l generalizing m with
  | nil => simp [putSlots, run]
  | cons p l ih =>
    have hs' := List.pairwise_cons.1 hs
    have h := ih (exec 8 m (.put p.1 p.2 8)) hs'.2
    have e : putSlots (p :: l) = .put p.1 p.2 8 :: putSlots l := rfl
    rw [e, run_cons]
    have hsp : (exec 8 m (.put p.1 p.2 8)).sp = m.sp := rfl
    rw [hsp] at h
    constructor
    · intro x hx
      rw [h.1 x (fun q hq => hx q (List.mem_cons_of_mem _ hq))]
      have := hx p List.mem_cons_self
      exact store_out _ _ _ _ _ (by omega)
    · intro q hq x h1 h2
      rcases List.mem_cons.1 hq with rfl | hq
      · refine ⟨.inl ⟨h1, h2⟩, ?_⟩
        rw [h.1 x (fun q' hq' => by have := hs'.1 q' hq'; omega)]
        rfl
      · have hh := h.2 q hq x h1 h2
        refine ⟨.inr hh.1, ?_⟩
        rw [hh.2]
        have hle := hs'.1 q hq
        -- the store of q hides the earlier one
        have hload : ∀ (mem mem' : Int → Int) (n : Nat) (a v y : Int), a ≤ y → y < a + n → store mem a n v y = store mem' a n v y := by
          intro mem mem' n
          induction n with
          | zero => intro a v y h1 h2; omega
          | succ n ihn =>
            intro a v y h1 h2
            simp only [store]
            by_cases hy : y = a
            · rw [if_pos hy, if_pos hy]
            · rw [if_neg hy, if_neg hy]
              exact ihn _ _ _ (by omega) (by omega)
        exact hload _ _ _ _ _ _ h1 h2

theorem gets (l : List (Nat × Nat)) (m0 m : M) (hsp : m.sp = m0.sp)
    (hm : ∀ p ∈ l, load m.mem (m0.sp + p.2) 8 = m0.gpr p.1) :
    (run 8 m (getSlots l)).sp = m.sp ∧ (run 8 m (getSlots l)).mem = m.mem ∧ (run 8 m (getSlots l)).vec = m.vec
    ∧ ∀ r, (run 8 m (getSlots l)).gpr r = if r ∈ l.map (·.1) then m0.gpr r else m.gpr r := by
  induction l generalizing m with
  | nil => simp [getSlots, run]
  | cons p l ih =>
    have e : getSlots (p :: l) = .get p.1 p.2 :: getSlots l := rfl
    rw [e, run_cons]
    have h := ih (exec 8 m (.get p.1 p.2)) hsp (fun q hq => hm q (List.mem_cons_of_mem _ hq))
    refine ⟨h.1, h.2.1, h.2.2.1, fun r => ?_⟩
    rw [h.2.2.2 r]
    by_cases hr : r ∈ l.map (·.1)
    · rw [if_pos hr, if_pos (by rw [List.map_cons]; exact List.mem_cons_of_mem _ hr)]
    · rw [if_neg hr]
      show setG m.gpr p.1 (load m.mem (m.sp + p.2) 8) r = _
      unfold setG
      by_cases hp : r = p.1
      · rw [if_pos hp, if_pos (by rw [hp, List.map_cons]; exact List.mem_cons_self), hsp, hm p List.mem_cons_self, hp]
      · rw [if_neg hp, if_neg (by
          rw [List.map_cons, List.mem_cons]
          rintro (h | h)
          · exact hp h
          · exact hr h)]

/-! ## The pair -/

def R.pre (w : R) : List Ins :=
  if w.smart then saveParamsRSP 4 0 w.params else if w.saveParams then saveParamsRSP0 4 0 w.params else []

/-- The prologue makes room and stores vector registers (else it only subtracts). -/
def R.full (w : R) : Bool := decide (w.hasLocals = true ∨ w.resstack ≠ 0 ∨ w.xmmsize ≠ 0)

def R.total (w : R) : Nat := if w.full then w.stackSize + w.resstack else w.localsize

def R.subIns (w : R) : List Ins := if w.full then [.sub (w.stackSize + w.resstack : Nat)] else if w.localsize > 0 then [.sub w.localsize] else []

theorem R.isSub (w : R) : IsSub w.subIns w.total := by
  unfold R.subIns R.total
  cases w.full
  · simp only [Bool.false_eq_true, if_false]
    by_cases h : w.localsize > 0
    · rw [if_pos h]; exact .inl rfl
    · rw [if_neg h]; exact .inr ⟨rfl, by omega⟩
  · exact .inl rfl

/-- What the RSP pair needs; see the counterexamples in Props for each of `zmm`, `stored`, `size`. -/
structure R.Ok (w : R) : Prop where
  /-- no ZMM register in the USES list -/
  zmm : ∀ p ∈ vecs w.regs, p.2 ≠ 64
  /-- vector registers only where the prologue stores them -/
  stored : vecs w.regs = [] ∨ w.full = true
  /-- the vector registers have their room -/
  room : vecBytes w.regs ≤ w.stackSize
  /-- without OPTION WIN64:2 the epilogue frees `localsize` bytes -/
  size : w.autosp = true ∨ (w.xmmsize = 0 ∧ w.localsize % 8 = 0)
  nodup : ((vecs w.regs).map (·.1)).Nodup

theorem code_slots (l : List (Nat × Nat)) :
    code (l.flatMap (fun p => [.ins (.put p.1 p.2 8), .dir (.savereg p.1 p.2)])) = putSlots l := by
  induction l with
  | nil => rfl
  | cons p l ih =>
    rw [List.flatMap_cons, code_append, ih]; rfl

theorem code_prologueRSP (w : R) (hst : vecs w.regs = [] ∨ w.full = true) : code (prologueRSP w) =
    w.pre ++ (putSlots w.slots ++ (w.pushed.map Ins.push ++ w.subIns ++ code (vputLines w.resstack (vecs w.regs)))) := by
  unfold prologueRSP
  simp only [code_append]
  rw [code_slots, code_pushLines]
  have e1 : code (if w.smart then (saveParamsRSP 4 0 w.params).map Line.ins
      else if w.saveParams then (saveParamsRSP0 4 0 w.params).map Line.ins else []) = w.pre := by
    unfold R.pre
    cases w.smart <;> cases w.saveParams <;> simp [code_map] <;> rfl
  have e2 : code (if w.hasLocals = true ∨ w.resstack ≠ 0 ∨ w.xmmsize ≠ 0 then
        [.ins (.sub (w.stackSize + w.resstack : Nat)), .dir (.alloc (w.stackSize + w.resstack : Nat))]
        ++ vputLines w.resstack (vecs w.regs)
      else if w.localsize > 0 then [.ins (.sub w.localsize)] else [])
      = w.subIns ++ code (vputLines w.resstack (vecs w.regs)) := by
    unfold R.subIns
    unfold R.full at hst ⊢
    by_cases h : w.hasLocals = true ∨ w.resstack ≠ 0 ∨ w.xmmsize ≠ 0
    · rw [if_pos h, decide_eq_true h, if_pos rfl, code_append]; rfl
    · rw [if_neg h, decide_eq_false h]
      rw [decide_eq_false h] at hst
      have : vecs w.regs = [] := hst.resolve_right (by simp)
      rw [this]
      by_cases hl : w.localsize > 0
      · rw [if_pos hl, if_neg (by simp), if_pos hl]; rfl
      · rw [if_neg hl, if_neg (by simp), if_neg hl]; rfl
  rw [e1, e2]
  have e6 : code [Line.dir Dir.endprolog] = [] := rfl
  rw [e6]
  simp only [List.append_assoc, List.append_nil]

theorem vgetRSP_eq (i : Int) (l : List (Nat × Nat)) (h : ∀ p ∈ l, p.2 ≠ 64) : vgetRSP i l = vgetLines none i l := by
  induction l generalizing i with
  | nil => rfl
  | cons p l ih =>
    obtain ⟨r, n⟩ := p
    have hn : n ≠ 64 := h (r, n) List.mem_cons_self
    simp only [vgetRSP, vgetLines]
    rw [if_neg hn, ih _ (fun q hq => h q (List.mem_cons_of_mem _ hq))]

theorem pops_eq (w : R) : w.pops = popLines w.pushed := by
  unfold R.pops R.pushed popLines
  cases h : w.smart
  · have : w.slots = [] := by unfold R.slots; rw [h]; rfl
    rw [this]; simp
  · simp only [if_true, List.length_drop, List.reverse_drop]

/-- The epilogue frees what the prologue reserved. -/
theorem rsp_free (w : R) (ok : w.Ok) :
    IsSub (if w.autosp then
        (if w.localsize + w.resv + w.xmmsize ≠ 0 then [Ins.sub (-((w.stackSize + w.resv : Nat) : Int))] else [])
      else if w.localsize > 0 then [Ins.sub (-(w.localsize : Int))] else []) (-(w.total : Int)) := by
  cases ha : w.autosp
  · rw [if_neg (by simp)]
    have hz : w.resstack = 0 := by unfold R.resstack; rw [ha]; rfl
    obtain ⟨hx, h8⟩ : w.xmmsize = 0 ∧ w.localsize % 8 = 0 := by
      rcases ok.size with h | h
      · rw [ha] at h; exact absurd h (by simp)
      · exact h
    have : w.total = w.localsize := by
      have hst : w.stackSize = w.localsize := by
        unfold R.stackSize
        simp only [hx, Nat.add_zero]
        rw [if_neg (by omega)]
      unfold R.total
      rw [hz, hst]; cases w.full <;> simp
    rw [this]
    by_cases h : w.localsize > 0
    · rw [if_pos h]; exact .inl rfl
    · rw [if_neg h]; exact .inr ⟨rfl, by omega⟩
  · rw [if_pos rfl]
    have hz : w.resstack = w.resv := by unfold R.resstack; rw [ha]; rfl
    have hhab : w.habran = true := by unfold R.habran; rw [ha]; simp
    cases hfull : w.full
    · -- nothing at all
      unfold R.full at hfull
      have hnf := of_decide_eq_false hfull
      have h1 : w.hasLocals = false := by cases h : w.hasLocals <;> simp_all
      have h2 : w.resstack = 0 := by
        refine Decidable.byContradiction fun h => hnf (.inr (.inl h))
      have h3 : w.xmmsize = 0 := by
        refine Decidable.byContradiction fun h => hnf (.inr (.inr h))
      have h4 : (vecs w.regs).length * xyz w.regs = 0 := by
        unfold R.xmmsize at h3
        simp only [hhab, h1, h2] at h3
        simpa using h3
      have hcnt : (vecs w.regs).length = 0 := by
        rcases Nat.mul_eq_zero.1 h4 with h | h
        · exact h
        · unfold xyz at h
          repeat (split at h; · omega)
          omega
      have h5 : w.localsize = 0 := by
        unfold R.localsize
        simp [hhab, h1, h2, h3, hcnt]
      have hres : w.resv = 0 := by omega
      rw [if_neg (by omega)]
      unfold R.total
      rw [if_neg (by unfold R.full; simpa using hfull)]
      exact .inr ⟨rfl, by omega⟩
    · have ht : w.total = w.stackSize + w.resv := by unfold R.total; rw [hfull, if_pos rfl, hz]
      rw [ht]
      by_cases h : w.localsize + w.resv + w.xmmsize ≠ 0
      · rw [if_pos h]; exact .inl rfl
      · rw [if_neg h]
        have : w.stackSize = 0 := by
          unfold R.stackSize
          have : w.localsize + w.xmmsize = 0 := by omega
          rw [this]; rfl
        exact .inr ⟨rfl, by omega⟩

theorem rsp_undone (w : R) (ok : w.Ok) (m0 m1 : M) (hf : fits 8 m0)
    (hb : BodyEnd 8 (code (prologueRSP w)) none m0 m1) :
    Undone (gprs w.regs) (vecs w.regs) m0 m1 (run 8 m1 (epilogueRSP w)) := by
  have hk := hb.kept
  have hfr : m1.sp = (run 8 m0 (code (prologueRSP w))).sp := hb.frame
  rw [code_prologueRSP w ok.stored] at hk hfr
  generalize hQ : w.pushed.map Ins.push ++ w.subIns ++ code (vputLines w.resstack (vecs w.regs)) = Q at *
  have hpre := run_onlyMem 8 w.pre m0 (by
    unfold R.pre
    cases w.smart
    · cases w.saveParams
      · simp
      · exact onlyMem_saveParamsRSP0 4 0 w.params
    · exact onlyMem_saveParamsRSP 4 0 w.params)
  generalize hmp : run 8 m0 w.pre = mp at *
  have hsorted : w.slots.Pairwise (fun p q => p.2 + 8 ≤ q.2) := by
    unfold R.slots
    cases w.smart
    · simp
    · exact homeSlots_sorted _ _ _
  have hlower : ∀ p ∈ w.slots, 8 ≤ p.2 := by
    unfold R.slots
    cases w.smart
    · simp
    · intro p hp; have := homeSlots_lower _ _ _ p hp; omega
  have hputs := puts w.slots mp hsorted
  have hput2 := run_onlyMem 8 (putSlots w.slots) mp (by
    intro i hi
    simp only [putSlots, List.mem_map] at hi
    obtain ⟨p, _, rfl⟩ := hi
    trivial)
  generalize hmh : run 8 mp (putSlots w.slots) = mh at *
  have hroom : (w.resstack : Int) + bytes (vecs w.regs) ≤ w.total ∨ vecs w.regs = [] := by
    rcases ok.stored with h | h
    · exact .inr h
    · left
      have := ok.room
      rw [vecBytes_eq] at this
      unfold R.total
      rw [h, if_pos rfl]; omega
  -- position irrelevant without vector registers
  let i : Int := if vecs w.regs = [] then 0 else w.resstack
  have hi : vputLines w.resstack (vecs w.regs) = vputLines i (vecs w.regs) := by
    simp only [i]
    by_cases h : vecs w.regs = []
    · rw [h]; rfl
    · rw [if_neg h]
  have hi2 : vgetLines none w.resstack (vecs w.regs) = vgetLines none i (vecs w.regs) := by
    simp only [i]
    by_cases h : vecs w.regs = []
    · rw [h]; rfl
    · rw [if_neg h]
  have hroom' : i + bytes (vecs w.regs) ≤ w.total := by
    simp only [i]
    by_cases h : vecs w.regs = []
    · rw [if_pos h, h]; simp [bytes]
    · rw [if_neg h]; exact hroom.resolve_right h
  rw [hi] at hQ
  have hcore := core_run 8 w.pushed w.subIns w.total i (vecs w.regs) mh w.isSub
  rw [hQ] at hcore
  simp only at hcore
  have hkQ : ∀ a, written 8 mh a Q → m1.mem a = (run 8 mh Q).mem a := by
    intro a ha
    rw [hk a (by rw [written_append, hmp, written_append, hmh]; exact .inr (.inr ha)), run_append, hmp, run_append, hmh]
  have hsp : m1.sp = mh.sp - 8 * w.pushed.length - w.total := by
    rw [hfr, run_append, hmp, run_append, hmh]; exact hcore.2.2
  have hvec := core_vec 8 w.pushed w.subIns w.total i i (vecs w.regs) none mh m1 w.isSub ok.nodup
    (by rw [hQ]; exact hkQ) (by show m1.sp + _ = _; rw [hsp]; omega)
  have he : epilogueRSP w = vgetLines none i (vecs w.regs)
      ++ ((if w.autosp then
        (if w.localsize + w.resv + w.xmmsize ≠ 0 then [Ins.sub (-((w.stackSize + w.resv : Nat) : Int))] else [])
      else if w.localsize > 0 then [Ins.sub (-(w.localsize : Int))] else []) ++ (popLines w.pushed ++ getSlots w.slots)) := by
    unfold epilogueRSP
    rw [vgetRSP_eq _ _ ok.zmm, hi2, pops_eq]
    simp only [List.append_assoc]
    rfl
  generalize hm2 : run 8 m1 (vgetLines none i (vecs w.regs)) = m2 at *
  rw [he, run_append, hm2, run_append, run_sub 8 m2 (rsp_free w ok), run_append]
  have hpop := core_pop 8 w.pushed w.subIns w.total i (vecs w.regs) mh m1 { m2 with sp := m2.sp - -(w.total : Int) }
    (fun r _ => by rw [hput2.1, hpre.1]; exact hf.1 r) w.isSub hroom' (by rw [hQ]; exact hkQ) hvec.2.1
    (by show m2.sp - _ = _; rw [hvec.1, hsp]; omega)
  generalize hm4 : run 8 { m2 with sp := m2.sp - -(w.total : Int) } (popLines w.pushed) = m4 at *
  have hsp0 : mh.sp = m0.sp := hput2.2.2.trans hpre.2.2
  have hg0 : mh.gpr = m0.gpr := hput2.1.trans hpre.1
  have hv0 : mh.vec = m0.vec := hput2.2.1.trans hpre.2.1
  have hget := gets w.slots m0 m4 (hpop.1.trans hsp0) (by
    intro p hp
    rw [hpop.2.1, load_congr _ (store mp.mem (mp.sp + p.2) 8 (mp.gpr p.1)) 8]
    · rw [hpre.2.2, load_store_eq _ _ _ _ (by rw [hpre.1]; exact (hf.1 _).1) (by rw [hpre.1]; exact (hf.1 _).2), hpre.1]
    · intro x h1 h2
      have h2' : x < m0.sp + p.2 + 8 := by simpa using h2
      have hh := hputs.2 p hp x (by rw [hpre.2.2]; exact h1) (by rw [hpre.2.2]; exact h2')
      have hl := hlower p hp
      have hab : (run 8 mh Q).mem x = mh.mem x := by
        rw [← hQ]
        exact core_above 8 w.pushed w.subIns w.total i (vecs w.regs) mh w.isSub hroom' x (by rw [hsp0]; omega)
      rw [hk x (by rw [written_append, hmp, written_append]; exact .inr (.inl hh.1)), run_append, hmp, run_append, hmh, hab, hh.2])
  have hsplit : ∀ r, r ∈ gprs w.regs ↔ r ∈ w.slots.map (·.1) ∨ r ∈ w.pushed := by
    intro r
    have e : w.slots.map (·.1) = (gprs w.regs).take w.slots.length := by
      unfold R.slots
      cases w.smart
      · simp
      · exact homeSlots_fst _ _ _
    rw [e]
    unfold R.pushed
    conv => lhs; rw [← List.take_append_drop w.slots.length (gprs w.regs)]
    exact List.mem_append
  refine ⟨hget.1.trans (hpop.1.trans hsp0), ?_, ?_, ?_, ?_, hget.2.1.trans hpop.2.1⟩
  · intro r hr
    rw [hget.2.2.2 r]
    by_cases h : r ∈ w.slots.map (·.1)
    · rw [if_pos h]
    · rw [if_neg h, hpop.2.2.2, if_pos (((hsplit r).1 hr).resolve_left h), hg0]
  · intro p hp
    rw [hget.2.2.1, hpop.2.2.1]
    show m2.vec _ % _ = _
    rw [hvec.2.2.2.1 p hp, hv0, Int.emod_emod_of_dvd _ (Int.dvd_refl _)]
  · intro r hr
    rw [hget.2.2.2 r, if_neg (fun h => hr ((hsplit r).2 (.inl h))), hpop.2.2.2,
      if_neg (fun h => hr ((hsplit r).2 (.inr h)))]
    show m2.gpr r = _
    rw [hvec.2.2.1]
  · intro r hr
    rw [hget.2.2.1, hpop.2.2.1]
    exact hvec.2.2.2.2 r hr

/-! ## The home slots of used parameters are not taken -/

theorem takeFrom_mono (n : Nat) (h : List Bool) (k : Nat) (hk : h[k]? = some true) : (takeFrom n h)[k]? = some true := by
  induction h generalizing n k with
  | nil => simp at hk
  | cons b h ih =>
    cases b <;> cases n <;> cases k <;> simp_all [takeFrom]

theorem takeFirst_mono (h : List Bool) (k : Nat) (hk : h[k]? = some true) : (takeFirst h)[k]? = some true := by
  induction h generalizing k with
  | nil => simp at hk
  | cons b h ih =>
    cases b <;> cases k <;> simp_all [takeFirst]

theorem homeUsed_mono (g : Nat) (h : List Bool) (k : Nat) (hk : h[k]? = some true) : (homeUsed g h)[k]? = some true := by
  have hmap : (h.map (fun _ => true))[k]? = some true := by
    rw [List.getElem?_map, hk]; rfl
  unfold homeUsed
  simp only
  split
  · exact hk
  split
  · exact hmap
  split
  · exact takeFrom_mono _ _ _ hk
  split
  · split
    · exact hmap
    split
    · exact takeFrom_mono _ _ _ hk
    · exact hk
  split
  · rw [List.getElem?_set]
    split
    · rename_i h3; subst h3
      rw [if_pos (by
        have := List.getElem?_eq_some_iff.1 hk
        exact this.1)]
    · exact hk
  split
  · split
    · exact takeFirst_mono _ _ hk
    · exact hk
  · exact hk

/-- Position `k` of the home area is written for a parameter. -/
def paramAt : Nat → List Param → Nat → Bool
  | 0, _, _ => false
  | _ + 1, [], _ => false
  | f + 1, p :: r, 0 => if p.kind = .vararg then true else p.used
  | f + 1, p :: r, k + 1 => if p.kind = .vararg then paramAt f (p :: r) k else paramAt f r k

theorem homeUsed0_at (f : Nat) (ps : List Param) (k : Nat) (h : paramAt f ps k = true) : (homeUsed0 f ps)[k]? = some true := by
  induction f generalizing ps k with
  | zero => simp [paramAt] at h
  | succ f ih =>
    cases ps with
    | nil => simp [paramAt] at h
    | cons p r =>
      cases k with
      | zero =>
        simp only [paramAt] at h
        simp only [homeUsed0]
        split <;> simp_all
      | succ k =>
        simp only [paramAt] at h
        simp only [homeUsed0]
        split
        · rw [if_pos (by assumption)] at h
          simpa using ih _ _ h
        · rw [if_neg (by assumption)] at h
          simpa using ih _ _ h

/-- Storing the USES registers in the home area never overwrites a parameter that the procedure uses. -/
theorem home_disjoint (w : R) (k : Nat) (h : paramAt 4 w.params k = true) : ∀ p ∈ w.slots, p.2 ≠ 8 * (k + 1) := by
  intro p hp
  unfold R.slots at hp
  cases hs : w.smart
  · rw [hs] at hp; simp at hp
  · rw [hs, if_pos rfl] at hp
    obtain ⟨j, h1, h2⟩ := homeSlots_free _ _ _ p hp
    intro e
    have : j = k := by omega
    subst this
    rw [homeUsed_mono _ _ _ (homeUsed0_at _ _ _ h)] at h1
    simp at h1

end Verif.Frame
