import Verif.Invoke.Step2
/-! # C62, C63: INVOKE passes the arguments -/
namespace Verif.Invoke
open Frame (store load store_out load_congr load_store)

def slotSum (l : List (Param × Arg)) : Nat := (l.map fun a => slot a.1 a.2).sum

/-- The list in push order: what was pushed first is the highest. -/
theorem pushAll_spec (c : Cfg) (hc : c.espBase = false) (m0 : M) : ∀ (l : List (Param × Arg)) (used : Bool) (o : Out) (m : M),
    pushAll c l used = some o →
    (∀ a ∈ l, WfParam a.1 ∧ Tame a.2 ∧ Sound a.1 a.2) →
    (∀ r, 0 ≤ m.gpr r ∧ m.gpr r < 2 ^ 32) → (∀ r, r ≠ 0 → m.gpr r = m0.gpr r) → (used = false → m.gpr 0 = m0.gpr 0) →
    (∀ a ∈ l, ∀ x, reads m0 a.1 a.2 x → m.mem x = m0.mem x ∧ ¬ (m.sp - slotSum l ≤ x ∧ x < m.sp)) →
    (run m o.ins).sp = m.sp - slotSum l ∧
    (∀ x, x < (run m o.ins).sp ∨ m.sp ≤ x → (run m o.ins).mem x = m.mem x) ∧
    (∀ r, r ≠ 0 → (run m o.ins).gpr r = m.gpr r) ∧
    (∀ k p a, l[k]? = some (p, a) →
      load (run m o.ins).mem ((run m o.ins).sp + slotSum (l.drop (k + 1))) (width p a) = argVal m0 p a % 256 ^ width p a)
  | [], used, o, m, h, _, _, _, _, _ => by
    simp only [pushAll] at h
    cases h
    simp [slotSum, run]
  | (p, a) :: l, used, o, m, h, hok, hr, hg, he, hm => by
    simp only [pushAll] at h
    split at h
    · cases h
    rename_i o1 h1
    split at h
    · cases h
    rename_i o2 h2
    cases h
    have hsum : slotSum ((p, a) :: l) = slot p a + slotSum l := by simp [slotSum]
    obtain ⟨hw, ht, hs⟩ := hok (p, a) List.mem_cons_self
    obtain ⟨hP, hU⟩ := step c hc p hw a ht hs used m0 m ⟨hr, hg, he, fun x hx => (hm _ List.mem_cons_self x hx).1,
      fun x hx => by have := (hm _ List.mem_cons_self x hx).2; rw [hsum] at this; omega⟩ o1 h1
    generalize hm1 : run m o1.ins = m1 at *
    have ih := pushAll_spec c hc m0 l o1.used o2 m1 h2 (fun b hb => hok b (List.mem_cons_of_mem _ hb)) hP.range
      (fun r h0 => by rw [hP.gpr r h0, hg r h0]) (fun hu => by rw [(hU hu).2]; exact he (hU hu).1) (by
        intro b hb x hx
        have h3 := hm b (List.mem_cons_of_mem _ hb) x hx
        rw [hsum] at h3
        rw [hP.sp]
        refine ⟨?_, by omega⟩
        rw [hP.keep x (by rw [hP.sp]; omega)]
        exact h3.1)
    obtain ⟨i1, i2, i3, i4⟩ := ih
    simp only [run_append, hm1]
    generalize hm2 : run m1 o2.ins = m2 at *
    have hsp := hP.sp
    refine ⟨by rw [i1, hsp, hsum]; omega, ?_, ?_, ?_⟩
    · intro x hx
      rw [i2 x (by omega), hP.keep x (by omega)]
    · intro r h0; rw [i3 r h0, hP.gpr r h0]
    · intro k q b hk
      cases k with
      | zero =>
        simp only [List.getElem?_cons_zero, Option.some.injEq, Prod.mk.injEq] at hk
        obtain ⟨rfl, rfl⟩ := hk
        simp only [Nat.zero_add, List.drop_succ_cons, List.drop_zero]
        have e : m2.sp + slotSum l = m1.sp := by rw [i1]; omega
        rw [e, ← hP.val]
        exact load_congr _ _ _ _ fun x h3 h4 => i2 x (.inr h3)
      | succ k =>
        simp only [List.getElem?_cons_succ] at hk
        simp only [List.drop_succ_cons]
        exact i4 k q b hk

theorem pair_eq (pr : Proto) (args : List Arg) (l : List (Param × Arg)) (h : pair pr args = some l) :
    l = args.zipIdx.map (fun a => (paramAt pr a.2, a.1)) ∧ pr.params.length ≤ args.length ∧
    (pr.vararg = false → args.length = pr.params.length) := by
  unfold pair at h
  split at h
  · cases h
  rename_i h1
  split at h
  · cases h
  rename_i h2
  cases h
  refine ⟨?_, by omega, fun hv => by
    by_cases e : args.length = pr.params.length
    · exact e
    · exact absurd ⟨hv, e⟩ h2⟩
  apply List.ext_getElem?
  intro k
  simp only [List.getElem?_zip_eq_some, List.getElem?_map, List.getElem?_zipIdx, paramAt]
  by_cases hk : k < args.length
  · have e1 : (pr.params ++ List.replicate (args.length - pr.params.length) ({ psize := 0, vararg := true } : Param))[k]? =
        some ((pr.params[k]?).getD { psize := 0, vararg := true }) := by
      rw [List.getElem?_append]
      split
      · rename_i h; rw [List.getElem?_eq_getElem h]; rfl
      · rename_i h
        rw [List.getElem?_eq_none (by omega : pr.params.length ≤ k), List.getElem?_replicate, if_pos (by omega)]; rfl
    have e2 := List.getElem?_eq_getElem hk
    rw [List.zip, List.getElem?_zipWith, e1, e2]
    simp
  · rw [List.getElem?_eq_none (by simp; omega), List.getElem?_eq_none (by omega : args.length ≤ k)]
    rfl

theorem slotSum_reverse (l : List (Param × Arg)) : slotSum l.reverse = slotSum l := by
  simp [slotSum]

theorem slotSum_slots (pr : Proto) (args : List Arg) :
    slotSum (args.zipIdx.map (fun a => (paramAt pr a.2, a.1))) = (slots pr args).sum := by
  simp only [slotSum, slots, List.map_map]; rfl

/-- C62: before the CALL every argument lies at its place above the stack pointer, as a number of the size of its parameter with the
value it had before INVOKE; the stack pointer was lowered by the slots; memory outside of them and all registers but EAX (and the
flags) are unchanged. For arguments that do not use EAX in an address and have sizes for which PUSHes are generated correctly. -/
theorem C62_arguments_partial (c : Cfg) (hc : c.espBase = false) (pr : Proto) (hw : ∀ p ∈ pr.params, WfParam p) (args : List Arg)
    (ins : List Ins) (clean : Nat) (h : invoke c pr args = some (ins, clean)) (m : M)
    (hr : ∀ r, 0 ≤ m.gpr r ∧ m.gpr r < 2 ^ 32)
    (hok : ∀ k a, args[k]? = some a → Tame a ∧ Sound (paramAt pr k) a ∧
      ∀ x, reads m (paramAt pr k) a x → ¬ (m.sp - (slots pr args).sum ≤ x ∧ x < m.sp)) :
    (run m ins).sp = m.sp - (slots pr args).sum ∧
    (∀ x, x < (run m ins).sp ∨ m.sp ≤ x → (run m ins).mem x = m.mem x) ∧
    (∀ r, r ≠ 0 → (run m ins).gpr r = m.gpr r) ∧
    (∀ k a, args[k]? = some a → load (run m ins).mem ((run m ins).sp + place pr args k) (width (paramAt pr k) a) =
      argVal m (paramAt pr k) a % 256 ^ width (paramAt pr k) a) := by
  unfold invoke at h
  split at h
  · cases h
  rename_i l hl
  obtain ⟨hl, hlen, _⟩ := pair_eq pr args l hl
  split at h
  · cases h
  rename_i o ho
  simp only [Option.some.injEq, Prod.mk.injEq] at h
  obtain ⟨rfl, _⟩ := h
  have hmem : ∀ k p a, l[k]? = some (p, a) → p = paramAt pr k ∧ args[k]? = some a := by
    intro k p a hk
    rw [hl] at hk
    simp only [List.getElem?_map, List.getElem?_zipIdx, Option.map_map, Option.map_eq_some_iff, Function.comp, Prod.mk.injEq,
      Nat.zero_add] at hk
    obtain ⟨b, hb, rfl, rfl⟩ := hk
    exact ⟨rfl, hb⟩
  have hsum : slotSum l = (slots pr args).sum := by rw [hl]; exact slotSum_slots pr args
  have hall : ∀ a ∈ l, (WfParam a.1 ∧ Tame a.2 ∧ Sound a.1 a.2) ∧
      ∀ x, reads m a.1 a.2 x → ¬ (m.sp - (slots pr args).sum ≤ x ∧ x < m.sp) := by
    intro a ha
    obtain ⟨k, hk⟩ := List.getElem?_of_mem ha
    obtain ⟨e1, e2⟩ := hmem k a.1 a.2 hk
    obtain ⟨h1, h2, h3⟩ := hok k a.2 e2
    rw [← e1] at h2 h3
    refine ⟨⟨?_, h1, h2⟩, h3⟩
    rw [e1]; unfold paramAt
    cases hq : pr.params[k]? with
    | none => simp [WfParam]
    | some q => exact hw q (List.mem_of_getElem? hq)
  have hsl : slots pr args = l.map fun a => slot a.1 a.2 := by
    rw [hl]; simp only [slots, List.map_map]; rfl
  have hlk : ∀ k a, args[k]? = some a → l[k]? = some (paramAt pr k, a) := by
    intro k a hk
    rw [hl]; simp [hk]
  by_cases hpas : pr.lang = .pascal
  · rw [if_pos hpas] at ho
    obtain ⟨h1, h2, h3, h4⟩ := pushAll_spec c hc m l false o m ho (fun a ha => (hall a ha).1) hr (fun _ _ => rfl) (fun _ => rfl)
      (fun a ha x hx => ⟨rfl, by rw [hsum]; exact (hall a ha).2 x hx⟩)
    rw [hsum] at h1
    refine ⟨h1, h2, h3, ?_⟩
    intro k a hk
    have := h4 k (paramAt pr k) a (hlk k a hk)
    rw [place, if_pos hpas, hsl, ← List.map_drop]
    exact this
  · rw [if_neg hpas] at ho
    obtain ⟨h1, h2, h3, h4⟩ := pushAll_spec c hc m l.reverse false o m ho (fun a ha => (hall a (List.mem_reverse.1 ha)).1) hr
      (fun _ _ => rfl) (fun _ => rfl)
      (fun a ha x hx => ⟨rfl, by rw [slotSum_reverse, hsum]; exact (hall a (List.mem_reverse.1 ha)).2 x hx⟩)
    rw [slotSum_reverse, hsum] at h1
    refine ⟨h1, h2, h3, ?_⟩
    intro k a hk
    have hkl := hlk k a hk
    have hklt : k < l.length := by
      have := List.getElem?_eq_some_iff.1 hkl
      exact this.1
    have := h4 (l.length - 1 - k) (paramAt pr k) a (by
      rw [List.getElem?_reverse (by omega), show l.length - 1 - (l.length - 1 - k) = k by omega]; exact hkl)
    rw [place, if_neg hpas, hsl, ← List.map_take]
    rw [show l.length - 1 - k + 1 = l.length - k by omega, List.drop_reverse, show l.length - (l.length - k) = k by omega,
      slotSum_reverse] at this
    exact this

/-! ## What the procedure sees -/

theorem paramOffs_get (l : List Nat) : ∀ (o : Int) (k : Nat) (hk : k < l.length),
    (Proc.paramOffs 4 o l)[k]? = some (l[k], o + (((l.take k).map fun n => (n + 3) / 4 * 4).sum : Nat)) := by
  induction l with
  | nil => intro o k hk; simp at hk
  | cons n l ih =>
    intro o k hk
    cases k with
    | zero => simp [Proc.paramOffs]
    | succ k =>
      simp only [Proc.paramOffs, List.getElem?_cons_succ, List.getElem_cons_succ, List.take_succ_cons, List.map_cons, List.sum_cons]
      rw [ih _ k (by simpa using hk), Proc.roundUp_4]
      congr 2
      omega

theorem width_declared (p : Param) (a : Arg) (h : p.vararg = false) : width p a = p.psize := by
  cases a <;> simp [width, h]

theorem slots_declared (pr : Proto) (args : List Arg) (hv : ∀ p ∈ pr.params, p.vararg = false) (hlen : pr.params.length ≤ args.length) (k : Nat)
    (hk : k < pr.params.length) : (slots pr args)[k]? = some ((pr.params[k].psize + 3) / 4 * 4) := by
  simp only [slots, List.getElem?_map, List.getElem?_zipIdx]
  rw [List.getElem?_eq_getElem (by omega : k < args.length)]
  simp only [Option.map_some, Nat.zero_add, slot]
  have e : paramAt pr k = pr.params[k] := by simp [paramAt, hk]
  rw [e, width_declared _ _ (hv _ (List.getElem_mem hk))]

theorem slots_take (pr : Proto) (args : List Arg) (hv : ∀ p ∈ pr.params, p.vararg = false) (hlen : pr.params.length ≤ args.length) :
    (slots pr args).take pr.params.length = pr.params.map fun p => (p.psize + 3) / 4 * 4 := by
  apply List.ext_getElem?
  intro k
  rw [List.getElem?_take]
  split
  · rename_i hk
    rw [slots_declared pr args hv hlen k hk]; simp [hk]
  · rename_i hk
    rw [List.getElem?_eq_none (by simp; omega)]

theorem slots_length (pr : Proto) (args : List Arg) : (slots pr args).length = args.length := by simp [slots]

/-- C62: the procedure finds argument `k` at the offset from EBP that it has assigned to parameter `k`: EBP is the stack pointer
after CALL (the return address) and `push ebp`. -/
theorem C62_callee_partial (c : Cfg) (hc : c.espBase = false) (pr : Proto) (hw : ∀ p ∈ pr.params, WfParam p ∧ p.vararg = false)
    (hpv : pr.lang = .pascal → pr.vararg = false) (args : List Arg)
    (ins : List Ins) (clean : Nat) (h : invoke c pr args = some (ins, clean)) (m : M)
    (hr : ∀ r, 0 ≤ m.gpr r ∧ m.gpr r < 2 ^ 32)
    (hok : ∀ k a, args[k]? = some a → Tame a ∧ Sound (paramAt pr k) a ∧
      ∀ x, reads m (paramAt pr k) a x → ¬ (m.sp - (slots pr args).sum ≤ x ∧ x < m.sp))
    (k : Nat) (p : Param) (hk : pr.params[k]? = some p) :
    ∃ a ofs, args[k]? = some a ∧
      (Proc.paramOffs 4 (Proc.paramStart 4 false)
        (Proc.paramOrder (decide (pr.lang = .pascal)) false (pr.params.map (·.psize))))[if pr.lang = .pascal then pr.params.length - 1 - k else k]? =
          some (p.psize, ofs) ∧
      load (run m ins).mem ((run m ins).sp - 8 + ofs) p.psize = argVal m p a % 256 ^ p.psize := by
  have hkl : k < pr.params.length := (List.getElem?_eq_some_iff.1 hk).1
  have hpk : pr.params[k] = p := (List.getElem?_eq_some_iff.1 hk).2
  have hpair : ∃ l, pair pr args = some l := by
    unfold invoke at h
    split at h
    · cases h
    · exact ⟨_, by assumption⟩
  obtain ⟨l, hl⟩ := hpair
  obtain ⟨_, hlen, heq⟩ := pair_eq pr args l hl
  have hka : k < args.length := by omega
  have hpa : paramAt pr k = p := by simp [paramAt, hk]
  have hvp : ∀ p ∈ pr.params, p.vararg = false := fun q hq => (hw q hq).2
  obtain ⟨_, _, _, h4⟩ := C62_arguments_partial c hc pr (fun p hp => (hw p hp).1) args ins clean h m hr hok
  have h4 := h4 k args[k] (List.getElem?_eq_getElem hka)
  rw [hpa, width_declared _ _ (hvp p (List.mem_of_getElem? hk))] at h4
  refine ⟨args[k], 8 + place pr args k, List.getElem?_eq_getElem hka, ?_, ?_⟩
  · have hst : Proc.paramStart 4 false = 8 := by decide
    rw [hst]
    have htake : ∀ j, j ≤ pr.params.length → (slots pr args).take j = (pr.params.take j).map fun p => (p.psize + 3) / 4 * 4 := by
      intro j hj
      rw [List.map_take, ← slots_take pr args hvp hlen, List.take_take, Nat.min_eq_left hj]
    by_cases hpas : pr.lang = .pascal
    · rw [if_pos hpas, paramOffs_get _ _ _ (by simp [Proc.paramOrder, hpas]; omega)]
      have hla : args.length = pr.params.length := heq (hpv hpas)
      have hsl : slots pr args = pr.params.map fun p => (p.psize + 3) / 4 * 4 := by
        rw [← slots_take pr args hvp hlen, List.take_of_length_le (by rw [slots_length]; omega)]
      simp only [place, if_pos hpas, hsl]
      congr 2
      · simp only [Proc.paramOrder, hpas, decide_true, or_true, if_true, Bool.false_eq_true, if_false, List.getElem_reverse, List.getElem_map,
          List.length_map]
        have : pr.params.length - 1 - (pr.params.length - 1 - k) = k := by omega
        simp only [this, hpk]
      · simp only [Proc.paramOrder, hpas, decide_true, or_true, if_true, Bool.false_eq_true, if_false, List.take_reverse, List.map_reverse,
          List.sum_reverse, List.length_map]
        rw [show pr.params.length - (pr.params.length - 1 - k) = k + 1 by omega, ← List.map_drop, ← List.map_drop, List.map_map]
        rfl
    · rw [if_neg hpas, paramOffs_get _ _ _ (by simp [Proc.paramOrder, hpas]; omega)]
      simp only [place, if_neg hpas]
      rw [htake k (by omega)]
      congr 2
      · simp [Proc.paramOrder, hpas, hpk]
      · simp only [Proc.paramOrder, hpas, decide_false, Bool.false_eq_true, or_self, if_false, List.reverse_reverse, ← List.map_take, List.map_map]
        rfl
  · rw [← h4]
    congr 1
    omega

end Verif.Invoke
