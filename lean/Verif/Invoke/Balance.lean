import Verif.Invoke.Props
/-! # C63: the stack is balanced after INVOKE -/
namespace Verif.Invoke
open Frame (store load store_out load_congr load_store)

/-- The stack pointer after the call: the procedure returns with RET `calleePops`, then `clean` is added. -/
def spAfter (pr : Proto) (m : M) (ins : List Ins) (clean : Nat) : Int := (run m ins).sp + calleePops pr + clean

/-- A declared parameter of whole words but not of whole dwords adds 2 to the number of bytes that are removed, too. -/
def wordy (p : Param) : Arg → Nat
  | .mem _ ty => if p.vararg = false ∧ 4 < memSize p ty ∧ memSize p ty % 4 = 2 then 2 else 0
  | _ => 0

theorem sv_step (c : Cfg) (hc : c.espBase = false) (p : Param) (hw : WfParam p) (hf : p.vararg = true → p.isFword = false)
    (a : Arg) (hs : Sound p a) (used : Bool) (o : Out)
    (h : pushArg c p a used = some o) : o.sv = (if p.vararg then slot p a else 0) + wordy p a := by
  have hv' : p.vararg = true → p.psize = 0 := fun e => by unfold WfParam at hw; rwa [if_pos e] at hw
  cases a with
  | xmm n => exact hs.elim
  | const v =>
    simp only [pushArg, pushConstArg] at h
    split at h
    · cases h
    split at h
    · cases h
    cases hvv : p.vararg with
    | true =>
      simp only [hvv, if_true] at h
      split at h
      · cases h; simp [slot, width, hvv, wordy]
      · cases h
    | false =>
      simp only [hvv, Bool.false_eq_true, if_false] at h
      repeat' split at h
      all_goals first | cases h; simp [wordy] | cases h
  | addrDirect v =>
    simp only [pushArg, pushAddrArg] at h
    split at h
    · cases h
    · cases h
      cases hvv : p.vararg <;> simp [slot, width, hvv, wordy]
  | addrIndirect v =>
    simp only [pushArg, pushAddrArg] at h
    split at h
    · cases h
    · cases h
      cases hvv : p.vararg <;> simp [slot, width, hvv, wordy]
  | reg r sg =>
    simp only [pushArg, pushRegArg] at h
    have hpart : partSize r.part ≤ 4 := by cases r.part <;> simp [partSize]
    cases hvv : p.vararg with
    | true =>
      simp only [hvv, if_true, true_and] at h
      generalize hps : (if partSize r.part < 4 then 4 else partSize r.part) = ps at h
      have : ps = 4 := by split at hps <;> omega
      subst this
      have : o.sv = 4 := by
        repeat' split at h
        all_goals first | (cases h; rfl) | cases h
      rw [this]
      simp [slot, width, hvv, wordy]
    | false =>
      simp only [hvv, Bool.false_eq_true, if_false, false_and] at h
      have : o.sv = 0 := by
        repeat' split at h
        all_goals first | (cases h; rfl) | cases h
      rw [this]
      simp [wordy]
  | mem x ty =>
    simp only [pushArg, pushMemArg] at h
    split at h
    · cases h
    generalize hq : (if p.vararg = true then memSize p ty else p.psize) = q at h
    by_cases hsz : memSize p ty > q ∨ (memSize p ty < q ∧ p.isPtr = true)
    · rw [if_pos hsz] at h; cases h
    rw [if_neg hsz] at h
    generalize hsv : (if p.vararg = true then if memSize p ty > 4 then memSize p ty else 4 else 0) = sv at h
    obtain ⟨hs1, hs2⟩ := hs
    generalize hn : memSize p ty = n at *
    split at h
    · rename_i h4
      have hbig : bigMem c p x n = bigLoop c x n := by
        unfold bigMem
        rw [if_neg (by omega), if_neg, if_neg (by omega)]
        rintro ⟨h6, hf⟩
        rcases hs1 with h | ⟨_, h⟩
        · omega
        · rw [h h6] at hf; cases hf
      have hlp : (bigLoop c x n).2 = if n % 4 = 2 then 2 else 0 := by
        rcases (show n % 4 = 0 ∨ n % 4 = 2 by omega) with e | e
        · obtain ⟨k, rfl⟩ : ∃ k, n = 4 * k := ⟨n / 4, by omega⟩
          rw [bigLoop_sv c hc, if_neg (by omega)]
        · obtain ⟨k, rfl⟩ : ∃ k, n = 4 * k + 2 := ⟨n / 4, by omega⟩
          rw [bigLoop_word, if_pos (by omega)]
          simp only [bigLoop_sv c hc]
      cases h
      simp only [hbig, hlp, wordy, hn, slot, width]
      rw [← hsv]
      cases hvv : p.vararg with
      | true => simp only [if_true, Bool.true_eq_false, false_and, if_false]; split <;> split <;> omega
      | false => simp only [Bool.false_eq_true, if_false, true_and]; split <;> split <;> omega
    · rename_i h4
      rw [if_neg h4] at hsv
      have hsv : o.sv = if p.vararg then 4 else 0 := by
        rw [hsv]
        split at h
        · rw [Option.map_eq_some_iff] at h
          obtain ⟨r, _, rfl⟩ := h
          rfl
        · split at h
          · cases h
          · cases h
            rfl
      rw [hsv]
      simp only [wordy, hn, slot, width]
      rw [if_neg (by omega : ¬ (p.vararg = false ∧ 4 < n ∧ n % 4 = 2))]
      cases hvv : p.vararg with
      | true => simp only [if_true]; omega
      | false => simp

theorem sv_all (c : Cfg) (hc : c.espBase = false) : ∀ (l : List (Param × Arg)) (used : Bool) (o : Out), pushAll c l used = some o →
    (∀ a ∈ l, WfParam a.1 ∧ (a.1.vararg = true → a.1.isFword = false) ∧ Sound a.1 a.2) →
    o.sv = (l.map fun a => (if a.1.vararg then slot a.1 a.2 else 0) + wordy a.1 a.2).sum
  | [], used, o, h, _ => by simp only [pushAll] at h; cases h; rfl
  | (p, a) :: l, used, o, h, hok => by
    simp only [pushAll] at h
    split at h
    · cases h
    rename_i o1 h1
    split at h
    · cases h
    rename_i o2 h2
    cases h
    obtain ⟨h3, h4, h5⟩ := hok (p, a) List.mem_cons_self
    have e1 := sv_step c hc p h3 h4 a h5 used o1 h1
    have e2 := sv_all c hc l o1.used o2 h2 (fun b hb => hok b (List.mem_cons_of_mem _ hb))
    simp only [e1, e2, List.map_cons, List.sum_cons]

theorem parasize_eq (pr : Proto) : parasize pr = (pr.params.map fun p => (p.psize + 3) / 4 * 4).sum := by
  simp only [parasize, Proc.roundUp_4]

/-- C63: after the call and the instruction behind it the stack pointer is what it was before INVOKE, whatever the calling convention,
unless the procedure is STDCALL with VARARG; with VARARG and the C convention, if no declared parameter of 6, 10, 14, ... bytes gets
a variable. -/
theorem C63_balance_partial (c : Cfg) (hc : c.espBase = false) (pr : Proto) (hw : ∀ p ∈ pr.params, WfParam p ∧ p.vararg = false)
    (hl : pr.vararg = true → pr.lang = .c ∨ pr.lang = .syscall) (args : List Arg)
    (ins : List Ins) (clean : Nat) (h : invoke c pr args = some (ins, clean)) (m : M)
    (hr : ∀ r, 0 ≤ m.gpr r ∧ m.gpr r < 2 ^ 32)
    (hok : ∀ k a, args[k]? = some a → Tame a ∧ Sound (paramAt pr k) a ∧
      ∀ x, reads m (paramAt pr k) a x → ¬ (m.sp - (slots pr args).sum ≤ x ∧ x < m.sp))
    (hword : pr.vararg = true → ∀ (k : Nat) (p : Param) (x : EA) (ty : Ty), pr.params[k]? = some p → args[k]? = some (.mem x ty) →
      4 < p.psize → p.psize % 4 = 0) :
    spAfter pr m ins clean = m.sp := by
  obtain ⟨h1, _⟩ := C62_arguments_partial c hc pr (fun p hp => (hw p hp).1) args ins clean h m hr hok
  unfold spAfter
  rw [h1]
  suffices hh : calleePops pr + clean = (slots pr args).sum by omega
  unfold invoke at h
  split at h
  · cases h
  rename_i l hpl
  obtain ⟨hpl, hlen, heq⟩ := pair_eq pr args l hpl
  split at h
  · cases h
  rename_i o ho
  simp only [Option.some.injEq, Prod.mk.injEq] at h
  obtain ⟨_, rfl⟩ := h
  have hvp : ∀ p ∈ pr.params, p.vararg = false := fun q hq => (hw q hq).2
  have hst := slots_take pr args hvp hlen
  cases hv : pr.vararg with
  | false =>
    have hla := heq hv
    rw [List.take_of_length_le (by rw [slots_length]; omega)] at hst
    rw [hst, ← parasize_eq]
    cases hlang : pr.lang <;> simp [calleePops, hlang, hv]
  | true =>
    have hlang := hl hv
    have hcp : calleePops pr = 0 := by rcases hlang with e | e <;> simp [calleePops, e]
    rw [hcp, if_pos hlang, if_pos rfl]
    have hnp : ¬ pr.lang = .pascal := by rintro e; rw [e] at hlang; rcases hlang with h | h <;> cases h
    rw [if_neg hnp] at ho
    have hmem : ∀ a ∈ l, ∃ k, args[k]? = some a.2 ∧ a.1 = paramAt pr k := by
      intro a ha
      rw [hpl, List.mem_map] at ha
      obtain ⟨b, hb, rfl⟩ := ha
      have := List.mem_zipIdx hb
      exact ⟨b.2, by rw [List.getElem?_eq_getElem (by omega)]; simp [this.2.2], rfl⟩
    have hpar : ∀ k, WfParam (paramAt pr k) ∧ ((paramAt pr k).vararg = true → (paramAt pr k).isFword = false) := by
      intro k
      unfold paramAt
      cases hq : pr.params[k]? with
      | none => simp [WfParam]
      | some q =>
        have := hw q (List.mem_of_getElem? hq)
        exact ⟨this.1, fun e => by simp only [Option.getD_some] at e; rw [this.2] at e; cases e⟩
    have e := sv_all c hc l.reverse false o ho (by
      intro a ha
      obtain ⟨k, hk, e⟩ := hmem a (List.mem_reverse.1 ha)
      rw [e]
      exact ⟨(hpar k).1, (hpar k).2, (hok k a.2 hk).2.1⟩)
    rw [List.map_reverse, List.sum_reverse] at e
    have hw0 : ∀ a ∈ l, wordy a.1 a.2 = 0 := by
      intro a ha
      obtain ⟨k, hk, e⟩ := hmem a ha
      unfold wordy
      split
      · rename_i x ty e2
        split
        · rename_i hcnd
          exfalso
          have hs := (hok k _ hk).2.1
          rw [← e, e2] at hs
          obtain ⟨hs1, hs2⟩ := hs
          rcases hs2 (by omega) with hh | hh
          · rw [hh] at hcnd; cases hcnd.1
          · unfold paramAt at e
            cases hq : pr.params[k]? with
            | none => rw [hq] at e; simp only [Option.getD_none] at e; rw [e] at hcnd; simp at hcnd
            | some q =>
              rw [hq, Option.getD_some] at e
              rw [← e] at hq
              have := hword hv k a.1 x ty hq (by rw [hk, e2]) (by omega)
              omega
        · rfl
      · rfl
    have hsl : slots pr args = l.map fun a => slot a.1 a.2 := by
      rw [hpl]; simp only [slots, List.map_map]; rfl
    have e2 : o.sv = ((slots pr args).drop pr.params.length).sum := by
      have h1 : l.map (fun a => (if a.1.vararg then slot a.1 a.2 else 0) + wordy a.1 a.2) =
          l.map (fun a => if a.1.vararg then slot a.1 a.2 else 0) :=
        List.map_congr_left fun a ha => by rw [hw0 a ha, Nat.add_zero]
      rw [e, hsl, h1]
      have hget : ∀ k a, l[k]? = some a → a.1 = paramAt pr k := by
        intro k a hk
        rw [hpl] at hk
        simp only [List.getElem?_map, List.getElem?_zipIdx, Option.map_map, Option.map_eq_some_iff, Function.comp,
          Nat.zero_add] at hk
        obtain ⟨b, hb, rfl⟩ := hk
        rfl
      have h2 : ∀ a ∈ l.take pr.params.length, (if a.1.vararg then slot a.1 a.2 else 0) = 0 := by
        intro a ha
        obtain ⟨k, hk⟩ := List.getElem?_of_mem ha
        rw [List.getElem?_take] at hk
        split at hk
        · rename_i hlt
          have e3 := hget k a hk
          rw [e3, paramAt, List.getElem?_eq_getElem hlt, Option.getD_some, hvp _ (List.getElem_mem hlt)]
          rfl
        · cases hk
      have h3 : ∀ a ∈ l.drop pr.params.length, (if a.1.vararg then slot a.1 a.2 else 0) = slot a.1 a.2 := by
        intro a ha
        obtain ⟨k, hk⟩ := List.getElem?_of_mem ha
        rw [List.getElem?_drop] at hk
        have e3 := hget _ a hk
        rw [e3, paramAt, List.getElem?_eq_none (by omega)]
        rfl
      have h4 : (l.map fun a => if a.1.vararg then slot a.1 a.2 else 0).sum =
          ((l.take pr.params.length).map fun a => if a.1.vararg then slot a.1 a.2 else 0).sum +
          ((l.drop pr.params.length).map fun a => if a.1.vararg then slot a.1 a.2 else 0).sum := by
        rw [← List.sum_append, ← List.map_append, List.take_append_drop]
      rw [h4, List.map_congr_left h2, List.map_congr_left h3, ← List.map_drop, List.map_const', List.sum_replicate_nat]
      simp
    rw [e2, parasize_eq, ← hst, Nat.zero_add, ← List.sum_append, List.take_append_drop]

end Verif.Invoke
