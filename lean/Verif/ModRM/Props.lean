import Verif.ModRM.Form
import Mathlib.Tactic.Linarith
/-! # C19: memory operands are encoded faithfully -/
namespace Verif.ModRM

/-- The numbers of an operand, added as 64-bit numbers. -/
def numSum (ts : List Term) : Int :=
  Int.bmod ((ts.map fun | .num v => v | _ => 0).sum) (2 ^ 64)

/-- The registers of an operand. -/
def regsOf (ts : List Term) : List Reg := ts.flatMap Term.regs

/-- The terms with registers. -/
def regTerms (ts : List Term) : List Term := ts.filter fun | .num _ => false | _ => true

/-- What the source program says is within these limits. Each clause but the first three excludes a case where UASM 's output is
wrong, see the theorems `C19_finding_...` below. -/
structure Source (cx : Ctx) (ts : List Term) : Prop where
  /-- the registers exist and can be used in addresses (`[ax]`: C19_finding_ax) -/
  regs : ∀ r ∈ regsOf ts, r.ok cx.mode
  /-- numbers have 64 bits -/
  nums : ∀ v, .num v ∈ ts → -2 ^ 63 ≤ v ∧ v < 2 ^ 63
  /-- direct addresses belong to a segment of a size that this code can address -/
  dir : cx.mode = .u64 → cx.dir ≠ .u16
  dir' : cx.mode ≠ .u64 → cx.dir ≠ .u64
  /-- C19_finding_scale -/
  scale : ∀ r k, .mul r k ∈ ts → 0 < k ∧ k < 256
  /-- C19_finding_rip -/
  rip : ∀ r ∈ regsOf ts, r.cls = .rip → regsOf ts = [r] ∧ ∀ k, .mul r k ∉ ts
  /-- C19_finding_si -/
  si : cx.mode = .u32 → regsOf ts ≠ [⟨.r16, 6⟩]
  /-- C19_finding_si64 -/
  idx16 : cx.mode = .u64 → ∀ r k, .mul r k ∈ ts → r.cls ≠ .r16

/-! ### The evaluator -/

structure Inv (ts : List Term) (o : Opnd) : Prop where
  sum : ∀ regs next, o.regSum regs next = sumTerms regs next (regTerms ts)
  all : ∀ r ∈ regsOf ts, o.base = some r ∨ o.idx = some r
  base : ∀ b, o.base = some b → .reg b ∈ ts
  idx : ∀ i, o.idx = some i → (.reg i ∈ ts ∧ o.base ≠ none) ∨ ∃ k, .mul i k ∈ ts
  noIdx : o.idx = none → o.scale = 0
  scaled : ∀ i, o.idx = some i → o.base = none → o.scale ≠ 0
  addr : o.addr = false → o.base = none ∧ o.idx = none
  count : (regsOf ts).length = (if o.base = none then 0 else 1) + (if o.idx = none then 0 else 1)
  value : o.value = numSum ts

theorem sumTerms_append (regs : Nat → Int) (next : Int) (ts us : List Term) :
    sumTerms regs next (ts ++ us) = sumTerms regs next ts + sumTerms regs next us := by
  simp [sumTerms]

theorem regsOf_append (ts us : List Term) : regsOf (ts ++ us) = regsOf ts ++ regsOf us := by simp [regsOf]

theorem numSum_single (v : Int) (h : -2 ^ 63 ≤ v ∧ v < 2 ^ 63) : numSum [.num v] = v := by
  simp only [numSum, List.map_cons, List.map_nil, List.sum_cons, List.sum_nil, add_zero]
  rw [Int.bmod_def]; norm_num at *; split <;> omega

theorem numSum_append (ts us : List Term) : numSum (ts ++ us) = wrap64 (numSum ts + numSum us) := by
  unfold numSum wrap64
  rw [List.map_append, List.sum_append, Int.add_bmod_bmod, Int.bmod_add_bmod]

theorem wrap64_eq (x : Int) : ∃ z, wrap64 x = x + 2 ^ 64 * z := by
  unfold wrap64
  refine ⟨(Int.bmod x (2 ^ 64) - x) / 2 ^ 64, ?_⟩
  have h : ((2 : Int) ^ 64) ∣ (Int.bmod x (2 ^ 64) - x) := by
    have := @Int.dvd_bmod_sub_self x (2 ^ 64)
    exact_mod_cast this
  rw [Int.mul_ediv_cancel' h]
  ring

theorem wrap64_numSum (ts : List Term) : wrap64 (numSum ts) = numSum ts := by
  unfold wrap64 numSum; rw [Int.bmod_bmod]

theorem inv_term {t : Term} {o : Opnd} (hn : ∀ v, t = .num v → -2 ^ 63 ≤ v ∧ v < 2 ^ 63) (hk : ∀ r k, t = .mul r k → 0 < k ∧ k < 256)
    (h : termOpnd t = .ok o) : Inv [t] o := by
  cases t with
  | reg r =>
    simp only [termOpnd, Except.ok.injEq] at h
    subst h
    constructor <;> simp [Opnd.regSum, sumTerms, Term.value, regsOf, Term.regs, regTerms]
    rfl
  | num v =>
    simp only [termOpnd, Except.ok.injEq] at h
    subst h
    constructor <;> simp [Opnd.regSum, sumTerms, regsOf, Term.regs, regTerms]
    exact (numSum_single v (hn v rfl)).symm
  | mul r k =>
    obtain ⟨h1, h2⟩ := hk r k rfl
    simp only [termOpnd] at h
    have hk : k % 256 = k := Int.emod_eq_of_lt (by omega) h2
    rw [hk] at h
    have hk0 : k.toNat ≠ 0 := by omega
    simp only [hk0, if_false, Except.ok.injEq] at h
    subst h
    have hm : ((max 1 k.toNat : Nat) : Int) = k := by omega
    constructor <;> simp [Opnd.regSum, sumTerms, Term.value, regsOf, Term.regs, numSum, regTerms]
    · intro regs next; left; omega
    · omega

theorem inv_plus {ts : List Term} {t : Term} {o o2 o' : Opnd} (h1 : Inv ts o) (h2 : Inv [t] o2) (ht : termOpnd t = .ok o2)
    (h : plusOp o o2 = .ok o') : Inv (ts ++ [t]) o' := by
  obtain ⟨addr, base, idx, scale, value⟩ := o
  have hv : ∀ a b : Int, value = a → o2.value = b → wrap64 (a + b) = wrap64 (value + o2.value) := by
    rintro a b rfl rfl; rfl
  have hval : wrap64 (value + o2.value) = numSum (ts ++ [t]) := by
    rw [numSum_append, ← h1.value, ← h2.value]
  have hval' : wrap64 (o2.value + value) = numSum (ts ++ [t]) := by rw [add_comm, hval]
  have hcnt : (regsOf (ts ++ [t])).length = (regsOf ts).length + (regsOf [t]).length := by rw [regsOf_append, List.length_append]
  have c1 := h1.count
  have c2 := h2.count
  have hs : ∀ regs next, Opnd.regSum ⟨addr, base, idx, scale, value⟩ regs next + o2.regSum regs next =
      sumTerms regs next (regTerms (ts ++ [t])) := by
    intro regs next
    rw [regTerms, List.filter_append, sumTerms_append, h1.sum, h2.sum]; rfl
  have hall : ∀ q ∈ regsOf (ts ++ [t]), base = some q ∨ idx = some q ∨ o2.base = some q ∨ o2.idx = some q := by
    intro q hq
    rw [regsOf_append, List.mem_append] at hq
    rcases hq with hq | hq
    · rcases h1.all q hq with e | e
      · exact Or.inl e
      · exact Or.inr (Or.inl e)
    · exact Or.inr (Or.inr (h2.all q hq))
  cases t with
  | num v =>
    simp only [termOpnd, Except.ok.injEq] at ht
    subst ht
    have : o' = ⟨addr, base, idx, scale, numSum (ts ++ [.num v])⟩ := by
      cases addr <;> simp only [plusOp, Except.ok.injEq] at h <;> rw [← h, ← hval]
    subst this
    refine ⟨?_, (by intro q hq; have := hall q hq; simp only at this ⊢; (first | done | tauto)), ?_, ?_, h1.noIdx, h1.scaled, h1.addr, ?_, rfl⟩
    · intro regs next
      rw [← hs]
      simp [Opnd.regSum]
    · intro b hb; exact List.mem_append_left _ (h1.base b hb)
    · intro i hi
      rcases h1.idx i hi with q | ⟨k, q⟩
      · exact Or.inl ⟨List.mem_append_left _ q.1, q.2⟩
      · exact Or.inr ⟨k, List.mem_append_left _ q⟩
    · rw [hcnt, c1]; simp [regsOf, Term.regs]
  | reg r =>
    simp only [termOpnd, Except.ok.injEq] at ht
    subst ht
    have hlen : (regsOf [Term.reg r]).length = 1 := rfl
    cases addr with
    | false =>
      obtain ⟨hb, hi⟩ := h1.addr rfl
      simp only at hb hi
      subst hb hi
      simp only [plusOp, Except.ok.injEq] at h
      rw [hval'] at h
      subst h
      refine ⟨?_, (by intro q hq; have := hall q hq; simp only at this ⊢; (first | done | tauto)), ?_, ?_, by simp, by simp, by simp, ?_, rfl⟩
      · intro regs next
        rw [← hs]
        simp [Opnd.regSum]
      · intro b hb; cases hb; simp
      · intro i hi; exact absurd hi (by simp)
      · rw [hcnt, c1, hlen]; rfl
    | true =>
      simp only [plusOp, indexConnect, bind, Except.bind] at h
      rcases base with _ | b1
      · simp only [Except.ok.injEq] at h
        rw [hval] at h
        subst h
        refine ⟨?_, (by intro q hq; have := hall q hq; simp only at this ⊢; (first | done | tauto)), ?_, ?_, h1.noIdx, by simp, by simp, ?_, rfl⟩
        · intro regs next
          rw [← hs]
          simp [Opnd.regSum]; ring
        · intro b hb; cases hb; simp
        · intro i hi
          rcases h1.idx i hi with q | ⟨k, q⟩
          · exact absurd q.2 (by simp)
          · exact Or.inr ⟨k, List.mem_append_left _ q⟩
        · rw [hcnt, c1, hlen]; simp; omega
      · rcases idx with _ | i1
        · have hsc := h1.noIdx rfl
          simp only at hsc
          subst hsc
          by_cases h4 : r.no = 4
          · simp only [h4, if_true, Except.ok.injEq] at h
            rw [hval] at h
            subst h
            refine ⟨?_, (by intro q hq; have := hall q hq; simp only at this ⊢; (first | done | tauto)), ?_, ?_, by simp, by simp, by simp, ?_, rfl⟩
            · intro regs next
              rw [← hs]
              simp [Opnd.regSum]; ring
            · intro b hb; cases hb; simp
            · intro i hi; cases hi; exact Or.inl ⟨List.mem_append_left _ (h1.base _ rfl), by simp⟩
            · rw [hcnt, c1, hlen]; rfl
          · simp only [h4, if_false, Except.ok.injEq] at h
            rw [hval] at h
            subst h
            refine ⟨?_, (by intro q hq; have := hall q hq; simp only at this ⊢; (first | done | tauto)), ?_, ?_, by simp, by simp, by simp, ?_, rfl⟩
            · intro regs next
              rw [← hs]
              simp [Opnd.regSum]
            · intro b hb; cases hb; exact List.mem_append_left _ (h1.base _ rfl)
            · intro i hi; cases hi; exact Or.inl ⟨by simp, by simp⟩
            · rw [hcnt, c1, hlen]; rfl
        · exact absurd h (by simp)
  | mul r k =>
    simp only [termOpnd] at ht
    by_cases hk0 : (k % 256).toNat = 0
    · rw [if_pos hk0] at ht; exact absurd ht (by simp)
    rw [if_neg hk0, Except.ok.injEq] at ht
    subst ht
    have hlen : (regsOf [Term.mul r k]).length = 1 := rfl
    cases addr with
    | false =>
      obtain ⟨hb, hi⟩ := h1.addr rfl
      simp only at hb hi
      subst hb hi
      simp only [plusOp, Except.ok.injEq] at h
      rw [hval'] at h
      subst h
      refine ⟨?_, (by intro q hq; have := hall q hq; simp only at this ⊢; (first | done | tauto)), ?_, ?_, by simp, ?_, by simp, ?_, rfl⟩
      · intro regs next
        rw [← hs]
        simp [Opnd.regSum]
      · intro b hb; exact absurd hb (by simp)
      · intro i hi; cases hi; exact Or.inr ⟨k, by simp⟩
      · intro i _ _; exact hk0
      · rw [hcnt, c1, hlen]; rfl
    | true =>
      simp only [plusOp, indexConnect, bind, Except.bind] at h
      rcases idx with _ | i1
      · simp only [Except.ok.injEq] at h
        rw [hval] at h
        subst h
        refine ⟨?_, (by intro q hq; have := hall q hq; simp only at this ⊢; (first | done | tauto)), ?_, ?_, by simp, ?_, by simp, ?_, rfl⟩
        · intro regs next
          rw [← hs]
          simp [Opnd.regSum]
        · intro b hb; exact List.mem_append_left _ (h1.base _ hb)
        · intro i hi; cases hi; exact Or.inr ⟨k, by simp⟩
        · intro i _ _; exact hk0
        · rw [hcnt, c1, hlen]; simp
      · exact absurd h (by simp)

theorem foldlM_inv {ts us : List Term} {o o' : Opnd} (h1 : Inv ts o)
    (hn : ∀ v, .num v ∈ us → -2 ^ 63 ≤ v ∧ v < 2 ^ 63) (hk : ∀ r k, .mul r k ∈ us → 0 < k ∧ k < 256)
    (h : us.foldlM (fun o t => do let o2 ← termOpnd t; plusOp o o2) o = .ok o') : Inv (ts ++ us) o' := by
  induction us generalizing ts o with
  | nil => simp only [List.foldlM_nil, pure, Except.pure, Except.ok.injEq] at h; subst h; simpa using h1
  | cons t us ih =>
    rw [List.foldlM_cons] at h
    simp only [bind, Except.bind] at h
    split at h
    · exact absurd h (by simp)
    · rename_i o1 hs
      split at hs
      · exact absurd hs (by simp)
      · rename_i o2 ht
        have h2 := inv_term (fun v e => hn v (by simp [e])) (fun r k e => hk r k (by simp [e])) ht
        have h3 := inv_plus h1 h2 ht hs
        have := ih h3 (fun v e => hn v (List.mem_cons_of_mem _ e)) (fun r k e => hk r k (List.mem_cons_of_mem _ e)) h
        simpa using this

theorem evalTerms_inv {ts : List Term} {o : Opnd} (hn : ∀ v, .num v ∈ ts → -2 ^ 63 ≤ v ∧ v < 2 ^ 63)
    (hk : ∀ r k, .mul r k ∈ ts → 0 < k ∧ k < 256) (h : evalTerms ts = .ok o) : Inv ts o := by
  cases ts with
  | nil =>
    simp only [evalTerms, Except.ok.injEq] at h
    subst h
    constructor <;> simp [Opnd.regSum, sumTerms, regsOf, regTerms]
    rfl
  | cons t ts =>
    simp only [evalTerms, bind, Except.bind] at h
    split at h
    · exact absurd h (by simp)
    · rename_i o1 ht
      have h2 := inv_term (fun v e => hn v (by simp [e])) (fun r k e => hk r k (by simp [e])) ht
      exact foldlM_inv (ts := [t]) h2 (fun v e => hn v (List.mem_cons_of_mem _ e)) (fun r k e => hk r k (List.mem_cons_of_mem _ e)) h

theorem inv_regs {ts : List Term} {o : Opnd} (h : Inv ts o) :
    (∀ r, o.base = some r → r ∈ regsOf ts) ∧ (∀ r, o.idx = some r → r ∈ regsOf ts) := by
  constructor
  · intro r hr
    exact List.mem_flatMap.2 ⟨_, h.base r hr, by simp [Term.regs]⟩
  · intro r hr
    rcases h.idx r hr with q | ⟨k, q⟩
    · exact List.mem_flatMap.2 ⟨_, q.1, by simp [Term.regs]⟩
    · exact List.mem_flatMap.2 ⟨_, q, by simp [Term.regs]⟩

theorem pre_of {cx : Ctx} {ts : List Term} {o : Opnd} (hs : Source cx ts) (h : Inv ts o) : Pre cx o := by
  obtain ⟨rb, ri⟩ := inv_regs h
  have hrip : ∀ b, o.base = some b → b.cls = .rip → o.idx = none := by
    intro b hb hc
    have e := (hs.rip b (rb b hb) hc).1
    have c := h.count
    rw [e, hb] at c
    by_contra hi
    simp [hi] at c
  exact {
    base := fun r hr => hs.regs r (rb r hr)
    idx := fun r hr => hs.regs r (ri r hr)
    ripIdx := by
      intro i hi hc
      obtain ⟨e, hk⟩ := hs.rip i (ri i hi) hc
      rcases h.idx i hi with ⟨q, hb⟩ | ⟨k, q⟩
      · have c := h.count
        rw [e, hi, if_neg hb] at c
        simp at c
      · exact hk k q
    ripBase := hrip
    si := by
      intro hm hb hi
      have hmem := rb _ hb
      have c := h.count
      rw [hb, hi] at c
      simp only [reduceCtorEq, if_false, if_true] at c
      obtain ⟨x, hx⟩ := List.length_eq_one_iff.1 (by omega : (regsOf ts).length = 1)
      rw [hx] at hmem
      simp only [List.mem_singleton] at hmem
      exact hs.si hm (by rw [hx, hmem])
    idx16 := by
      intro hm i hi hb hc
      rcases h.idx i hi with ⟨-, q⟩ | ⟨k, q⟩
      · exact q hb
      · exact hs.idx16 hm i k q hc
    dir := hs.dir
    dir' := hs.dir'
    scaleIdx := h.scaled }

/-! ### The theorems -/

theorem assemble_good {cx : Ctx} {ts : List Term} {other : Other} {enc : Enc} (hs : Source cx ts)
    (h : assemble cx ts other = .ok enc) :
    ∃ o ci f, Inv ts o ∧ Good cx o ci f ∧ memoryOperand cx o = .ok ci ∧ output cx ci other (numSum ts) = .ok enc := by
  unfold assemble at h
  simp only [bind, Except.bind] at h
  split at h
  · exact absurd h (by simp)
  rename_i o ho
  split at h
  · exact absurd h (by simp)
  rename_i ci hci
  have hi := evalTerms_inv hs.nums hs.scale ho
  obtain ⟨f, hf⟩ := memoryOperand_good (pre_of hs hi) hci
  exact ⟨o, ci, f, hi, hf, hci, by rw [← hi.value]; exact h⟩

theorem EA.addr_form (bits : Nat) (f : Form) (d : Int) (regs : Nat → Int) (next : Int) :
    EA.addr ⟨bits, f.parts, f.rip, d, f.stack⟩ regs next = (f.partSum regs next + d) % 2 ^ bits := rfl

theorem inv_none {ts : List Term} {o : Opnd} (hi : Inv ts o) : (o.base = none ∧ o.idx = none) ↔ regsOf ts = [] := by
  constructor
  · rintro ⟨a, b⟩
    rw [List.eq_nil_iff_forall_not_mem]
    intro r hr
    have := hi.all r hr
    rw [a, b] at this
    simp at this
  · intro e
    have c := hi.count
    rw [e] at c
    constructor
    · by_contra q; rw [if_neg q] at c; simp only [List.length_nil] at c; omega
    · by_contra q; rw [if_neg q] at c; simp at c

theorem sumTerms_split (regs : Nat → Int) (next : Int) (ts : List Term) :
    sumTerms regs next ts = sumTerms regs next (regTerms ts) + (ts.map fun | .num v => v | _ => 0).sum := by
  induction ts with
  | nil => rfl
  | cons t ts ih =>
    have e : sumTerms regs next (t :: ts) = t.value regs next + sumTerms regs next ts := by simp [sumTerms]
    rw [e, ih]
    cases t <;> simp [regTerms, sumTerms, Term.value] <;> ring

theorem numSum_emod (ts : List Term) {b : Nat} (hb : b ≤ 64) (x : Int) :
    (x + numSum ts) % 2 ^ b = (x + (ts.map fun | .num v => v | _ => 0).sum) % 2 ^ b := by
  obtain ⟨z, hz⟩ := wrap64_eq ((ts.map fun | .num v => v | _ => 0).sum)
  have : numSum ts = (ts.map fun | .num v => v | _ => 0).sum + 2 ^ 64 * z := hz
  rw [this]
  have e : (2 : Int) ^ 64 = 2 ^ b * 2 ^ (64 - b) := by rw [← pow_add]; congr 1; omega
  rw [e, mul_assoc, ← add_assoc, Int.add_mul_emod_self_left]

theorem addrBits_cases (m : Mode) (p : Bool) : addrBits m p = 16 ∨ addrBits m p = 32 ∨ (addrBits m p = 64 ∧ m = .u64) := by
  cases m <;> cases p <;> simp [addrBits]

/-- The displacement that the processor reads stands for the value. -/
theorem disp_ok {bits n : Nat} {v : Int} (hb : bits = 16 ∨ bits = 32 ∨ bits = 64)
    (hd : (n = 0 ∧ lo32 v = 0) ∨ (n = 1 ∧ -128 ≤ lo32 v ∧ lo32 v ≤ 127) ∨ n = if bits = 16 then 2 else 4)
    (h64 : bits = 64 → -2 ^ 31 ≤ v ∧ v < 2 ^ 31) : DispOk n bits v := by
  have hlo : ∃ z, v = lo32 v + 2 ^ 32 * z := by
    unfold lo32
    have h : ((2 : Int) ^ 32) ∣ (Int.bmod v (2 ^ 32) - v) := by
      have := @Int.dvd_bmod_sub_self v (2 ^ 32)
      exact_mod_cast this
    obtain ⟨z, hz⟩ := h
    exact ⟨-z, by linarith⟩
  have hlo64 : -2 ^ 31 ≤ v ∧ v < 2 ^ 31 → lo32 v = v := by
    intro q
    unfold lo32; rw [Int.bmod_def]; norm_num at *; split <;> omega
  obtain ⟨z, hz⟩ := hlo
  generalize hl : lo32 v = l at *
  rcases hd with ⟨rfl, hd⟩ | ⟨rfl, hd⟩ | rfl
  · unfold DispOk
    rcases hb with rfl | rfl | rfl
    · rw [Int.bmod_def]; norm_num; omega
    · rw [Int.bmod_def]; norm_num; omega
    · have := hlo64 (h64 rfl)
      rw [← this, hd]; rfl
  · unfold DispOk
    rcases hb with rfl | rfl | rfl
    · rw [Int.bmod_def]; norm_num; split <;> omega
    · rw [Int.bmod_def]; norm_num; split <;> omega
    · have := hlo64 (h64 rfl)
      rw [Int.bmod_def]; norm_num; split <;> omega
  · rcases hb with rfl | rfl | rfl
    · exact dispOk_full16 v
    · exact dispOk_full32 v
    · exact dispOk_full64 v (h64 rfl)

/-- C19: whatever operand `[t + t + ...]` is accepted, together with whatever other operand: the processor reads the bytes to the
end and gets the register or digit of the other operand and an address which is, for all contents of the registers and all
positions of the instruction, the sum of the terms, computed in the width of the registers (or of the segment, for direct
addresses); it uses the requested segment. -/
theorem C19_memory_operand_partial {cx : Ctx} {ts : List Term} {other : Other} {enc : Enc} (hs : Source cx ts) (hfix : cx.fixup = false)
    (ho : other.ok)
    (hd : cx.mode = .u64 → ∀ r, .reg r ∈ ts → r.cls = .r64 → ¬ (2 ^ 31 ≤ numSum ts ∧ numSum ts < 2 ^ 32))
    (h : assemble cx ts other = .ok enc) (tail : List Nat) :
    ∃ ea, decode cx.mode enc.p67 enc.rex (enc.bytes ++ tail) = some (ea, other.no, tail) ∧
      (∀ regs next, ea.addr regs next = sumTerms regs next ts % 2 ^ ea.bits) ∧
      (∀ r ∈ regsOf ts, ea.bits = r.bits) ∧
      (regsOf ts = [] → ea.bits = addrBits cx.dir false) ∧
      usedSeg cx.mode enc.seg ea.stack = usedSeg cx.mode cx.seg ea.stack := by
  obtain ⟨o, ci, f, hi, g, hm, hout⟩ := assemble_good hs h
  obtain ⟨h67, hseg, pre, hpre, -, hdec⟩ := output_decode g.wf ho g.rip g.sib g.form hout
  have hlen := leBytes_length (numSum ts) f.dsz
  refine ⟨_, by rw [hpre]; exact hdec _ tail hlen, ?_, ?_, ?_, ?_⟩
  · intro regs next
    rw [EA.addr_form, g.sum]
    simp only [hfix, Bool.false_eq_true, and_false, if_false, add_zero, h67]
    rw [leSigned_leBytes]
    have hbits : addrBits cx.mode (ci.adrsiz && !ci.rip) ≤ 64 := by
      rcases addrBits_cases cx.mode (ci.adrsiz && !ci.rip) with e | e | e <;> omega
    have hdisp : DispOk f.dsz (addrBits cx.mode (ci.adrsiz && !ci.rip)) (numSum ts) := by
      apply disp_ok
      · rcases addrBits_cases cx.mode (ci.adrsiz && !ci.rip) with e | e | e <;> omega
      · have := g.disp hfix
        rw [hi.value] at this
        exact this
      · intro h64
        have hmode : cx.mode = .u64 := by
          rcases addrBits_cases cx.mode (ci.adrsiz && !ci.rip) with e | e | e
          · omega
          · omega
          · exact e.2
        by_cases hbr : ∀ b, o.base = some b → b.cls = .rip
        · obtain ⟨c1, c2⟩ := g.check hmode hfix hbr
          unfold output at hout
          rw [combine_eq g.wf ho] at hout
          simp only at hout
          split at hout
          · exact absurd hout (by simp)
          split at hout
          · exact absurd hout (by simp)
          rename_i hde
          unfold dispError at hde
          rw [hmode, c1] at hde
          have hrm := g.wf.rm
          have hno : other.no % 8 < 8 := Nat.mod_lt _ (by decide)
          obtain ⟨-, a2, a3, -⟩ := and_facts 0 ⟨other.no % 8, hno⟩ ⟨ci.rm, hrm⟩
          simp only [Fin.val_zero] at a2 a3
          rw [a2, a3, and7] at hde
          have hrange : -2 ^ 63 ≤ numSum ts ∧ numSum ts < 2 ^ 63 := by
            unfold numSum
            generalize (ts.map fun | .num v => v | _ => 0).sum = w
            rw [Int.bmod_def]; norm_num; split <;> omega
          have : ¬ (numSum ts % 2 ^ 64 ≥ 0x80000000 ∧ numSum ts % 2 ^ 64 < 0xffffffff80000000) := by
            intro q
            apply hde
            rcases c2 with c2 | ⟨c2, c3⟩
            · simp [c2]; exact q
            · simp [c2, c3]; exact q
          norm_num at this hrange ⊢
          omega
        · push Not at hbr
          obtain ⟨b, hb, hbc⟩ := hbr
          have hbits2 := g.bits b (Or.inl hb)
          have hb64 : b.cls = .r64 := by
            rw [h64] at hbits2
            unfold Reg.bits at hbits2
            cases hc : b.cls <;> rw [hc] at hbits2
            · exact absurd hbits2 (by decide)
            · exact absurd hbits2 (by decide)
            · exact absurd hc hbc
          have hd' := hd hmode b (hi.base b hb) hb64
          unfold memoryOperand at hm
          split at hm
          · exact absurd hm (by simp)
          rename_i hq
          simp only [hb, Option.isSome_some, true_or, hmode, true_and] at hq
          rw [hi.value] at hq
          generalize numSum ts = w at *
          unfold hi32 lo32 at hq
          rw [Int.bmod_def] at hq
          norm_num at hq hd' ⊢
          split at hq <;> omega
    have e1 : (o.regSum regs next + Int.bmod (numSum ts) (2 ^ (8 * f.dsz))) % 2 ^ addrBits cx.mode (ci.adrsiz && !ci.rip)
        = (o.regSum regs next + numSum ts) % 2 ^ addrBits cx.mode (ci.adrsiz && !ci.rip) := by
      rw [Int.add_emod, hdisp, ← Int.add_emod]
    rw [e1, numSum_emod _ hbits, hi.sum, ← sumTerms_split]
  · intro r hr
    simp only [h67]
    exact g.bits r (hi.all r hr)
  · intro e
    simp only [h67]
    obtain ⟨a, b⟩ := (inv_none hi).2 e
    exact g.bitsDir a b
  · simp only
    rw [hseg]
    exact g.seg

/-- C19, operands with a fixup: the displacement field has full size, the bytes before it do not depend on its contents, and for
all contents which the linker may store there the processor adds them to the registers; direct addresses in 64-bit code are
relative to the next instruction. -/
theorem C19_fixup {cx : Ctx} {ts : List Term} {other : Other} {enc : Enc} (hs : Source cx ts) (hfix : cx.fixup = true)
    (ho : other.ok) (h : assemble cx ts other = .ok enc) :
    ∃ pre n, enc.bytes = pre ++ leBytes (numSum ts) n ∧
      ∀ field tail, field.length = n →
        ∃ ea, decode cx.mode enc.p67 enc.rex (pre ++ field ++ tail) = some (ea, other.no, tail) ∧
          n = (if ea.bits = 16 then 2 else 4) ∧
          (∀ regs next, ea.addr regs next = (sumTerms regs next (regTerms ts) + leSigned field +
            (if regsOf ts = [] ∧ cx.mode = .u64 then next else 0)) % 2 ^ ea.bits) ∧
          (∀ r ∈ regsOf ts, ea.bits = r.bits) ∧
          (regsOf ts = [] → ea.bits = addrBits cx.dir false) ∧
          usedSeg cx.mode enc.seg ea.stack = usedSeg cx.mode cx.seg ea.stack := by
  obtain ⟨o, ci, f, hi, g, hm, hout⟩ := assemble_good hs h
  obtain ⟨h67, hseg, pre, hpre, -, hdec⟩ := output_decode g.wf ho g.rip g.sib g.form hout
  refine ⟨pre, f.dsz, hpre, ?_⟩
  intro field tail hlen
  refine ⟨_, hdec field tail hlen, ?_, ?_, ?_, ?_, ?_⟩
  · simp only [h67]; exact g.field hfix
  · intro regs next
    rw [EA.addr_form, g.sum, hi.sum]
    simp only [hfix, and_true]
    simp only [← inv_none hi, and_assoc]
    congr 1
    ring
  · intro r hr
    simp only [h67]
    exact g.bits r (hi.all r hr)
  · intro e
    simp only [h67]
    obtain ⟨a, b⟩ := (inv_none hi).2 e
    exact g.bitsDir a b
  · simp only
    rw [hseg]
    exact g.seg

/-! ### Cases that meet the hypotheses -/

deriving instance DecidableEq for Except

def r32 (n : Nat) : Reg := ⟨.r32, n⟩
def r64 (n : Nat) : Reg := ⟨.r64, n⟩
def r16 (n : Nat) : Reg := ⟨.r16, n⟩

/-- `mov r9, fs:[r13 + r12*8 - 16]` in 64-bit code -/
example : assemble { mode := .u64, seg := some .fs, dir := .u64 } [.reg (r64 13), .mul (r64 12) 8, .num (-16)] (.regFirst 9)
    = .ok { p67 := false, seg := some .fs, rex := 7, bytes := [0x4C, 0xE5, 0xF0] } := by decide +kernel
/-- `mov [ebp + 1000h], cx` in 16-bit code -/
example : assemble { mode := .u16, dir := .u16 } [.reg (r32 5), .num 0x1000] (.regSecond 1)
    = .ok { p67 := true, seg := none, rex := 0, bytes := [0x8D, 0, 0x10, 0, 0] } := by decide +kernel
/-- `inc byte ptr [bp + di]` in 16-bit code -/
example : assemble { mode := .u16, dir := .u16 } [.reg (r16 5), .reg (r16 7)] (.digit 0)
    = .ok { p67 := false, seg := none, rex := 0, bytes := [0x03] } := by decide +kernel
/-- `inc [rip + 10]` -/
example : assemble { mode := .u64, dir := .u64 } [.reg ⟨.rip, 16⟩, .num 10] (.digit 0)
    = .ok { p67 := false, seg := none, rex := 0, bytes := [0x05, 10, 0, 0, 0] } := by decide +kernel

/-- The hypotheses of C19_memory_operand_partial hold for the first of them. -/
example : Source { mode := .u64, seg := some .fs, dir := .u64 } [.reg (r64 13), .mul (r64 12) 8, .num (-16)] := by
  constructor <;> simp [regsOf, Term.regs, r64, Reg.ok]

example : Source { mode := .u64, dir := .u64 } [.reg ⟨.rip, 16⟩, .num 10] := by
  constructor <;> simp [regsOf, Term.regs, Reg.ok]

/-- A fixup in 32-bit code: `mov eax, var[ebx+4]`. -/
example : assemble { mode := .u32, dir := .u32, fixup := true } [.reg (r32 3), .num 4] (.regFirst 0)
    = .ok { p67 := false, seg := none, rex := 0, bytes := [0x83, 4, 0, 0, 0] } := by decide +kernel

/-! ### Findings: operands outside `Source` which are accepted and encoded wrongly -/

/-- `[si+5]` in 32-bit code: a SIB byte is emitted although 16-bit addressing has none; the processor takes it for the
displacement and the rest of the bytes for the next instruction (codegen.c 2652-2656, the test is commented out). -/
theorem C19_finding_si :
    assemble { mode := .u32, dir := .u32 } [.reg (r16 6), .num 5] (.regFirst 0)
      = .ok { p67 := true, seg := none, rex := 0, bytes := [0x44, 0, 5] } ∧
    decode .u32 true 0 [0x44, 0, 5] = some (⟨16, [(6, 1)], false, 0, false⟩, 0, [5]) := by decide +kernel

/-- `[rip+rcx]` is accepted and encoded without RIP: the address is `rcx` plus displacement. -/
theorem C19_finding_rip :
    assemble { mode := .u64, dir := .u64 } [.reg ⟨.rip, 16⟩, .reg (r64 1), .num 7] (.digit 0)
      = .ok { p67 := false, seg := none, rex := 0, bytes := [0x04, 0x0D, 7, 0, 0, 0] } ∧
    decode .u64 false 0 [0x04, 0x0D, 7, 0, 0, 0] = some (⟨64, [(1, 1)], false, 7, false⟩, 0, []) := by decide +kernel

/-- `[si*2]` in 64-bit code is encoded as `[esi*2]`. -/
theorem C19_finding_si64 :
    assemble { mode := .u64, dir := .u64 } [.mul (r16 6) 2] (.digit 0)
      = .ok { p67 := true, seg := none, rex := 0, bytes := [0x04, 0x75, 0, 0, 0, 0] } ∧
    decode .u64 true 0 [0x04, 0x75, 0, 0, 0, 0] = some (⟨32, [(6, 2)], false, 0, false⟩, 0, []) := by decide +kernel

/-- `[rax+80000000h]` in 64-bit code: accepted, but the processor subtracts 80000000h. -/
theorem C19_finding_disp :
    assemble { mode := .u64, dir := .u64 } [.reg (r64 0), .num 0x80000000] (.digit 0)
      = .ok { p67 := false, seg := none, rex := 0, bytes := [0x80, 0, 0, 0, 0x80] } ∧
    decode .u64 false 0 [0x80, 0, 0, 0, 0x80] = some (⟨64, [(0, 1)], false, -0x80000000, false⟩, 0, []) := by decide +kernel

/-- `[eax*258]` is `[eax*2]`. -/
theorem C19_finding_scale :
    assemble { mode := .u32, dir := .u32 } [.mul (r32 0) 258] (.digit 0)
      = .ok { p67 := false, seg := none, rex := 0, bytes := [0x04, 0x45, 0, 0, 0, 0] } ∧
    decode .u32 false 0 [0x04, 0x45, 0, 0, 0, 0] = some (⟨32, [(0, 2)], false, 0, false⟩, 0, []) := by decide +kernel

/-- `[ax]` in 16-bit code is `[bx+si]`. -/
theorem C19_finding_ax :
    assemble { mode := .u16, dir := .u16 } [.reg (r16 0)] (.digit 0)
      = .ok { p67 := false, seg := none, rex := 0, bytes := [0x00] } ∧
    decode .u16 false 0 [0x00] = some (⟨16, [(3, 1), (6, 1)], false, 0, false⟩, 0, []) := by decide +kernel

/-- The address of the finding differs from the source for all contents of RAX. -/
theorem C19_finding_disp_address (regs : Nat → Int) (next : Int) :
    EA.addr ⟨64, [(0, 1)], false, -0x80000000, false⟩ regs next ≠
      sumTerms regs next [.reg (r64 0), .num 0x80000000] % 2 ^ 64 := by
  simp [EA.addr, sumTerms, Term.value, Reg.value, r64]
  omega

end Verif.ModRM
