import Verif.Passes.Proofs
import Verif.Branch.Props
/-! # Property theorems: the pass loop (C18) -/
namespace Verif.Passes
open Verif.Branch

/-- Offset in the segment of the `i`-th source item: the bytes written for the items before it. -/
def offsetAt (chunks : List (List (BitVec 8))) (i : Nat) : Nat := (chunks.take i).flatten.length

theorem split_at (prog : List Item) (i : Nat) (x : Item) (h : prog[i]? = some x) :
    prog = prog.take i ++ x :: prog.drop (i + 1) ∧ (prog.take i).length = i := by
  obtain ⟨hi, hx⟩ := List.getElem?_eq_some_iff.mp h
  refine ⟨?_, by rw [List.length_take]; omega⟩
  conv => lhs; rw [← List.take_append_drop i prog]
  rw [List.drop_eq_getElem_cons hi, hx]

theorem ofNat_toNat_small (n : Nat) (h : n < 2 ^ 31) : (BitVec.ofNat 32 n).toNat = n := by
  rw [BitVec.toNat_ofNat]; exact Nat.mod_eq_of_lt (by omega)

/-- In a pass, the state in front of item `i`. -/
theorem at_item (c q labs prog s cs i x) (h : itemsN c q ⟨0, labs, false⟩ prog = .ok (s, cs)) (hp : s.phase = false)
    (hx : prog[i]? = some x) :
    ∃ s1 s2 ca bs cb, itemsN c q ⟨0, labs, false⟩ (prog.take i) = .ok (s1, ca) ∧ stepN c q s1 x = .ok (s2, bs) ∧
      itemsN c q s2 (prog.drop (i + 1)) = .ok (s, cb) ∧ cs = ca ++ bs :: cb ∧ ca.length = i ∧
      s1.cur = BitVec.ofNat 32 (offsetAt cs i) ∧ s2.phase = false ∧ (∀ l, (s1.labs l).offset = (labs l).offset) := by
  obtain ⟨hs, hl⟩ := split_at prog i x hx
  rw [hs] at h
  obtain ⟨s1, s2, ca, bs, cb, h1, h2, h3, rfl⟩ := itemsN_split _ _ _ _ _ _ _ _ h
  have hcl : ca.length = i := by rw [itemsN_length _ _ _ _ _ _ h1, hl]
  have p2 := (itemsN_stable _ _ _ _ _ _ h3 hp).1
  have p1 := (stepN_stable _ _ _ _ _ _ h2 p2).1
  refine ⟨s1, s2, ca, bs, cb, h1, h2, h3, rfl, hcl, ?_, p2, (itemsN_stable _ _ _ _ _ _ h1 p1).2⟩
  have := itemsN_cur _ _ _ _ _ _ h1
  have e : offsetAt (ca ++ bs :: cb) i = total ca := by
    unfold offsetAt total
    rw [List.take_append_of_le_length (by omega), List.take_of_length_le (by omega)]
  rw [e, this]; simp

theorem offsetAt_mono (cs : List (List (BitVec 8))) (i j : Nat) (h : i ≤ j) : offsetAt cs i ≤ offsetAt cs j := by
  unfold offsetAt
  have : cs.take i = (cs.take j).take i := by rw [List.take_take]; congr 1; omega
  rw [this]
  conv => rhs; rw [← List.take_append_drop i (cs.take j)]
  rw [List.flatten_append, List.length_append]; omega

theorem offsetAt_le (cs : List (List (BitVec 8))) (i : Nat) : offsetAt cs i ≤ cs.flatten.length := by
  have h := offsetAt_mono cs i (max i cs.length) (by omega)
  have : cs.take (max i cs.length) = cs := List.take_of_length_le (by omega)
  unfold offsetAt at h ⊢
  rwa [this] at h

/-- In a pass without phase error the recorded offset of a label is its place. -/
theorem label_offset (c q labs prog s cs j l) (h : itemsN c q ⟨0, labs, false⟩ prog = .ok (s, cs)) (hp : s.phase = false)
    (hx : prog[j]? = some (.label l)) : (labs l).offset = BitVec.ofNat 32 (offsetAt cs j) := by
  obtain ⟨s1, s2, ca, bs, cb, h1, h2, h3, rfl, hcl, hcur, p2, ho⟩ := at_item _ _ _ _ _ _ _ _ h hp hx
  simp only [stepN, Except.ok.injEq, Prod.mk.injEq] at h2
  rw [← h2.1] at p2
  simp [define] at p2
  rw [← ho l, p2.2, hcur]

/-- A branch of a pass without phase error is computed with the place of its label. -/
theorem branch_addr (c q labs prog s cs i j b l) (h : itemsN c q ⟨0, labs, false⟩ prog = .ok (s, cs)) (hp : s.phase = false)
    (hsz : cs.flatten.length < 2 ^ 31) (hi : prog[i]? = some (.branch b l)) (hj : prog[j]? = some (.label l))
    (hd : ∀ fs bs, Item.data l fs bs ∉ prog) :
    ∃ code, cs[i]? = some code ∧ assemble c b (BitVec.ofNat 32 (offsetAt cs i)) (BitVec.ofNat 32 (offsetAt cs j)) = .ok code := by
  have hlo := label_offset _ _ _ _ _ _ _ _ h hp hj
  obtain ⟨s1, s2, ca, bs, cb, h1, h2, h3, rfl, hcl, hcur, p2, ho⟩ := at_item _ _ _ _ _ _ _ _ h hp hi
  refine ⟨bs, by rw [List.getElem?_append_right (by omega), hcl]; simp, ?_⟩
  simp only [stepN] at h2
  have hba : branchAddr q s1.cur (s1.labs l) = BitVec.ofNat 32 (offsetAt (ca ++ bs :: cb) j) := by
    unfold branchAddr
    rw [ho, hlo]
    by_cases hji : j < i
    · -- met before
      have hjt : (prog.take i)[j]? = some (.label l) := by rw [List.getElem?_take_of_lt hji]; exact hj
      obtain ⟨e, -⟩ := split_at _ _ _ hjt
      rw [e] at h1
      obtain ⟨t1, t2, da, bs', db, g1, g2, g3, -⟩ := itemsN_split _ _ _ _ _ _ _ _ h1
      have hm : (s1.labs l).asmpass = q := by
        refine itemsN_met c q l _ ?_ _ _ _ g3 ?_
        · intro fs bs hx
          exact hd fs bs (List.mem_of_mem_take (List.mem_of_mem_drop hx))
        · simp only [stepN, Except.ok.injEq, Prod.mk.injEq] at g2
          rw [← g2.1]; simp [define, upd]
      rw [if_neg (by simp [hm])]
    · rw [if_neg]
      rw [hcur]
      intro hh
      have h4 := hh.2
      have m1 := offsetAt_mono (ca ++ bs :: cb) i j (by omega)
      have m2 := offsetAt_le (ca ++ bs :: cb) j
      rw [BitVec.slt, decide_eq_true_eq] at h4
      rw [BitVec.toInt_eq_toNat_of_lt (by rw [ofNat_toNat_small _ (by omega)]; omega),
        BitVec.toInt_eq_toNat_of_lt (by rw [ofNat_toNat_small _ (by omega)]; omega),
        ofNat_toNat_small _ (by omega), ofNat_toNat_small _ (by omega)] at h4
      omega
  rw [hba, hcur] at h2
  split at h2
  · simp at h2
  · rename_i code hc
    simp only [Except.ok.injEq, Prod.mk.injEq] at h2
    rw [hc, h2.2]

/-- **C18** If the assembly ends without error, every branch to a code label goes, when it is taken, to the place at which the label
is finally located (plus the constant of the operand), and behind the branch otherwise — whatever the offsets were in earlier passes
and however many passes there were. -/
theorem C18_branches_reach_labels (c : Ctx) (prog : List Item) (r : Result) (h : run c prog = some (.ok r))
    (hsz : r.chunks.flatten.length < 2 ^ 31 - 64) (i : Nat) (b : Br) (l : Nat) (hi : prog[i]? = some (.branch b l))
    (hd : ∀ fs bs, Item.data l fs bs ∉ prog) (hv : Valid c b) :
    (∃ j : Nat, prog[j]? = some (Item.label l)) ∧
    ∀ j : Nat, prog[j]? = some (Item.label l) →
      let addr : Int := offsetAt r.chunks j + b.addend.toInt
      0 ≤ addr → addr < 2 ^ 31 →
      ∃ code, r.chunks[i]? = some code ∧ ∀ e : Env, exec c.ofs e 2 code (offsetAt r.chunks i) =
        some (if wants c.ofs e b.kind then wrapIp (destWidth c b) addr else wrapIp c.ofs.width (offsetAt r.chunks i + code.length)) := by
  unfold run at h
  split at h
  · simp at h
  · rename_i s1 h1
    constructor
    · rcases pass1_refs _ _ _ h1 b l (List.mem_of_getElem? hi) with h2 | ⟨fs, bs, h2⟩
      · exact List.mem_iff_getElem?.mp h2
      · exact absurd h2 (hd fs bs)
    · intro j hj addr ha1 ha2
      obtain ⟨p, labs, s, hpass, hph⟩ := drive_final _ _ _ _ _ _ h
      obtain ⟨code, hcode, hasm⟩ := branch_addr _ _ _ _ _ _ i j b l hpass hph (by omega) hi hj hd
      refine ⟨code, hcode, fun e => ?_⟩
      have b1 := offsetAt_le r.chunks i
      have b2 := offsetAt_le r.chunks j
      have t1 := ofNat_toNat_small (offsetAt r.chunks i) (by omega)
      have t2 := ofNat_toNat_small (offsetAt r.chunks j) (by omega)
      have hdst : dest b (BitVec.ofNat 32 (offsetAt r.chunks j)) = addr := by
        unfold dest; rw [t2]
      have := C17_reaches c b _ _ code hv (by rw [t1]; omega) (by rw [t2]; omega) (by rw [hdst]; exact ⟨ha1, ha2⟩) hasm e
      rw [t1, hdst] at this
      exact this

/-- **C18** The rest of the source is laid out as written: data bytes verbatim, nothing for labels, and behind `ALIGN k` the offset is
a multiple of `k`. -/
theorem C18_layout (c : Ctx) (prog : List Item) (r : Result) (h : run c prog = some (.ok r))
    (hsz : r.chunks.flatten.length < 2 ^ 31) :
    r.chunks.length = prog.length ∧ ∀ (i : Nat) (x : Item), prog[i]? = some x → ∃ code, r.chunks[i]? = some code ∧
      match x with
      | .bytes bs => code = bs
      | .data _ _ bs => code = bs
      | .label _ => code = []
      | .align k => 0 < k → k ∣ offsetAt r.chunks (i + 1) ∧ code.length < k
      | .branch _ _ => True := by
  unfold run at h
  split at h
  · simp at h
  · obtain ⟨p, labs, s, hpass, hph⟩ := drive_final _ _ _ _ _ _ h
    refine ⟨itemsN_length _ _ _ _ _ _ hpass, fun i x hx => ?_⟩
    obtain ⟨s1, s2, ca, bs, cb, h1, h2, h3, h4, hcl, hcur, p2, ho⟩ := at_item _ _ _ _ _ _ _ _ hpass hph hx
    have hget : r.chunks[i]? = some bs := by rw [h4, List.getElem?_append_right (by omega), hcl]; simp
    refine ⟨bs, hget, ?_⟩
    cases x with
    | bytes b => simp [stepN] at h2; exact h2.2.symm
    | data l fs b => simp [stepN] at h2; exact h2.2.symm
    | label l => simp [stepN] at h2; exact h2.2
    | branch b l => trivial
    | align k =>
      intro hk
      simp only [stepN, Except.ok.injEq, Prod.mk.injEq] at h2
      have hbs := h2.2
      have ho : offsetAt r.chunks (i + 1) = offsetAt r.chunks i + bs.length := by
        have e : (ca ++ bs :: cb).take (i + 1) = ca ++ [bs] := by
          rw [List.take_append, List.take_of_length_le (by omega), hcl, Nat.add_sub_cancel_left]; rfl
        have e' : (ca ++ bs :: cb).take i = ca := by
          rw [List.take_append_of_le_length (by omega), List.take_of_length_le (by omega)]
        unfold offsetAt; rw [h4, e, e']; simp
      have b1 := offsetAt_le r.chunks i
      rw [hcur] at hbs
      unfold padding at hbs
      rw [ofNat_toNat_small _ (by omega)] at hbs
      rw [ho]
      have hm := Nat.mod_lt (offsetAt r.chunks i) hk
      simp only at hbs
      split at hbs
      · have := (Align.fillCode_spec (alignMode c.ofs) (k - offsetAt r.chunks i % k)).1
        rw [hbs] at this
        refine ⟨?_, by omega⟩
        rw [this]
        refine ⟨offsetAt r.chunks i / k + 1, ?_⟩
        have := Nat.div_add_mod (offsetAt r.chunks i) k
        rw [Nat.mul_add]; omega
      · rename_i hz
        rw [← hbs]
        simp only [ne_eq, Decidable.not_not] at hz
        exact ⟨by simpa using Nat.dvd_of_mod_eq_zero hz, by simpa using hk⟩

/-! ## Findings -/

/-- 32-bit code, 386. -/
def ctx32 : Ctx := ⟨.use32, true, true⟩

/-- `120 bytes / L0: / 3 bytes / ALIGN 8 / L1:` -/
def oscTail : List Item := [.bytes (List.replicate 120 0x90), .label 0, .bytes (List.replicate 3 0x90), .align 8, .label 1]

/-- `jmp L0 / 2 bytes / jz L1 / 120 bytes / L0: / 3 bytes / ALIGN 8 / L1:` -/
def oscillating : List Item :=
  .branch ⟨.jmp, .none, false, 0⟩ 0 :: .bytes [0x90, 0x90] :: .branch ⟨.jcc 4, .none, false, 0⟩ 1 :: oscTail

theorem osc_branch (c : Ctx) (b : Br) (q : BitVec 8) (s : St) (l : Nat) (cur o : BitVec 32) (bs : List (BitVec 8))
    (hc : s.cur = cur) (ho : (s.labs l).offset = o) (hlt : o.slt cur = false) (ha : assemble c b cur o = .ok bs) :
    stepN c q s (.branch b l) = .ok (⟨cur + BitVec.ofNat 32 bs.length, s.labs, s.phase⟩, bs) := by
  simp only [stepN, branchAddr, ho, hc, hlt, Bool.false_eq_true, and_false, if_false, ha, St.put]


/-- The items of `oscillating` behind the second branch, starting at offset `x`. -/
theorem osc_tail (q : BitVec 8) (labs : Labs) (x : BitVec 32) (hx : x = 10#32 ∨ x = 9#32) :
    ∃ s cs, itemsN ctx32 q ⟨x, labs, false⟩ oscTail = .ok (s, cs) ∧
      s.phase = ((labs 0).offset != x + 120#32 || (labs 1).offset != 136#32) ∧
      (s.labs 0).offset = x + 120#32 ∧ (s.labs 1).offset = 136#32 := by
  have p1 : padding ctx32 133#32 8 = [0x8D#8, 0x40#8, 0#8] := by decide +kernel
  have p2 : padding ctx32 132#32 8 = [0x8D#8, 0x44#8, 0x20#8, 0#8] := by decide +kernel
  rcases hx with rfl | rfl
  · refine ⟨⟨136#32, upd (upd labs 0 ⟨130#32, q, true⟩) 1 ⟨136#32, q, true⟩, (labs 0).offset != 130#32 || (labs 1).offset != 136#32⟩,
      [List.replicate 120 0x90, [], List.replicate 3 0x90, [0x8D#8, 0x40#8, 0#8], []], ?_, rfl, rfl, rfl⟩
    simp [oscTail, itemsN, stepN, define, St.put, p1, upd]
  · refine ⟨⟨136#32, upd (upd labs 0 ⟨129#32, q, true⟩) 1 ⟨136#32, q, true⟩, (labs 0).offset != 129#32 || (labs 1).offset != 136#32⟩,
      [List.replicate 120 0x90, [], List.replicate 3 0x90, [0x8D#8, 0x44#8, 0x20#8, 0#8], []], ?_, rfl, rfl, rfl⟩
    simp [oscTail, itemsN, stepN, define, St.put, p2, upd]

theorem osc_head (q : BitVec 8) (labs : Labs) (b1 b2 : List (BitVec 8)) (a1 : assemble ctx32 ⟨.jmp, .none, false, 0⟩ 0#32 (labs 0).offset = .ok b1)
    (n1 : (labs 0).offset.slt 0#32 = false)
    (a2 : assemble ctx32 ⟨.jcc 4, .none, false, 0⟩ (BitVec.ofNat 32 b1.length + 2#32) (labs 1).offset = .ok b2)
    (n2 : (labs 1).offset.slt (BitVec.ofNat 32 b1.length + 2#32) = false) (x : BitVec 32)
    (hx : BitVec.ofNat 32 b1.length + 2#32 + BitVec.ofNat 32 b2.length = x) (s cs)
    (ht : itemsN ctx32 q ⟨x, labs, false⟩ oscTail = .ok (s, cs)) :
    itemsN ctx32 q ⟨0, labs, false⟩ oscillating = .ok (s, b1 :: [0x90, 0x90] :: b2 :: cs) := by
  have e1 := osc_branch ctx32 ⟨.jmp, .none, false, 0⟩ q ⟨0, labs, false⟩ 0 0#32 (labs 0).offset b1 rfl rfl n1 a1
  have e2 := osc_branch ctx32 ⟨.jcc 4, .none, false, 0⟩ q ⟨BitVec.ofNat 32 b1.length + 2#32, labs, false⟩ 1 _ (labs 1).offset b2 rfl rfl n2 a2
  rw [hx] at e2
  have e3 : stepN ctx32 q ⟨0#32 + BitVec.ofNat 32 b1.length, labs, false⟩ (.bytes [0x90, 0x90]) =
    .ok (⟨BitVec.ofNat 32 b1.length + 2#32, labs, false⟩, [0x90, 0x90]) := by simp [stepN, St.put]
  simp only at e1
  simp only [oscillating, itemsN, e1, e2, e3, ht]

/-- What a pass makes of the labels of `oscillating`. -/
theorem osc_pass (labs : Labs) (p : Nat) (o0 : BitVec 32) (h0 : (labs 0).offset = o0) (h1 : (labs 1).offset = 136#32)
    (ho : o0 = 126#32 ∨ o0 = 129#32 ∨ o0 = 130#32) :
    ∃ s cs, passN ctx32 p labs oscillating = .ok (s, cs) ∧ s.phase = true ∧
      (s.labs 0).offset = (if o0 = 130#32 then 129#32 else 130#32) ∧ (s.labs 1).offset = 136#32 := by
  rcases ho with rfl | rfl | rfl
  · obtain ⟨s, cs, t1, t2, t3, t4⟩ := osc_tail (BitVec.ofNat 8 p) labs 10#32 (Or.inl rfl)
    refine ⟨s, _, osc_head _ labs [0xEB, 0x7C] [0x0F, 0x84, 0x7E, 0, 0, 0] ?_ ?_ ?_ ?_ 10#32 rfl s cs t1, ?_, t3, t4⟩ <;>
      simp only [h0, h1, t2] <;> rfl
  · obtain ⟨s, cs, t1, t2, t3, t4⟩ := osc_tail (BitVec.ofNat 8 p) labs 10#32 (Or.inl rfl)
    refine ⟨s, _, osc_head _ labs [0xEB, 0x7F] [0x0F, 0x84, 0x7E, 0, 0, 0] ?_ ?_ ?_ ?_ 10#32 rfl s cs t1, ?_, t3, t4⟩ <;>
      simp only [h0, h1, t2] <;> rfl
  · obtain ⟨s, cs, t1, t2, t3, t4⟩ := osc_tail (BitVec.ofNat 8 p) labs 9#32 (Or.inr rfl)
    refine ⟨s, _, osc_head _ labs [0xE9, 0x7D, 0, 0, 0] [0x74, 0x7F] ?_ ?_ ?_ ?_ 9#32 rfl s cs t1, ?_, t3, t4⟩ <;>
      simp only [h0, h1, t2] <;> rfl

/-- **C18** (finding) The pass loop need not terminate: the assembly of `oscillating` alternates for ever between two layouts, although
the source has a valid assembly. -/
theorem C18_passes_may_not_terminate : run ctx32 oscillating = none := by
  have key : ∀ p labs prev x, drive ctx32 oscillating p labs prev = some x →
      ¬ (((labs 0).offset = 126#32 ∨ (labs 0).offset = 129#32 ∨ (labs 0).offset = 130#32) ∧ (labs 1).offset = 136#32) := by
    apply drive.partial_correctness ctx32 oscillating (motive := fun p labs prev x =>
      ¬ (((labs 0).offset = 126#32 ∨ (labs 0).offset = 129#32 ∨ (labs 0).offset = 130#32) ∧ (labs 1).offset = 136#32))
    rintro f ih p labs prev x hx ⟨ho, h1⟩
    obtain ⟨s, cs, g1, g2, g3, g4⟩ := osc_pass labs p _ rfl h1 ho
    rw [g1] at hx
    simp only [g2, Bool.true_eq_false, false_and, if_false] at hx
    refine ih _ _ _ _ hx ⟨?_, g4⟩
    rw [g3]; split <;> simp
  have h0 : (pass1 ctx32 oscillating).toOption.map (fun s => ((s.labs 0).offset, (s.labs 1).offset)) = some (126#32, 136#32) := by
    decide +kernel
  obtain ⟨s, h1, h2, h3⟩ : ∃ s, pass1 ctx32 oscillating = .ok s ∧ (s.labs 0).offset = 126#32 ∧ (s.labs 1).offset = 136#32 := by
    cases hp : pass1 ctx32 oscillating with
    | error e => rw [hp] at h0; simp [Except.toOption] at h0
    | ok s => rw [hp] at h0; simp [Except.toOption] at h0; exact ⟨s, rfl, h0⟩
  unfold run
  rw [h1]
  simp only
  cases hd : drive ctx32 oscillating 1 s.labs s.cur with
  | none => rfl
  | some x => exact absurd ⟨Or.inl h2, h3⟩ (key _ _ _ _ hd)

/-- The layout exists: with both branches in near form, every branch reaches its label. -/
example : assemble ctx32 ⟨.jmp, .near none, false, 0⟩ 0 133 = .ok [0xE9, 0x80, 0, 0, 0] ∧
    assemble ctx32 ⟨.jcc 4, .near none, false, 0⟩ 7 136 = .ok [0x0F, 0x84, 0x7B, 0, 0, 0] := ⟨rfl, rfl⟩

/-- `X db 1,2,3 / 2 bytes / jmp near ptr X` -/
def toData : List Item := [.data 0 0 [1, 2, 3], .bytes [0x90, 0x90], .branch ⟨.jmp, .near none, false, 0⟩ 0]

/-- Two passes of a source: the second without phase error and with the size of the first. -/
def twoPasses (c : Ctx) (prog : List Item) : Option (List (List (BitVec 8))) :=
  match pass1 c prog with
  | .error _ => none
  | .ok s =>
    match passN c 1 s.labs prog with
    | .error _ => none
    | .ok (s2, cs) => if s2.phase = false ∧ s2.cur = s.cur then some cs else none

theorem run_two (c : Ctx) (prog : List Item) (cs) (h : twoPasses c prog = some cs) : run c prog = some (.ok ⟨2, cs⟩) := by
  unfold twoPasses at h
  unfold run
  split at h
  · simp at h
  · rename_i s h1
    simp only [h1]
    rw [drive.eq_def]
    split at h
    · simp at h
    · rename_i s2 cs' h2
      simp only [h2]
      split at h
      · rename_i hh
        rw [if_pos hh]; simp at h; rw [h]
      · simp at h

/-- **C18** (finding) A backward branch to a data label is silently assembled as a jump to itself: from pass 2 on the label counts as
"not met yet", because its pass number is overlaid by the size of the data. -/
theorem C18_data_label_wrong : run ctx32 toData = some (.ok ⟨2, [[1, 2, 3], [0x90, 0x90], [0xE9, 0xFB, 0xFF, 0xFF, 0xFF]]⟩) ∧
    ∀ e, exec .use32 e 1 [0xE9, 0xFB, 0xFF, 0xFF, 0xFF] 5 = some 5 :=
  ⟨run_two _ _ _ (by decide +kernel), fun _ => rfl⟩

/-! Concrete assemblies meeting the hypotheses of `C18_branches_reach_labels`: a loop with a forward exit that needs the near form. -/

def sample : List Item :=
  [.label 0, .branch ⟨.jcc 5, .none, false, 0⟩ 1, .bytes (List.replicate 130 0x90), .branch ⟨.jmp, .none, false, 0⟩ 0, .label 1, .align 4]

theorem sample_runs : run ctx32 sample = some (.ok ⟨2, [[], [0x0F, 0x85, 0x87, 0, 0, 0], List.replicate 130 0x90,
    [0xE9, 0x73, 0xFF, 0xFF, 0xFF], [], [0x8D, 0x40, 0]]⟩) := run_two _ _ _ (by decide +kernel)

end Verif.Passes
