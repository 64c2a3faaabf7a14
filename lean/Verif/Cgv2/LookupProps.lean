import Verif.Cgv2.Lookup
import Verif.Cgv2.LookupSpec
import Verif.Cgv2.Table

/-!
# C32: the lookup returns the first row that answers the request
-/

namespace Verif.Cgv2

open Spec

/-- The request a query stands for. -/
def Query.request (q : Query) : Request :=
  ⟨q.mnemonic, q.op, q.memReg, q.mode, q.srcRegNo, q.dstRegNo, q.evexFlag, q.broad, q.cvtTok⟩

theorem lowerC_eq (c : Char) : lowerC c = lower c.toNat := by
  unfold lowerC lower
  rfl

theorem strcaseeq_iff (a b : List Char) :
    strcaseeq a b = true ↔ a.map lowerC = b.map lowerC := by
  induction a generalizing b with
  | nil => cases b <;> simp [strcaseeq]
  | cons x xs ih =>
    cases b with
    | nil => simp [strcaseeq]
    | cons y ys =>
      unfold strcaseeq
      by_cases h : lowerC x = lowerC y
      · rw [if_pos h]; simp [h, ih]
      · rw [if_neg h]; simp [h]

theorem sameMnemonic_iff (a b : List Char) :
    SameMnemonic a b ↔ strcaseeq a b = true := by
  rw [strcaseeq_iff]
  unfold SameMnemonic
  have h : (fun c : Char => lower c.toNat) = lowerC := by
    funext c; exact (lowerC_eq c).symm
  rw [h]

theorem has_iff (x y : Nat) : has x y = true ↔ x &&& y ≠ 0 := by
  unfold has; simp

/-- The C conditions of one chain element are exactly the specification's `Answers`. -/
theorem tryEntry_iff (p : Instr) (q : Query) : tryEntry p q = true ↔ Answers p q.request := by
  unfold tryEntry Answers
  have hop : (∀ i, i < 4 → p.op i = q.op i) ↔
      (p.op 0 = q.op 0 ∧ p.op 1 = q.op 1 ∧ p.op 2 = q.op 2 ∧ p.op 3 = q.op 3) := by
    constructor
    · intro h
      exact ⟨h 0 (by omega), h 1 (by omega), h 2 (by omega), h 3 (by omega)⟩
    · rintro ⟨h0, h1, h2, h3⟩ i hi
      match i, hi with
      | 0, _ => exact h0
      | 1, _ => exact h1
      | 2, _ => exact h2
      | 3, _ => exact h3
  show _ ↔ SameMnemonic p.mnemonic q.mnemonic ∧ (∀ i, i < 4 → p.op i = q.op i) ∧ _
  rw [hop, sameMnemonic_iff]
  by_cases hc : (strcaseeq p.mnemonic q.mnemonic && p.op 0 == q.op 0 &&
      p.op 1 == q.op 1 && p.op 2 == q.op 2 && p.op 3 == q.op 3 &&
      has p.validModes q.mode) = true
  · rw [if_pos hc]
    simp only [Bool.and_eq_true, beq_iff_eq, has_iff] at hc
    obtain ⟨⟨⟨⟨⟨c1, c2⟩, c3⟩, c4⟩, c5⟩, c6⟩ := hc
    simp only [c1, c2, c3, c4, c5, true_and, and_self, Query.request]
    have h1 : has p.flags NO_MEM_REGF = true ↔ p.flags &&& NO_MEM_REGF ≠ 0 := has_iff _ _
    have h2 : has p.flags SRCHDSTLF = true ↔ p.flags &&& SRCHDSTLF ≠ 0 := has_iff _ _
    rw [← h1, ← h2]
    generalize has p.flags NO_MEM_REGF = x
    generalize has p.flags SRCHDSTLF = y
    generalize q.srcRegNo = s
    generalize q.dstRegNo = d
    generalize q.evexFlag = e
    generalize q.memReg = m
    generalize q.broad = b
    generalize q.cvtTok = t
    generalize p.opElements = n
    simp only [c6, ne_eq, not_false_eq_true, true_and, List.mem_cons, Prod.mk.injEq,
      List.not_mem_nil, or_false]
    cases x <;> cases y <;> cases e <;> cases m <;> cases t <;>
      by_cases hs : s ≤ 7 <;> by_cases hd : d ≤ 7 <;> by_cases hb : b = 0 <;>
      simp [hs, hd, hb] <;> omega
  · rw [if_neg hc]
    simp only [Bool.and_eq_true, beq_iff_eq, has_iff] at hc
    constructor
    · intro h; cases h
    · rintro ⟨a1, ⟨a2, a3, a4, a5⟩, a6, _⟩
      exact absurd ⟨⟨⟨⟨⟨a1, a2⟩, a3⟩, a4⟩, a5⟩, a6⟩ hc

/-! ## The hash chains -/

theorem buildLoop_eq (tbl : List Instr) (t : HashTab) (i : Nat) :
    buildLoop tbl t i =
      t i ++ tbl.filter (fun p => decide (generateInstrHash p.mnemonic p.op = i)) := by
  induction tbl generalizing t with
  | nil => simp [buildLoop]
  | cons p ps ih =>
    unfold buildLoop
    rw [ih]
    unfold insertInstruction
    by_cases h : i = generateInstrHash p.mnemonic p.op
    · rw [if_pos h, List.filter_cons_of_pos (by simp [h])]; simp
    · rw [if_neg h, List.filter_cons_of_neg (by simp; exact fun e => h e.symm)]

theorem walk_eq_find (l : List Instr) (q : Query) : walk l q = l.find? (fun p => tryEntry p q) := by
  induction l with
  | nil => rfl
  | cons p ps ih =>
    unfold walk
    by_cases h : tryEntry p q = true
    · rw [if_pos h]; simp [h]
    · rw [if_neg h, ih]; simp [h]

theorem find_filter (l : List Instr) (f g : Instr → Bool) (h : ∀ x, f x = true → g x = true) :
    (l.filter g).find? f = l.find? f := by
  induction l with
  | nil => rfl
  | cons x xs ih =>
    by_cases hg : g x = true
    · rw [List.filter_cons_of_pos hg]
      by_cases hf : f x = true
      · simp [hf]
      · simp [hf, ih]
    · rw [List.filter_cons_of_neg hg]
      have hf : ¬ f x = true := fun e => hg (h x e)
      simp [hf, ih]

/-- A row that answers a request sits in the request's chain. -/
theorem hash_of_tryEntry (p : Instr) (q : Query) (h : tryEntry p q = true) :
    generateInstrHash p.mnemonic p.op = generateInstrHash q.mnemonic q.op := by
  have h' := (tryEntry_iff p q).mp h
  obtain ⟨h1, h2, _⟩ := h'
  have hm := (strcaseeq_iff _ _).mp ((sameMnemonic_iff _ _).mp h1)
  have hm' : p.mnemonic.map lowerC = q.mnemonic.map lowerC := hm
  have e0 := h2 0 (by omega)
  have e1 := h2 1 (by omega)
  have e2 := h2 2 (by omega)
  have e3 := h2 3 (by omega)
  simp only [Query.request] at e0 e1 e2 e3
  unfold generateInstrHash
  rw [hm', e0, e1, e2, e3]

/-- The hashed lookup is a linear search of the table. -/
theorem lookup_eq_find (tbl : List Instr) (q : Query) :
    lookupInstruction (buildInstructionTable tbl) q = tbl.find? (fun p => tryEntry p q) := by
  unfold lookupInstruction buildInstructionTable
  rw [walk_eq_find, buildLoop_eq, List.nil_append]
  exact find_filter _ _ _ fun x hx => decide_eq_true (hash_of_tryEntry x q hx)

theorem find_isFirst (tbl : List Instr) (q : Query) (r : Instr) :
    tbl.find? (fun p => tryEntry p q) = some r ↔ IsFirst tbl q.request r := by
  rw [List.find?_eq_some_iff_append]
  unfold IsFirst
  constructor
  · rintro ⟨h, as, bs, e, hn⟩
    refine ⟨as, bs, e, (tryEntry_iff r q).mp h, fun x hx hc => ?_⟩
    have := hn x hx
    simp [(tryEntry_iff x q).mpr hc] at this
  · rintro ⟨as, bs, e, h, hn⟩
    refine ⟨(tryEntry_iff r q).mpr h, as, bs, e, fun x hx => ?_⟩
    cases hx' : tryEntry x q with
    | false => rfl
    | true => exact absurd ((tryEntry_iff x q).mp hx') (hn x hx)

/-- **C32.**  For every instruction table and every request, the hashed lookup returns a row
exactly if it is the first row of the table answering the request - whatever the hash function
does with the other rows - and nothing exactly if no row answers it. -/
theorem lookup_first (tbl : List Instr) (q : Query) :
    (∀ r, lookupInstruction (buildInstructionTable tbl) q = some r ↔ IsFirst tbl q.request r) ∧
    (lookupInstruction (buildInstructionTable tbl) q = none ↔
      ∀ r ∈ tbl, ¬ Answers r q.request) := by
  refine ⟨fun r => by rw [lookup_eq_find]; exact find_isFirst tbl q r, ?_⟩
  rw [lookup_eq_find, List.find?_eq_none]
  constructor
  · intro h r hr hc
    exact h r hr ((tryEntry_iff r q).mpr hc)
  · intro h r hr hc
    exact h r hr ((tryEntry_iff r q).mp hc)

/-- Every hash value is an index into the 16384-entry array. -/
theorem hash_lt (data : List Nat) : hash data < 16384 := by
  unfold hash
  exact Nat.lt_of_le_of_lt Nat.and_le_right (by omega)

/-- `DemoteOperand` is the map to the generic operand type. -/
theorem demote_eq_generic (o : OpType) : demoteOperand o = generic o := by
  cases o <;> rfl

/-- The demoted request. -/
def Query.demoted (q : Query) : Query := { q with op := fun i => generic (q.op i) }

/-- **C32.**  `CodeGenV2` uses the first row answering the request as written; if there is
none, the first row answering the request with generic operand types; if there is none either,
it gives up (and the older code generator takes over). -/
theorem findForm_first (tbl : List Instr) (q : Query) :
    (∀ r, findForm (buildInstructionTable tbl) q = some r ↔
      (IsFirst tbl q.request r ∨
       ((∀ x ∈ tbl, ¬ Answers x q.request) ∧ IsFirst tbl q.demoted.request r))) ∧
    (findForm (buildInstructionTable tbl) q = none ↔
      (∀ x ∈ tbl, ¬ Answers x q.request) ∧ (∀ x ∈ tbl, ¬ Answers x q.demoted.request)) := by
  obtain ⟨h1, h2⟩ := lookup_first tbl q
  obtain ⟨d1, d2⟩ := lookup_first tbl q.demoted
  have hq : ({ q with op := fun i => demoteOperand (q.op i) } : Query) = q.demoted := by
    unfold Query.demoted
    congr 1
    funext i
    exact demote_eq_generic _
  unfold findForm
  rw [hq]
  cases hl : lookupInstruction (buildInstructionTable tbl) q with
  | some p =>
    have hp : IsFirst tbl q.request p := (h1 p).mp hl
    have hex : ¬ ∀ x ∈ tbl, ¬ Answers x q.request := by
      intro hall
      obtain ⟨as, bs, e, ha, _⟩ := hp
      exact hall p (by rw [e]; simp) ha
    constructor
    · intro r
      constructor
      · intro e
        left
        exact (h1 r).mp (by rw [hl]; exact e)
      · rintro (h | ⟨hall, _⟩)
        · exact (hl.symm.trans ((h1 r).mpr h))
        · exact absurd hall hex
    · constructor
      · intro e; cases e
      · rintro ⟨hall, _⟩; exact absurd hall hex
  | none =>
    have hall := h2.mp hl
    constructor
    · intro r
      show lookupInstruction _ q.demoted = some r ↔ _
      rw [d1 r]
      constructor
      · intro h; exact Or.inr ⟨hall, h⟩
      · rintro (⟨as, bs, e, ha, _⟩ | ⟨_, h⟩)
        · exact absurd ha (hall r (by rw [e]; simp))
        · exact h
    · show lookupInstruction _ q.demoted = none ↔ _
      rw [d2]
      exact ⟨fun h => ⟨hall, h⟩, fun h => h.2⟩

/-! ## The shipped table -/

/-- A query for the operand types `ops` in 64-bit code without a memory operand. -/
def q64 (m : List Char) (ops : List OpType) (src dst : Nat) : Query :=
  ⟨m, fun i => ops.getD i .OP_N, false, X64, src, dst, false, 0, false⟩

/-- Non-vacuity: `VMOVAPS xmm1, xmm9` (any letter case) gets the short store form 29h, `vmovaps
xmm9, xmm1` the load form 28h: two rows with equal mnemonic and operand types. -/
example :
    ((lookupInstruction (buildInstructionTable instrTable)
      (q64 ['V', 'M', 'o', 'v', 'A', 'p', 's'] [.R_XMM, .R_XMM] 9 1)).map (·.opcode)) = some [0x29, 0, 0, 0] ∧
    ((lookupInstruction (buildInstructionTable instrTable)
      (q64 ['v', 'm', 'o', 'v', 'a', 'p', 's'] [.R_XMM, .R_XMM] 1 9)).map (·.opcode)) = some [0x28, 0, 0, 0] := by
  rw [lookup_eq_find, lookup_eq_find]
  decide +kernel

/-- Non-vacuity of the second lookup: `vpmovzxbq xmm0, qword ptr [..]` is found only with the
generic memory type. -/
example :
    (findForm (buildInstructionTable instrTable) (q64 ['v', 'p', 'm', 'o', 'v', 'z', 'x', 'b', 'q'] [.R_XMM, .M64] 0 0)).isSome
      = true ∧
    (lookupInstruction (buildInstructionTable instrTable)
      (q64 ['v', 'p', 'm', 'o', 'v', 'z', 'x', 'b', 'q'] [.R_XMM, .M64] 0 0)) = none := by
  unfold findForm
  rw [lookup_eq_find, lookup_eq_find]
  decide +kernel

/-- The four operand types and the lower-cased mnemonic: what the hash covers. -/
def Instr.key (r : Instr) : List Nat :=
  r.mnemonic.map lowerC ++ [(r.op 0).toByte, (r.op 1).toByte, (r.op 2).toByte, (r.op 3).toByte]

/-- The key as one number. -/
def Instr.keyNum (r : Instr) : Nat := r.key.foldl (fun a b => a * 256 + b) 1

/-- The numbers are pairwise different. -/
def distinct : List Nat → Bool
  | [] => true
  | r :: rs => rs.all (fun x => Nat.blt r x || Nat.blt x r) && distinct rs

/-- No two of the rows agree in their key (checked pairwise). -/
def keysDistinct (l : List Instr) : Bool := distinct (l.map Instr.keyNum)

theorem keysDistinct_unique (l : List Instr) (h : keysDistinct l = true) (a b : Instr)
    (ha : a ∈ l) (hb : b ∈ l) (hk : a.key = b.key) : a = b := by
  induction l with
  | nil => cases ha
  | cons r rs ih =>
    unfold keysDistinct at h ih
    rw [List.map_cons] at h
    unfold distinct at h
    rw [Bool.and_eq_true, List.all_eq_true] at h
    have hn : a.keyNum = b.keyNum := by unfold Instr.keyNum; rw [hk]
    rcases List.mem_cons.mp ha with rfl | ha' <;> rcases List.mem_cons.mp hb with rfl | hb'
    · rfl
    · have := h.1 b.keyNum (List.mem_map_of_mem hb')
      rw [hn] at this
      simp [Nat.blt] at this
      omega
    · have := h.1 a.keyNum (List.mem_map_of_mem ha')
      rw [hn] at this
      simp [Nat.blt] at this
      omega
    · exact ih h.2 ha' hb'

theorem key_of_answers (p : Instr) (q : Query) (h : Answers p q.request) :
    p.key = q.mnemonic.map lowerC ++
      [(q.op 0).toByte, (q.op 1).toByte, (q.op 2).toByte, (q.op 3).toByte] := by
  obtain ⟨h1, h2, _⟩ := h
  have hm : p.mnemonic.map lowerC = q.mnemonic.map lowerC :=
    (strcaseeq_iff _ _).mp ((sameMnemonic_iff _ _).mp h1)
  have e0 : p.op 0 = q.op 0 := h2 0 (by omega)
  have e1 : p.op 1 = q.op 1 := h2 1 (by omega)
  have e2 : p.op 2 = q.op 2 := h2 2 (by omega)
  have e3 : p.op 3 = q.op 3 := h2 3 (by omega)
  unfold Instr.key
  rw [hm, e0, e1, e2, e3]

theorem generalRows_distinct :
    keysDistinct (instrTable.filter (fun r => !has r.flags SRCHDSTLF)) = true := by
  decide +kernel

/-- **C32.**  In the shipped table the order of the rows matters only for the rows reserved to
the "source above 7, destination below 8" case: any two other rows answering one request are
the same row. -/
theorem shipped_unambiguous (q : Query) (a b : Instr) (ha : a ∈ instrTable) (hb : b ∈ instrTable)
    (hfa : a.flags &&& SRCHDSTLF = 0) (hfb : b.flags &&& SRCHDSTLF = 0)
    (h1 : Answers a q.request) (h2 : Answers b q.request) : a = b := by
  refine keysDistinct_unique _ generalRows_distinct a b ?_ ?_ ?_
  · exact List.mem_filter.mpr ⟨ha, by simp [has, hfa]⟩
  · exact List.mem_filter.mpr ⟨hb, by simp [has, hfb]⟩
  · rw [key_of_answers a q h1, key_of_answers b q h2]

/-- The query which asks for exactly the row `r`, in the mode `m`. -/
def Instr.ownQuery (r : Instr) (m : Nat) : Query :=
  ⟨r.mnemonic, r.op, false, m, if has r.flags SRCHDSTLF then 8 else 0, 0, false, 0, false⟩

/-- The rows reserved to one register constellation are found too. -/
theorem reserved_live_check :
    (instrTable.filter (fun r => has r.flags SRCHDSTLF)).all (fun r => [X16, X32, X64].all fun m =>
      !has r.validModes m || instrTable.find? (fun p => tryEntry p (r.ownQuery m)) == some r) = true := by
  decide +kernel

theorem own_answers (r : Instr) (m : Nat) (hv : r.validModes &&& m ≠ 0) :
    Answers r (r.ownQuery m).request := by
  refine ⟨rfl, fun i _ => rfl, hv, fun _ => rfl, fun h => ?_, fun h => by cases h⟩
  have hh : has r.flags SRCHDSTLF = true := (has_iff _ _).mpr h
  simp [Query.request, Instr.ownQuery, hh]

/-- **C32.**  No row of the shipped table is dead: in every mode it allows, each of the 367
rows is what the lookup returns for its own mnemonic and operand types. -/
theorem shipped_rows_live (r : Instr) (hr : r ∈ instrTable) (m : Nat) (hm : m ∈ [X16, X32, X64])
    (hv : r.validModes &&& m ≠ 0) :
    lookupInstruction (buildInstructionTable instrTable) (r.ownQuery m) = some r := by
  have hh : has r.validModes m = true := (has_iff _ _).mpr hv
  by_cases hf : has r.flags SRCHDSTLF = true
  · have h := List.all_eq_true.mp (List.all_eq_true.mp reserved_live_check r
      (List.mem_filter.mpr ⟨hr, hf⟩)) m hm
    rw [lookup_eq_find]
    simpa [hh] using h
  · have hown := own_answers r m hv
    cases hl : lookupInstruction (buildInstructionTable instrTable) (r.ownQuery m) with
    | none => exact absurd hown (((lookup_first _ _).2.mp hl) r hr)
    | some x =>
      obtain ⟨as, bs, e, hx, _⟩ := ((lookup_first _ _).1 x).mp hl
      have hxm : x ∈ instrTable := by rw [e]; simp
      have hf' : r.flags &&& SRCHDSTLF = 0 := by
        simpa [has] using hf
      have hfx : x.flags &&& SRCHDSTLF = 0 := by
        by_cases hx0 : x.flags &&& SRCHDSTLF = 0
        · exact hx0
        · obtain ⟨h8, _⟩ := hx.2.2.2.2.1 hx0
          have : (r.ownQuery m).request.src = 0 := by
            simp [Query.request, Instr.ownQuery, hf]
          omega
      rw [shipped_unambiguous (r.ownQuery m) x r hxm hr hfx hf' hx hown]

/-- The 32-byte `hashBuffer` of `GenerateInstrHash` has room for every mnemonic of the table
and the five operand bytes stored behind it. -/
theorem shipped_hash_buffer (r : Instr) (hr : r ∈ instrTable) : r.mnemonic.length + 5 ≤ 32 := by
  have h : instrTable.all (fun r => decide (r.mnemonic.length + 5 ≤ 32)) = true := by
    decide +kernel
  exact of_decide_eq_true (List.all_eq_true.mp h r hr)

/-! ## The classification of register operands -/

/-- The operand type a register gets. -/
def matchReg (r : RegRow) : Option OpType := matchOperand r.opcls r.tok r.name

/-- The register class a general-purpose register of the given size and number belongs to,
told from its name in the Intel manuals: AL, CL, AX, DX, EAX and RAX have a class of their own,
the registers numbered 8 and above are the extended ones, the byte registers 4-7 are either the
legacy high bytes (`?h`) or the uniform low bytes (`??l`). -/
def gpClass (name : String) (size num : Nat) : OpType :=
  if name = "al" then .R8_AL else if name = "cl" then .R8_CL else if name = "ax" then .R16_AX
  else if name = "dx" then .R16_DX else if name = "eax" then .R32_EAX
  else if name = "rax" then .R64_RAX
  else if size = 1 then
    (if 8 ≤ num then .R8E else if num < 4 then .R8
     else if name.toList.getLast? = some 'h' then .R8H else .R8U)
  else if size = 2 then (if 8 ≤ num then .R16E else .R16)
  else if size = 4 then (if 8 ≤ num then .R32E else .R32)
  else (if 8 ≤ num then .R64E else .R64)

/-- **C32.**  Every general-purpose register is classified by its size and number, every
vector register by its width, whatever its number. -/
theorem matchReg_classes (r : RegRow) (hr : r ∈ regTable) :
    (r.opcls &&& 0xf ≠ 0 ∧ r.opcls ≠ 9 → matchReg r = some (gpClass r.name r.size r.num)) ∧
    (r.opcls = 0x20 → matchReg r = some .R_XMM) ∧
    (r.opcls = 0x80 → matchReg r = some .R_YMM) ∧
    (r.opcls = 0x100 → matchReg r = some .R_ZMM) ∧
    (r.opcls = 0x40 → matchReg r = some .R_K) := by
  have h : regTable.all (fun r => decide (
    (r.opcls &&& 0xf ≠ 0 ∧ r.opcls ≠ 9 → matchReg r = some (gpClass r.name r.size r.num)) ∧
    (r.opcls = 0x20 → matchReg r = some .R_XMM) ∧
    (r.opcls = 0x80 → matchReg r = some .R_YMM) ∧
    (r.opcls = 0x100 → matchReg r = some .R_ZMM) ∧
    (r.opcls = 0x40 → matchReg r = some .R_K))) = true := by decide +kernel
  exact of_decide_eq_true (List.all_eq_true.mp h r hr)

/-- Counterexample: the missing `break` after `case OP_MMX` gives every MMX register the type
of the x87 stack top, so no row with an `MMX64` operand could ever be found. -/
theorem mmx_becomes_st (r : RegRow) (hr : r ∈ regTable) (h : r.opcls = 0x10) :
    matchReg r = some .R_ST0 := by
  have hall : regTable.all (fun r => decide (r.opcls = 0x10 → matchReg r = some .R_ST0)) = true := by
    decide +kernel
  exact of_decide_eq_true (List.all_eq_true.mp hall r hr) h

/-- Counterexample: a bound register has no `case`; its type is the uninitialised variable. -/
theorem bnd_uninitialised (r : RegRow) (hr : r ∈ regTable) (h : r.opcls = 9) :
    matchReg r = none := by
  have hall : regTable.all (fun r => decide (r.opcls = 9 → matchReg r = none)) = true := by
    decide +kernel
  exact of_decide_eq_true (List.all_eq_true.mp hall r hr) h

end Verif.Cgv2
