import Verif.Data.Proof
/-
  Property C20: data directives.
-/
namespace Verif.Data

/-- **C20.** A data directive is accepted exactly if its operands are a list of initializers in the sense of the
    specification (numbers in the range of the item, strings that fit, matching DUP brackets ...), and then exactly the
    bytes of the specification are appended to the segment: numbers little endian, `n DUP (...)` n times, DB strings
    in order, strings in larger items reversed and zero filled. In the remaining cases an error is reported, and the
    directive always ends. The label's LENGTHOF and SIZEOF grow by the number of elements and the space taken
    (unless a WORD is initialized with a string of two characters, see below). -/
theorem C20_data_directive_partial (c : Cfg) (line : List Tok) (s : St) (hs0 : c.inStruct = false) (hlit : c.lit = false)
    (h1 : 1 ≤ c.n) (hn : c.n < 2 ^ 32) (hok : LineOk c.n line) :
    (∃ out cnt s', Inits c.n (AddrOut c) line [] out cnt ∧ dataDir c line s = some (.ok s') ∧ s'.out = s.out ++ out ∧
      (c.label → c.pass1 → NoPairs c.n line →
        s'.totLen = s.totLen + BitVec.ofNat 32 cnt ∧
        s'.totSize = s.totSize + BitVec.ofNat 32 (cnt * c.n))) ∨
    ((¬ ∃ out cnt, Inits c.n (AddrOut c) line [] out cnt) ∧ ∃ e, dataDir c line s = some (.error e)) := by
  rcases inits_cases c hs0 hlit h1 hn line.length line (Nat.le_refl _) hok with ⟨rest, out, cnt, hg⟩ | ⟨hno, hrun⟩
  · obtain ⟨s', e, ho, hc⟩ := loop_good c hs0 hn line rest out cnt hg 0 0#32 true s (by omega)
    by_cases hr : rest = []
    · subst hr
      left
      refine ⟨out, cnt, s', hg.1, ?_, by simpa using ho, ?_⟩
      · unfold dataDir; simp only [Nat.zero_add] at e; rw [e]; rfl
      · intro a b d
        obtain ⟨x, y⟩ := hc ⟨a, b, d⟩
        rw [x, y]
        simp [BitVec.ofNat_mul]
    · right
      refine ⟨?_, .syntaxErr, ?_⟩
      · rintro ⟨o, k, hI⟩
        exact hr (hg.2.1 _ _ _ hI).1.symm
      · unfold dataDir; simp only [Nat.zero_add] at e; rw [e]
        cases rest with
        | nil => exact absurd rfl hr
        | cons x r => rfl
  · right
    refine ⟨fun ⟨o, k, hI⟩ => hno _ _ _ hI, ?_⟩
    obtain ⟨e, he⟩ := hrun line 1 0#32 true s (by omega) (Nat.le_refl _)
    exact ⟨e, by unfold dataDir; rw [he]; rfl⟩

/-- **C20, one number.** `DB/DW/DD/DF/DQ v` for a 64-bit number `v`: stored as the `n` bytes of `v` modulo `2^(8n)`, least
    significant first, if `-2^(8n) ≤ v < 2^(8n)`; an error otherwise. -/
theorem C20_number (c : Cfg) (v : Int) (neg : Bool) (s : St) (hs0 : c.inStruct = false)
    (h1 : 1 ≤ c.n) (h8 : c.n ≤ 8) (hv : -2 ^ 63 ≤ v ∧ v < 2 ^ 63) :
    (-(2 ^ (8 * c.n) : Int) ≤ v ∧ v < 2 ^ (8 * c.n) → ∃ bs s', dataDir c [.const ⟨BitVec.ofInt 64 v, 0#64, neg⟩] s = some (.ok s') ∧
      s'.out = s.out ++ bs.map .byte ∧ bs.length = c.n ∧ (leVal bs : Int) = v % 2 ^ (8 * c.n)) ∧
    (¬ (-(2 ^ (8 * c.n) : Int) ≤ v ∧ v < 2 ^ (8 * c.n)) → dataDir c [.const ⟨BitVec.ofInt 64 v, 0#64, neg⟩] s = some (.error .tooLarge)) := by
  have hI : (BitVec.ofInt 64 v).toInt = v := by
    rw [BitVec.toInt_ofInt]
    apply Int.bmod_eq_of_le <;> omega
  have hval : (Const.mk (BitVec.ofInt 64 v) 0#64 neg).value c.n = v := by simp [Const.value, h8, hI]
  have hp := items_plain c [.const ⟨BitVec.ofInt 64 v, 0#64, neg⟩] (.const ⟨BitVec.ofInt 64 v, 0#64, neg⟩) [] 1 0#32 true s
    (by simp) (by simp)
  have hr : InRange c.n v ↔ (-(2 ^ (8 * c.n) : Int) ≤ v ∧ v < 2 ^ (8 * c.n)) := by rw [InRange, if_pos h8]
  have hns := number_spec c ⟨BitVec.ofInt 64 v, 0#64, neg⟩ s hs0 h1 (fun _ => rfl)
  rw [hval] at hns
  constructor
  · intro h
    rcases hns with ⟨-, bs, hrep, he⟩ | ⟨hin, -⟩
    · simp only [plain, he] at hp
      refine ⟨bs, _, by unfold dataDir; rw [hp]; rfl, ?_, hrep.1, hrep.2⟩
      simp only [finish, markFirst]
      split <;> split <;> rfl
    · exact absurd (hr.2 h) hin
  · intro h
    rcases hns with ⟨hin, -⟩ | ⟨-, e, he⟩
    · exact absurd (hr.1 hin) h
    · have hee : e = .tooLarge := by
        simp only [number, hs0, Bool.false_eq_true, if_false, show ¬ c.n > 16 by omega, h8, if_true] at he
        (repeat' split at he) <;> simp at he <;> exact he.symm
      subst hee
      simp only [plain, he] at hp
      unfold dataDir; rw [hp]; rfl

/-- bytes a fixup overwrites (`H/fixup.h` 36-54) -/
def FixT.width : FixT → Nat
  | .void => 0 | .off8 => 1 | .off16 => 2 | .off32 => 4 | .off64 => 8 | .seg => 2 | .ptr16 => 4 | .ptr32 => 6
  | .hibyte => 1 | .imgrel => 4 | .secrel => 4

theorem fixType_width (c : Cfg) (a : Addr) (f : FixT) (hp : c.pass1 = false)
    (hn : c.n = 1 ∨ c.n = 2 ∨ c.n = 4 ∨ c.n = 6 ∨ c.n = 8) (hf : fixType c a = (some f, [])) : f.width ≤ c.n := by
  unfold fixType at hf
  simp only [hp, Bool.false_and] at hf
  cases hi : a.instr <;> simp only [hi] at hf <;> (repeat' split at hf) <;> simp at hf <;>
    (first | (obtain ⟨rfl, hf⟩ := hf) | subst hf | skip) <;> simp_all [FixT.width] <;> omega

/-- **C20, addresses.** An address in DB/DW/DD/DF/DQ is stored as the `n` low bytes of its displacement, and its relocation stays
    within these `n` bytes and is one the output format supports. -/
theorem C20_address (c : Cfg) (a : Addr) (out : List Chunk) (hs0 : c.inStruct = false) (hp : c.pass1 = false)
    (hn : c.n = 1 ∨ c.n = 2 ∨ c.n = 4 ∨ c.n = 6 ∨ c.n = 8) (h : AddrOut c a out) :
    ∃ bs f, out = [.ref bs (some f)] ∧ bs.length = c.n ∧ leVal bs = a.value.toNat % 2 ^ (8 * c.n) ∧
      f.width ≤ c.n ∧ c.badFix f = false := by
  obtain ⟨t, h⟩ := h
  unfold address at h
  split at h
  · simp at h
  rename_i hn8
  split at h
  · simp at h
  split at h
  · simp at h
  simp only [hs0, Bool.false_eq_true, if_false] at h
  split at h
  · simp at h
  · simp at h
  · rename_i f hf
    split at h
    · simp at h
    · rename_i hbad
      simp only [hp, Bool.false_eq_true, if_false, Except.ok.injEq, Prod.mk.injEq, St.mk.injEq] at h
      refine ⟨_, f, h.1.1.symm, length_chars _ _, ?_, ?_, by simpa using hbad⟩
      · rw [leVal_chars _ _ (by omega), Const.nat, show (256 : Nat) = 2 ^ 8 by norm_num, ← Nat.pow_mul]
        simp
      · exact fixType_width c a f hp hn hf

/-! ### Concrete lines -/

instance (n : Nat) (v : Int) : Decidable (InRange n v) := by unfold InRange; infer_instance
instance (n : Nat) (v : Int) (bs : List Byte) : Decidable (Represents n v bs) := by unfold Represents; infer_instance


theorem LineOk.nil (n : Nat) : LineOk n [] := ⟨fun _ _ h => by simp at h, fun pre t r h => by simp at h⟩

theorem LineOk.cons {n : Nat} {t : Tok} {r : List Tok} (h : LineOk n r) (h1 : n ≤ 8 → ∀ k, t = .const k → k.hl = 0#64)
    (h2 : r.head? = some .dup → (∀ b, t ≠ .str b) ∧ ∀ k : Const, t = .const k → k.hl = 0#64 ∧ -2 ^ 31 ≤ k.ll.toInt ∧
      k.ll.toInt < 2 ^ 31 ∧ k.ll.toInt * n < 2 ^ 32) : LineOk n (t :: r) := by
  refine ⟨fun hn k hk => ?_, fun pre t' r' e => ?_⟩
  · rcases List.mem_cons.1 hk with rfl | hk
    · exact h1 hn k rfl
    · exact h.1 hn k hk
  · cases pre with
    | nil =>
      simp at e
      obtain ⟨rfl, rfl⟩ := e
      intro b
      exact ⟨(h2 rfl).1 b, (h2 rfl).2⟩
    | cons x pre =>
      simp at e
      exact h.2 pre t' r' e.2

/-- a plain 32-bit data segment -/
def cfg (n : Nat) : Cfg := ⟨n, true, true, false, false, false, .use32, true, fun _ => false⟩

def num (v : Int) : Tok := .const ⟨BitVec.ofInt 64 v, 0#64, decide (v < 0)⟩

/-- `x dw 2 dup (1, 'A', 0 dup (7), ?), -2` -/
def exLine : List Tok :=
  [num 2, .dup, .op, num 1, .comma, .str [0x41#8], .comma, num 0, .dup, .op, num 7, .cl, .comma, .question, .cl, .comma,
   num (-2)]

theorem exLine_ok : LineOk 2 exLine := by
  have hnum : ∀ v, -2 ^ 31 ≤ v → v < 2 ^ 31 → ∀ r, LineOk 2 r → LineOk 2 (num v :: r) := by
    intro v h1 h2 r hr
    have hI : (BitVec.ofInt 64 v).toInt = v := by
      rw [BitVec.toInt_ofInt]
      apply Int.bmod_eq_of_le <;> omega
    refine LineOk.cons hr (by simp [num]) (fun _ => ⟨by simp [num], fun k hk => ?_⟩)
    simp [num] at hk
    subst hk
    simp only [hI]
    exact ⟨trivial, h1, h2, by omega⟩
  have htok : ∀ t, (∀ k, t ≠ .const k) → ∀ r, r.head? ≠ some .dup → LineOk 2 r → LineOk 2 (t :: r) :=
    fun t ht r h hr => LineOk.cons hr (fun _ k hk => absurd hk (ht k)) (fun h' => absurd h' h)
  unfold exLine
  repeat (first
    | exact LineOk.nil 2
    | refine hnum _ (by decide) (by decide) _ ?_
    | refine htok _ (by simp) _ (by simp [num]) ?_)

set_option maxRecDepth 4000 in
/-- the hypotheses of C20 are met, the line is accepted, and these are its bytes and its LENGTHOF and SIZEOF -/
example : ∃ s', dataDir (cfg 2) exLine {} = some (.ok s') ∧
    s'.out = ([1#8, 0#8, 0x41#8, 0#8].map .byte ++ [.undef, .undef]) ++
      ([1#8, 0#8, 0x41#8, 0#8].map .byte ++ [.undef, .undef]) ++ [0xFE#8, 0xFF#8].map .byte ∧
    s'.totLen = 7#32 ∧ s'.totSize = 14#32 := by
  have hI : Inits 2 (AddrOut (cfg 2)) exLine [] (([1#8, 0#8, 0x41#8, 0#8].map .byte ++ [.undef, .undef]) ++
      ([1#8, 0#8, 0x41#8, 0#8].map .byte ++ [.undef, .undef]) ++ [0xFE#8, 0xFF#8].map .byte) (2 * 3 + 1) := by
    refine Inits.cons (cnt := 2 * 3) (r := [num (-2)]) (Init.dup (k := ⟨BitVec.ofInt 64 2, 0#64, false⟩) 2 (by decide) (by omega) (cnt := 3) ?_) (by simp [num]) (Inits.last (r := []) ?_ (by simp))
      (out := (List.replicate 2 ([1#8, 0#8, 0x41#8, 0#8].map .byte ++ [.undef, .undef])).flatten)
    · refine Inits.cons (out := [1#8, 0#8].map .byte) (out' := [.byte 0x41#8, .byte 0#8, .undef, .undef]) (cnt := 1) (cnt' := 2)
        (r := [.str [0x41#8], .comma, num 0, .dup, .op, num 7, .cl, .comma, .question, .cl, .comma, num (-2)]) ?_ (by simp) ?_
      · exact Init.num (by simp) (by decide) (by decide)
      · refine Inits.cons (out := [0x41#8, 0#8].map .byte) (out' := [.undef, .undef]) (cnt := 1) (cnt' := 1)
          (r := [num 0, .dup, .op, num 7, .cl, .comma, .question, .cl, .comma, num (-2)]) ?_ (by simp [num]) ?_
        · exact Init.chars (by simp) (by decide) (by simp) (by simp)
        · refine Inits.cons (out := []) (out' := [.undef, .undef]) (cnt := 0) (cnt' := 1)
            (r := [.question, .cl, .comma, num (-2)]) ?_ (by simp) ?_
          · exact Init.dup0 (body := [num 7]) (by decide) ⟨by
              intro p hp
              rcases p with _ | ⟨x, p⟩
              · simp
              · obtain ⟨rfl, hp2⟩ := List.cons_prefix_cons.1 hp
                simp at hp2
                subst hp2
                simp [num], by simp [num]⟩
          · exact Inits.last Init.undef (by simp)
    · exact Init.num (by simp) (by decide) (by decide)
  rcases C20_data_directive_partial (cfg 2) exLine {} rfl rfl (by decide) (by decide) exLine_ok with
    ⟨out, cnt, s', h, h1, h2, h3⟩ | ⟨h, -⟩
  · obtain ⟨-, rfl, rfl⟩ : _ ∧ out = _ ∧ cnt = _ := by
      rcases inits_cases (cfg 2) rfl rfl (by decide) (by decide) _ exLine (Nat.le_refl _) exLine_ok with ⟨_, _, _, g⟩ | ⟨g, -⟩
      · obtain ⟨a1, a2, a3⟩ := g.2.1 _ _ _ h
        obtain ⟨b1, b2, b3⟩ := g.2.1 _ _ _ hI
        exact ⟨a1.trans b1.symm, a2.trans b2.symm, a3.trans b3.symm⟩
      · exact absurd hI (g _ _ _)
    obtain ⟨a, b⟩ := h3 rfl rfl (fun _ b hb => by
      simp [exLine, num] at hb; simp [hb])
    exact ⟨s', h1, by simpa using h2, by rw [a]; rfl, by rw [b]; rfl⟩
  · exact absurd ⟨_, _, hI⟩ h

/-- C20_number on both sides: `db -200` is accepted (as 56), `db 256` and `db -257` are not -/
example : (∃ bs s', dataDir (cfg 1) [num (-200)] {} = some (.ok s') ∧ s'.out = [] ++ bs.map .byte ∧ bs.length = 1 ∧
      (leVal bs : Int) = 56) ∧
    dataDir (cfg 1) [num 256] {} = some (.error .tooLarge) ∧ dataDir (cfg 1) [num (-257)] {} = some (.error .tooLarge) :=
  ⟨(C20_number (cfg 1) (-200) true {} rfl (by decide) (by decide) (by decide)).1 (by decide),
   (C20_number (cfg 1) 256 false {} rfl (by decide) (by decide) (by decide)).2 (by decide),
   (C20_number (cfg 1) (-257) true {} rfl (by decide) (by decide) (by decide)).2 (by decide)⟩

/-- a `dd label` in a 32-bit segment -/
def exAddr : Addr := ⟨.none, false, 0x1234#64, false, .other, 0, .empty, false, some ⟨.other, .use32⟩⟩

/-- C20_address: hypotheses met -/
example : AddrOut { cfg 4 with pass1 := false } exAddr [.ref [0x34#8, 0x12#8, 0#8, 0#8] (some .off32)] := ⟨1#32, by decide⟩

/-! ### Findings -/

/-- what an accepted directive leaves: the emitted data, LENGTHOF and SIZEOF of the label -/
def result : Option (Except Err St) → Option (List Chunk × Nat × Nat)
  | some (.ok s) => some (s.out, s.totLen.toNat, s.totSize.toNat)
  | _ => none


/-- Finding: the upper half of a 128-bit constant is not checked for items of up to 8 bytes:
    `dd 10000000000000005h` is accepted and stores 5. -/
theorem C20_finding_upper_half_ignored :
    result (dataDir (cfg 4) [.const ⟨5#64, 1#64, false⟩] {}) = some ([5#8, 0#8, 0#8, 0#8].map .byte, 1, 4) := by
  unfold dataDir
  rw [items_plain _ _ _ _ _ _ _ _ (by simp) (by simp)]
  decide +kernel

/-- Finding: a DUP count is cut to 32 bits: `db 100000001h dup (7)` stores one byte. -/
theorem C20_finding_dup_count_truncated :
    result (dataDir (cfg 1) [num 0x100000001, .dup, .op, num 7, .cl] {}) = some ([.byte 7#8], 1, 1) := by
  unfold dataDir num
  rw [items_dup]
  simp only [show ¬ ((BitVec.ofInt 64 0x100000001).extractLsb' 0 32).msb = true by decide, if_false,
    show ¬ (BitVec.ofInt 64 0x100000001).extractLsb' 0 32 = 0#32 by decide,
    show ((BitVec.ofInt 64 0x100000001).extractLsb' 0 32).toNat = 1 by decide]
  rw [items_plain _ _ _ _ _ _ _ _ (by simp) (by simp)]
  decide +kernel

/-- Finding: the space for `count DUP (?)` is computed with 32 bits: `dd 40000000h dup (?)` reserves nothing. -/
theorem C20_finding_dup_size_wraps :
    result (dataDir (cfg 4) [num 0x40000000, .dup, .op, .question, .cl] {}) = some ([], 0x40000000, 0) := by
  unfold dataDir num
  rw [items_dup]
  simp only [show ¬ ((BitVec.ofInt 64 0x40000000).extractLsb' 0 32).msb = true by decide, if_false,
    show ¬ (BitVec.ofInt 64 0x40000000).extractLsb' 0 32 = 0#32 by decide,
    show ((BitVec.ofInt 64 0x40000000).extractLsb' 0 32).toNat = 0x40000000 by decide]
  rw [items_question]
  decide +kernel

/-- Finding: `w dw 'AB'` stores one word, but LENGTHOF w is 2 and SIZEOF w is 4. -/
theorem C20_finding_word_string_counted_twice :
    result (dataDir (cfg 2) [.str [0x41#8, 0x42#8]] {}) = some ([.byte 0x42#8, .byte 0x41#8], 2, 4) := by
  unfold dataDir
  rw [items_plain _ _ _ _ _ _ _ _ (by simp) (by simp)]
  decide +kernel

/-- Finding: with OPTION LITERALS:ON a string in an item larger than a word is lost: `x dd 'abcd'` stores no byte at all. -/
theorem C20_finding_literal_string_lost :
    result (dataDir { cfg 4 with lit := true } [.str [0x61#8, 0x62#8, 0x63#8, 0x64#8]] {}) = some ([], 1, 4) := by
  unfold dataDir
  rw [items_plain _ _ _ _ _ _ _ _ (by simp) (by simp)]
  decide +kernel

/-- Finding: a negative number in an item of more than 16 bytes is not sign extended: `ymmword -1` is
    2^64 - 1 (eight bytes FF, then zeros). -/
theorem C20_finding_ymmword_negative :
    result (dataDir (cfg 32) [num (-1)] {}) =
      some ((List.replicate 8 0xFF#8 ++ List.replicate 24 0#8).map .byte, 1, 32) := by
  unfold dataDir num
  rw [items_plain _ _ _ _ _ _ _ _ (by simp) (by simp)]
  decide +kernel

/-- Finding: `dd dword ptr label` (an explicit type which is neither NEAR nor FAR) reads `fixup_type` before any
    assignment, for every such operand. -/
theorem C20_finding_fixup_type_unassigned (c : Cfg) (a : Addr) (hn : c.n = 4) (hi : a.instr = .none) (he : a.explic = true)
    (hm : a.mem = .other) (hs : ∀ y, a.sym = some y → y.state ≠ .segGrp) : fixType c a = (none, []) := by
  have h1 : a.symIs (fun y => y.state == .segGrp) = false := by
    unfold Addr.symIs
    cases h : a.sym with
    | none => rfl
    | some y => simpa using hs y h
  unfold fixType
  simp [hi, hn, h1, he, hm]

end Verif.Data
