import Verif.Ins.All
import Verif.Ins.Rows
import Verif.ModRM.Props
import Mathlib.Data.List.Forall2
import Mathlib.Tactic.IntervalCases
/-! # C64: from the plan to the bytes -/
namespace Verif.Ins
open Verif.ModRM (Mode Seg EA Term Ctx leUnsigned leSigned leBytes)

/-! ### Operands have one of the kinds -/

theorem low32_range (v : Int) : -2 ^ 31 ≤ low32 v ∧ low32 v < 2 ^ 31 := by
  unfold low32
  have h1 := Int.le_bmod (x := v) (m := 2 ^ 32) (by norm_num)
  have h2 := Int.bmod_lt (x := v) (m := 2 ^ 32) (by norm_num)
  norm_num at *
  omega

theorem low32_emod (v : Int) : low32 v % 2 ^ 32 = v % 2 ^ 32 := by
  unfold low32
  have := Int.bmod_emod (x := v) (m := 2 ^ 32)
  norm_num at *
  exact this

theorem low32_self {v : Int} (h : -2 ^ 31 ≤ v ∧ v < 2 ^ 31) : low32 v = v := by
  have := low32_emod v
  have := low32_range v
  norm_num at *
  omega

theorem bmod256 (x : Int) : Int.bmod x 256 = (if x % 256 < 128 then x % 256 else x % 256 - 256) := by
  rw [Int.bmod_def]; norm_num

theorem bmod65536 (x : Int) : Int.bmod x 65536 = (if x % 65536 < 32768 then x % 65536 else x % 65536 - 65536) := by
  rw [Int.bmod_def]; norm_num

theorem facts_mem {x : Int} (h : -2 ^ 31 ≤ x ∧ x < 2 ^ 31) : Facts.of x ∈ factKinds := by
  norm_num at h
  have hs : ∀ b : Bool, (b = decide (Int.bmod x 256 = Int.bmod x 65536)) →
      Facts.of x = ⟨decide (-128 ≤ x ∧ x ≤ 127), decide (-65535 ≤ x ∧ x ≤ 65535), decide (-128 ≤ x ∧ x ≤ 255), decide (x = 1),
        decide (x = 3), b, decide (x % 2 ^ 32 > 65535), decide (x % 2 ^ 32 > 255), decide (x > -32768)⟩ := by
    intro b hb; rw [hb]; rfl
  have hu : x % 2 ^ 32 = if 0 ≤ x then x else x + 4294967296 := by norm_num; split <;> omega
  by_cases c0 : x < -65535
  · have e : ∀ b : Bool, b = decide (Int.bmod x 256 = Int.bmod x 65536) → Facts.of x = ⟨false, false, false, false, false, b, true, true, false⟩ := by
      intro b hb
      rw [hs b hb, hu, if_neg (by omega)]
      congr 1 <;> simp <;> omega
    cases hb : decide (Int.bmod x 256 = Int.bmod x 65536) with
    | true => rw [e true hb.symm]; decide
    | false => rw [e false hb.symm]; decide
  by_cases c1 : x ≤ -32768
  · have e : ∀ b : Bool, b = decide (Int.bmod x 256 = Int.bmod x 65536) → Facts.of x = ⟨false, true, false, false, false, b, true, true, false⟩ := by
      intro b hb
      rw [hs b hb, hu, if_neg (by omega)]
      congr 1 <;> simp <;> omega
    cases hb : decide (Int.bmod x 256 = Int.bmod x 65536) with
    | true => rw [e true hb.symm]; decide
    | false => rw [e false hb.symm]; decide
  by_cases c2 : x < -128
  · have hb : false = decide (Int.bmod x 256 = Int.bmod x 65536) := by
      symm; rw [decide_eq_false_iff_not, bmod256, bmod65536]; split <;> split <;> omega
    have e : Facts.of x = ⟨false, true, false, false, false, false, true, true, true⟩ := by
      rw [hs false hb, hu, if_neg (by omega)]
      congr 1 <;> simp <;> omega
    rw [e]; decide
  by_cases c3 : x < 0
  · have hb : true = decide (Int.bmod x 256 = Int.bmod x 65536) := by
      symm; rw [decide_eq_true_iff, bmod256, bmod65536]; split <;> split <;> omega
    have e : Facts.of x = ⟨true, true, true, false, false, true, true, true, true⟩ := by
      rw [hs true hb, hu, if_neg (by omega)]
      congr 1 <;> simp <;> omega
    rw [e]; decide
  by_cases c4 : x < 128
  · have hb : true = decide (Int.bmod x 256 = Int.bmod x 65536) := by
      symm; rw [decide_eq_true_iff, bmod256, bmod65536]; split <;> split <;> omega
    by_cases k1 : x = 1
    · subst k1; decide
    by_cases k3 : x = 3
    · subst k3; decide
    have e : Facts.of x = ⟨true, true, true, false, false, true, false, false, true⟩ := by
      rw [hs true hb, hu, if_pos (by omega)]
      congr 1 <;> simp <;> omega
    rw [e]; decide
  by_cases c5 : x < 256
  · have hb : false = decide (Int.bmod x 256 = Int.bmod x 65536) := by
      symm; rw [decide_eq_false_iff_not, bmod256, bmod65536]; split <;> split <;> omega
    have e : Facts.of x = ⟨false, true, true, false, false, false, false, false, true⟩ := by
      rw [hs false hb, hu, if_pos (by omega)]
      congr 1 <;> simp <;> omega
    rw [e]; decide
  by_cases c6 : x ≤ 65535
  · have e : ∀ b : Bool, b = decide (Int.bmod x 256 = Int.bmod x 65536) → Facts.of x = ⟨false, true, false, false, false, b, false, true, true⟩ := by
      intro b hb
      rw [hs b hb, hu, if_pos (by omega)]
      congr 1 <;> simp <;> omega
    cases hb : decide (Int.bmod x 256 = Int.bmod x 65536) with
    | true => rw [e true hb.symm]; decide
    | false => rw [e false hb.symm]; decide
  · have e : ∀ b : Bool, b = decide (Int.bmod x 256 = Int.bmod x 65536) → Facts.of x = ⟨false, false, false, false, false, b, true, true, true⟩ := by
      intro b hb
      rw [hs b hb, hu, if_pos (by omega)]
      congr 1 <;> simp <;> omega
    cases hb : decide (Int.bmod x 256 = Int.bmod x 65536) with
    | true => rw [e true hb.symm]; decide
    | false => rw [e false hb.symm]; decide

theorem reg_mem' : ∀ m ∈ modes, ∀ z ∈ [Sz.b, .w, .d, .q], ∀ n : Fin 16, ∀ h : Bool, GReg.ok m ⟨z, n.val, h⟩ → GReg.abs m ⟨z, n.val, h⟩ ∈ regKinds := by
  decide +kernel

theorem reg_mem {m : Mode} {r : GReg} (h : r.ok m) : r.abs m ∈ regKinds := by
  obtain ⟨z, n, hi⟩ := r
  exact reg_mem' m (mem_modes m) z (by cases z <;> decide) ⟨n, h.1⟩ hi h

theorem abs_mem {m : Mode} {o : Src} {a : AOp} (hr : ∀ r, o = .reg r → r.ok m) (h : o.abs m = some a) :
    a ∈ kinds ∨ ∃ f, a = .imm f (some .q) := by
  cases o with
  | reg r =>
    simp only [Src.abs, Option.some.injEq] at h
    subst h
    left
    exact List.mem_append_left _ (List.mem_append_left _ (reg_mem (hr r rfl)))
  | mem z ts =>
    simp only [Src.abs, Option.some.injEq] at h
    subst h
    left
    apply List.mem_append_left
    apply List.mem_append_right
    rcases z with _ | z
    · decide
    · cases z <;> decide
  | imm v z =>
    simp only [Src.abs] at h
    split at h
    · exact absurd h (by simp)
    simp only [Option.some.injEq] at h
    subst h
    have hf := facts_mem (low32_range v)
    by_cases hq : z = some .q
    · right; exact ⟨_, by rw [hq]⟩
    · left
      apply List.mem_append_right
      unfold immKinds
      rw [List.mem_flatMap]
      refine ⟨_, hf, ?_⟩
      rcases z with _ | z
      · simp
      · cases z <;> simp_all

theorem mapM_get {α β : Type} {f : α → Option β} : ∀ {l : List α} {bs : List β}, l.mapM f = some bs →
    bs.length = l.length ∧ ∀ i : Nat, bs[i]? = l[i]?.bind f := by
  intro l
  induction l with
  | nil => intro bs h; simp at h; subst h; simp
  | cons a l ih =>
    intro bs h
    simp only [List.mapM_cons, Option.pure_def, Option.bind_eq_bind, Option.bind_eq_some_iff, Option.some.injEq] at h
    obtain ⟨b, hb, cs, hcs, rfl⟩ := h
    obtain ⟨h1, h2⟩ := ih hcs
    refine ⟨by simp [h1], ?_⟩
    intro i
    cases i with
    | zero => simp [hb]
    | succ i => simpa using h2 i

/-! ### Prefixes -/

theorem prefixes_eq (a b : Bool) (g : Option Seg) (c : Nat) (rest : List Nat) (h1 : c ≠ 0x66) (h2 : c ≠ 0x67) (h3 : segOf c = none) :
    prefixes {} ((if a then [0x67] else []) ++ (if b then [0x66] else []) ++ (g.map segPrefix).toList ++ c :: rest)
      = (⟨b, a, g⟩, c :: rest) := by
  have hend : ∀ p : Pre, prefixes p (c :: rest) = (p, c :: rest) := by
    intro p; rw [prefixes, if_neg h1, if_neg h2, h3]
  have e66 : ∀ (p : Pre) bs, prefixes p (0x66 :: bs) = prefixes { p with p66 := true } bs := fun _ _ => rfl
  have e67 : ∀ (p : Pre) bs, prefixes p (0x67 :: bs) = prefixes { p with p67 := true } bs := fun _ _ => rfl
  have es : ∀ (p : Pre) s bs, prefixes p (segPrefix s :: bs) = prefixes { p with seg := some s } bs := by intro p s bs; cases s <;> rfl
  rcases g with _ | g
  · cases a <;> cases b <;> simp [e66, e67, hend]
  · cases a <;> cases b <;> simp [e66, e67, es, hend]

/-! ### ModRM -/

theorem decode_rex (m : Mode) (p : Bool) (r r' : Nat) (h : r % 8 = r' % 8) (bs : List Nat) : ModRM.decode m p r bs = ModRM.decode m p r' bs := by
  unfold ModRM.decode
  have e1 : r % 2 = r' % 2 := by omega
  have e2 : r / 2 % 2 = r' / 2 % 2 := by omega
  have e3 : r / 4 % 2 = r' / 4 % 2 := by omega
  rw [e1, e2, e3]

theorem decode_head {m : Mode} {p : Bool} {r : Nat} {bs : List Nat} {ea : EA} {no : Nat} {rest : List Nat}
    (h : ModRM.decode m p r bs = some (ea, no, rest)) : ∃ b bs', bs = b :: bs' ∧ b / 64 < 3 ∧ no = b / 8 % 8 + 8 * (r / 4 % 2) := by
  unfold ModRM.decode at h
  split at h
  · exact absurd h (by simp)
  rename_i b bs'
  simp only at h
  refine ⟨b, bs', rfl, ?_⟩
  split at h
  · exact absurd h (by simp)
  rename_i hm
  refine ⟨by omega, ?_⟩
  split at h
  · rw [Option.bind_eq_some_iff] at h
    obtain ⟨f, -, h⟩ := h
    split at h
    · exact absurd h (by simp)
    · simp only [Option.some.injEq, Prod.mk.injEq] at h
      exact h.2.1.symm
  split at h
  · split at h
    · exact absurd h (by simp)
    split at h
    · exact absurd h (by simp)
    · simp only [Option.some.injEq, Prod.mk.injEq] at h
      exact h.2.1.symm
  · split at h
    · exact absurd h (by simp)
    · simp only [Option.some.injEq, Prod.mk.injEq] at h
      exact h.2.1.symm

theorem enc_rex {cx : Ctx} {ts : List Term} {other : ModRM.Other} {enc : ModRM.Enc} (hs : ModRM.Source cx ts) (ho : other.ok)
    (h : ModRM.assemble cx ts other = .ok enc) : enc.rex < 8 := by
  obtain ⟨o, ci, f, -, g, -, hout⟩ := ModRM.assemble_good hs h
  unfold ModRM.output at hout
  rw [ModRM.combine_eq g.wf ho] at hout
  simp only at hout
  split at hout
  · exact absurd hout (by simp)
  split at hout
  · exact absurd hout (by simp)
  simp only [Except.ok.injEq] at hout
  rw [← hout]
  have := g.wf.rex
  cases other <;> simp only [ModRM.Other.ok] at ho <;> simp only [ModRM.Other.no] <;> omega

/-- What the source says about memory operands. -/
structure MemOk (cx : Ctx) (ts : List Term) : Prop where
  src : ModRM.Source cx ts
  disp : cx.mode = .u64 → ∀ r, .reg r ∈ ts → r.cls = .r64 → ¬ (2 ^ 31 ≤ ModRM.numSum ts ∧ ModRM.numSum ts < 2 ^ 32)

/-- The address part of `Means`. -/
def MemMeans (cx : Ctx) (ts : List Term) (ea : EA) (seg : Option Seg) : Prop :=
  (∀ regs next, ea.addr regs next = ModRM.sumTerms regs next ts % 2 ^ ea.bits) ∧
  (∀ t ∈ ts, ∀ r ∈ t.regs, ea.bits = r.bits) ∧
  ((∀ t ∈ ts, t.regs = []) → ea.bits = ModRM.addrBits cx.dir false) ∧
  ModRM.usedSeg cx.mode seg ea.stack = ModRM.usedSeg cx.mode cx.seg ea.stack

theorem read_mem {cx : Ctx} (hfix : cx.fixup = false) {ts : List Term} {other : ModRM.Other} {enc : ModRM.Enc} (hm : MemOk cx ts)
    (ho : other.ok) (h : ModRM.assemble cx ts other = .ok enc) (low : Nat) (hlow : low % 8 = enc.rex) (tail : List Nat) :
    enc.rex < 8 ∧ ∃ ea, readRM cx.mode enc.p67 low (enc.bytes ++ tail) = some (.mem ea other.no, tail) ∧ MemMeans cx ts ea enc.seg ∧
      (enc.bytes ++ tail).headD 0 / 8 % 8 = other.no % 8 := by
  have hlt := enc_rex hm.src ho h
  refine ⟨hlt, ?_⟩
  obtain ⟨ea, hd, h1, h2, h3, h4⟩ := ModRM.C19_memory_operand_partial hm.src hfix ho hm.disp h tail
  rw [decode_rex cx.mode enc.p67 enc.rex low (by omega)] at hd
  obtain ⟨b, bs', hb, hb3, hno⟩ := decode_head hd
  refine ⟨ea, ?_, ⟨h1, ?_, ?_, h4⟩, ?_⟩
  · unfold readRM
    rw [hb] at hd ⊢
    simp only
    rw [if_neg (by omega), hd]
  · intro t ht r hr
    exact h2 r (List.mem_flatMap.mpr ⟨t, ht, hr⟩)
  · intro hn
    apply h3
    unfold ModRM.regsOf
    rw [List.flatMap_eq_nil_iff]
    exact hn
  · rw [hb]
    simp only [List.headD_cons]
    omega

/-- Register numbers in ModRM. -/
def rrOk (rm rex a b : Nat) : Prop :=
  rm / 64 = 3 ∧ rm % 8 + 8 * (rex % 2) = a ∧ rm / 8 % 8 + 8 * (rex / 4 % 2) = b ∧ rex < 8

instance (rm rex a b : Nat) : Decidable (rrOk rm rex a b) := by unfold rrOk; infer_instance

/-- Two registers: the second one in reg. -/
def two (a b : Nat) : Nat × Nat := (((0xC0 ||| (a &&& 7)) &&& 0xC7) ||| ((b &&& 7) <<< 3), ((a &&& 8) >>> 3) ||| ((b &&& 8) >>> 1))

theorem two_ok : ∀ a b : Fin 16, rrOk ((two a b).1 ||| (0 <<< 3)) (two a b).2 a b := by decide +kernel
theorem two_dir_ok : ∀ a b : Fin 16, rrOk ((swapRm true (two a b)).1 ||| (0 <<< 3)) (swapRm true (two a b)).2 b a := by decide +kernel

/-- A register in r/m only. -/
def single (a : Nat) : Nat × Nat := (0xC0 ||| (a &&& 7), (a &&& 8) >>> 3)

theorem single_ok : ∀ (a : Fin 16) (d : Fin 8), rrOk ((single a).1 ||| (d.val <<< 3)) (single a).2 a d := by decide +kernel

/-- IMUL with two operands. -/
def twice (p : Nat × Nat) : Nat × Nat := ((p.1 &&& 0xC7) ||| ((p.1 &&& 7) <<< 3), p.2 ||| (if p.2 &&& 1 ≠ 0 then 4 else 0))

theorem twice_ok : ∀ (a : Fin 16), rrOk ((swapRm true (twice (single a))).1 ||| (0 <<< 3)) (swapRm true (twice (single a))).2 a a := by
  decide +kernel
theorem twice_ok' : ∀ (a : Fin 16), rrOk ((twice (single a)).1 ||| (0 <<< 3)) (twice (single a)).2 a a := by
  decide +kernel

/-- Shift by CL: the field of CL is cleared. -/
theorem cl_ok : ∀ (a : Fin 16) (d : Fin 8), rrOk (((two a 1).1 &&& 0xC7) ||| (d.val <<< 3)) (two a 1).2 a d := by decide +kernel

theorem read_reg {m : Mode} {p67 : Bool} {rm rex a b low : Nat} (h : rrOk rm rex a b) (hlow : low % 8 = rex) (tail : List Nat) :
    readRM m p67 low (rm :: tail) = some (.reg a b, tail) := by
  obtain ⟨h1, h2, h3, h4⟩ := h
  unfold readRM
  simp only
  rw [if_pos h1]
  congr 3
  · omega
  · omega

def RM.regNo : RM → Nat
  | .none => 0
  | .reg _ b => b
  | .mem _ b => b

/-- ModRM.rm is the operand. -/
def RM.isOp (cx : Ctx) (seg : Option Seg) (rm : RM) : Option Src → Prop
  | some (.reg r) => ∃ b, rm = .reg r.no b
  | some (.mem _ ts) => ∃ ea b, rm = .mem ea b ∧ MemMeans cx ts ea seg
  | _ => False

theorem fam_xchg {mn : Mn} : mn.fam = .xchg ↔ mn = .xchg := by cases mn <;> simp [Mn.fam]
theorem fam_imul {mn : Mn} : mn.fam = .imul ↔ mn = .imul := by cases mn <;> simp [Mn.fam]
theorem fam_push {mn : Mn} : mn.fam = .push ↔ mn = .push := by cases mn <;> simp [Mn.fam]
theorem fam_pop {mn : Mn} : mn.fam = .pop ↔ mn = .pop := by cases mn <;> simp [Mn.fam]

/-- The type of a register. -/
def GReg.ty (r : GReg) : Nat := sizeBit r.size ||| (if r.no = 0 then oA else 0) ||| (if r.size = .b ∧ r.no = 1 then oCLONLY else 0)

theorem ty_facts : ∀ m ∈ modes, ∀ z ∈ [Sz.b, .w, .d, .q], ∀ n : Fin 16, ∀ h : Bool, GReg.ok m ⟨z, n.val, h⟩ →
    ((GReg.ty ⟨z, n.val, h⟩ = oCL ↔ GReg.mk z n.val h = ⟨.b, 1, false⟩) ∧ (GReg.ty ⟨z, n.val, h⟩ &&& oA ≠ 0 ↔ n.val = 0) ∧
      (GReg.ty ⟨z, n.val, h⟩ &&& oR8 = 0 ↔ z ≠ .b) ∧ (GReg.ty ⟨z, n.val, h⟩ &&& 0xF = sizeBit z) ∧
      (GReg.ty ⟨z, n.val, h⟩ &&& oR64 ≠ 0 ↔ z = .q)) := by decide +kernel

theorem ty_ok {m : Mode} {r : GReg} (h : r.ok m) :
    (r.ty = oCL ↔ r = ⟨.b, 1, false⟩) ∧ (r.ty &&& oA ≠ 0 ↔ r.no = 0) ∧ (r.ty &&& oR8 = 0 ↔ r.size ≠ .b) ∧ r.ty &&& 0xF = sizeBit r.size ∧
      (r.ty &&& oR64 ≠ 0 ↔ r.size = .q) := by
  obtain ⟨z, n, hi⟩ := r
  exact ty_facts m (mem_modes m) z (by cases z <;> decide) ⟨n, h.1⟩ hi h

/-- Conditions on the operands of the source. -/
structure OpsOk (cx : Ctx) (ops : List Src) : Prop where
  fixup : cx.fixup = false
  regs : ∀ r, .reg r ∈ ops → r.ok cx.mode
  mems : ∀ z ts, .mem z ts ∈ ops → MemOk cx ts

theorem toOption_ok {α : Type} {x : Except ModRM.Err α} {a : α} (h : x.toOption = some a) : x = .ok a := by
  cases x with
  | error e => simp [Except.toOption] at h
  | ok b => simp [Except.toOption] at h; rw [h]

theorem rmRegs_cl {mn : Mn} {ops : List Src} {r : GReg} (h0 : ops[0]? = some (.reg r)) (h1 : ops[1]? = some (.reg ⟨.b, 1, false⟩))
    (hs : mn.fam = .shift) : rmRegs mn ops = ((two r.no 1).1 &&& 0xC7, (two r.no 1).2) := by
  unfold rmRegs
  rw [show opAt ops 0 = _ from h0, show opAt ops 1 = _ from h1]
  cases mn <;> simp only [Mn.fam, reduceCtorEq] at hs <;> simp [two, Mn.fam]

theorem rmRegs_two {mn : Mn} {ops : List Src} {r r2 : GReg} (h0 : ops[0]? = some (.reg r)) (h1 : ops[1]? = some (.reg r2))
    (hs : mn.fam ≠ .shift) (hx : ¬ (mn = .xchg ∧ r.no = 0 ∧ r.size ≠ .b)) : rmRegs mn ops = two r.no r2.no := by
  unfold rmRegs
  rw [show opAt ops 0 = _ from h0, show opAt ops 1 = _ from h1]
  by_cases hm : mn = .xchg
  · subst hm
    obtain ⟨z, n, hi⟩ := r
    cases z with
    | b => rfl
    | _ =>
      cases n with
      | zero => exact absurd ⟨rfl, rfl, by simp⟩ hx
      | succ n => simp [Mn.fam, two]
  · cases mn <;> first | (exact absurd rfl hm) | (exact absurd rfl hs) | (simp [Mn.fam, two])

/-- The ModRM part holds the operands that `slots` says. -/
theorem modrm_ok {cx : Ctx} {mn : Mn} {f : Form} {d : Nat} {ops : List Src} {as : List AOp} {enc : ModRM.Enc} (hops : OpsOk cx ops)
    (has : ∀ i : Nat, as[i]? = ops[i]?.bind (Src.abs cx.mode)) (hal : as.length = ops.length) (hk : f.kind = .rm) (hd : d < 8)
    (he : (slots mn.fam f as[0]? as[1]?).e.isSome = true) (hg : (slots mn.fam f as[0]? as[1]?).g.isSome = true → d = 0)
    (hlen : ∀ v z, ops[1]? = some (.imm v z) → ops.length = 2)
    (h : modrm cx mn f.dir d ops = some enc) (low : Nat) (hlow : low % 8 = enc.rex % 8) (tail : List Nat) :
    enc.rex < 8 ∧ ∃ rm, readRM cx.mode enc.p67 low (enc.bytes ++ tail) = some (rm, tail) ∧
      ((slots mn.fam f as[0]? as[1]?).g = none → (enc.bytes ++ tail).headD 0 / 8 % 8 = d) ∧
      (∀ i, (slots mn.fam f as[0]? as[1]?).e = some i → rm.isOp cx enc.seg ops[i]?) ∧
      (∀ j, (slots mn.fam f as[0]? as[1]?).g = some j → ∃ r, ops[j]? = some (.reg r) ∧ rm.regNo = r.no) := by
  have h0 := has 0
  have h1 := has 1
  generalize hs : slots mn.fam f as[0]? as[1]? = s at he hg ⊢
  -- a memory operand with a certain partner
  have memCase : ∀ z ts other, .mem z ts ∈ ops → other.ok → (ModRM.assemble cx ts other).toOption = some enc →
      enc.rex < 8 ∧ ∃ ea, readRM cx.mode enc.p67 low (enc.bytes ++ tail) = some (.mem ea other.no, tail) ∧ MemMeans cx ts ea enc.seg ∧
      (enc.bytes ++ tail).headD 0 / 8 % 8 = other.no % 8 := by
    intro z ts other hm ho hh
    have hh := toOption_ok hh
    have := enc_rex (hops.mems z ts hm).src ho hh
    exact read_mem hops.fixup (hops.mems z ts hm) ho hh low (by omega) tail
  -- only registers
  have regCase : ∀ rm rex a b, enc = ⟨false, none, rex, [rm]⟩ → rrOk rm rex a b →
      enc.rex < 8 ∧ readRM cx.mode enc.p67 low (enc.bytes ++ tail) = some (.reg a b, tail) ∧
      (enc.bytes ++ tail).headD 0 / 8 % 8 = b % 8 := by
    intro rm rex a b he hr
    subst he
    refine ⟨hr.2.2.2, ?_, ?_⟩
    · exact read_reg hr (by have := hr.2.2.2; simp only at hlow; omega) tail
    · have := hr.2.2.1
      simp only [List.cons_append, List.nil_append, List.headD_cons]
      omega
  have a0 : opAt ops 0 = ops[0]? := rfl
  have a1 : opAt ops 1 = ops[1]? := rfl
  unfold slots at hs
  rw [hk] at hs
  unfold modrm at h
  rw [a0, a1] at h
  have rmr := rmRegs.eq_def mn ops
  rw [a0, a1] at rmr
  cases e0 : ops[0]? with
  | none =>
    rw [e0] at h0
    rw [h0] at hs
    simp only [Option.bind_none] at hs
    rw [← hs] at he
    simp at he
  | some q0 =>
    have m0 : q0 ∈ ops := List.mem_of_getElem? e0
    rw [e0] at h0 h rmr
    cases q0 with
    | imm v z =>
      exfalso
      simp only [Option.bind_some, Src.abs] at h0
      split at h0 <;> rw [h0] at hs <;> simp only at hs <;> rw [← hs] at he <;> simp at he
    | mem z ts =>
      simp only [Option.bind_some, Src.abs] at h0
      rw [h0] at hs
      cases e1 : ops[1]? with
      | none =>
        rw [e1] at h1 h
        rw [h1] at hs
        simp only [Option.bind_none] at hs h
        obtain ⟨g1, ea, g2, g3, g4⟩ := memCase z ts (.digit d) m0 hd h
        refine ⟨g1, _, g2, fun _ => ?_, ?_, ?_⟩
        · rw [g4]; simp only [ModRM.Other.no]; omega
        · intro i hi
          rw [← hs] at hi; simp only [Option.some.injEq] at hi; subst hi
          rw [e0]; exact ⟨ea, _, rfl, g3⟩
        · intro j hj; rw [← hs] at hj; simp at hj
      | some q1 =>
        have m1 : q1 ∈ ops := List.mem_of_getElem? e1
        rw [e1] at h1 h
        cases q1 with
        | reg r =>
          have hr := hops.regs r m1
          obtain ⟨t1, -⟩ := ty_ok hr
          have h1 : as[1]? = some (.reg r.ty _ _) := h1
          rw [h1] at hs
          simp only at hs h
          by_cases hsh : mn.fam = .shift
          · rw [if_pos hsh] at hs
            by_cases hcl : r.ty = oCL
            · rw [if_pos hcl] at hs
              rw [if_pos ⟨hsh, t1.mp hcl⟩] at h
              obtain ⟨g1, ea, g2, g3, g4⟩ := memCase z ts (.digit d) m0 hd h
              refine ⟨g1, _, g2, fun _ => ?_, ?_, ?_⟩
              · rw [g4]; simp only [ModRM.Other.no]; omega
              · intro i hi
                rw [← hs] at hi; simp only [Option.some.injEq] at hi; subst hi
                rw [e0]; exact ⟨ea, _, rfl, g3⟩
              · intro j hj; rw [← hs] at hj; simp at hj
            · rw [if_neg hcl] at hs
              rw [← hs] at he; simp at he
          · rw [if_neg hsh] at hs
            rw [if_neg (fun w => hsh w.1)] at h
            obtain ⟨g1, ea, g2, g3, g4⟩ := memCase z ts (.regSecond r.no) m0 hr.1 h
            refine ⟨g1, _, g2, ?_, ?_, ?_⟩
            · intro w; rw [← hs] at w; simp at w
            · intro i hi
              rw [← hs] at hi; simp only [Option.some.injEq] at hi; subst hi
              rw [e0]; exact ⟨ea, _, rfl, g3⟩
            · intro j hj
              rw [← hs] at hj; simp only [Option.some.injEq] at hj; subst hj
              exact ⟨r, e1, rfl⟩
        | mem z2 ts2 =>
          simp only [Option.bind_some, Src.abs] at h1
          rw [h1] at hs
          simp only at hs h
          obtain ⟨g1, ea, g2, g3, g4⟩ := memCase z ts (.digit d) m0 hd h
          refine ⟨g1, _, g2, fun _ => ?_, ?_, ?_⟩
          · rw [g4]; simp only [ModRM.Other.no]; omega
          · intro i hi
            rw [← hs] at hi; simp only [Option.some.injEq] at hi; subst hi
            rw [e0]; exact ⟨ea, _, rfl, g3⟩
          · intro j hj; rw [← hs] at hj; simp at hj
        | imm v z2 =>
          have hs : (⟨some 0, none, none⟩ : Slots) = s := by
            rw [← hs]
            simp only [Option.bind_some, Src.abs] at h1
            split at h1 <;> rw [h1]
          simp only at h
          obtain ⟨g1, ea, g2, g3, g4⟩ := memCase z ts (.digit d) m0 hd h
          refine ⟨g1, _, g2, fun _ => ?_, ?_, ?_⟩
          · rw [g4]; simp only [ModRM.Other.no]; omega
          · intro i hi
            rw [← hs] at hi; simp only [Option.some.injEq] at hi; subst hi
            rw [e0]; exact ⟨ea, _, rfl, g3⟩
          · intro j hj; rw [← hs] at hj; simp at hj
    | reg r =>
      have hr := hops.regs r m0
      obtain ⟨t1, t2, t3, -⟩ := ty_ok hr
      have h0 : as[0]? = some (.reg r.ty _ _) := h0
      rw [h0] at hs
      simp only at rmr
      cases e1 : ops[1]? with
      | none =>
        rw [e1] at h1 h rmr
        rw [h1] at hs
        simp only [Option.bind_none] at hs h rmr
        split at hs
        · rw [← hs] at he; simp at he
        rename_i hdir
        rw [rmr] at h
        simp only [swapRm, if_neg hdir, Option.some.injEq] at h
        obtain ⟨g1, g2, g3⟩ := regCase _ _ r.no d h.symm (single_ok ⟨r.no, hr.1⟩ ⟨d, hd⟩)
        refine ⟨g1, _, g2, fun _ => by omega, ?_, ?_⟩
        · intro i hi
          rw [← hs] at hi; simp only [Option.some.injEq] at hi; subst hi
          rw [e0]; exact ⟨_, rfl⟩
        · intro j hj; rw [← hs] at hj; simp at hj
      | some q1 =>
        have m1 : q1 ∈ ops := List.mem_of_getElem? e1
        rw [e1] at h1 h rmr
        cases q1 with
        | mem z2 ts2 =>
          simp only [Option.bind_some, Src.abs] at h1
          rw [h1] at hs
          simp only at hs h
          obtain ⟨g1, ea, g2, g3, g4⟩ := memCase z2 ts2 (.regFirst r.no) m1 hr.1 h
          refine ⟨g1, _, g2, ?_, ?_, ?_⟩
          · intro w; rw [← hs] at w; simp at w
          · intro i hi
            rw [← hs] at hi; simp only [Option.some.injEq] at hi; subst hi
            rw [e1]; exact ⟨ea, _, rfl, g3⟩
          · intro j hj
            rw [← hs] at hj; simp only [Option.some.injEq] at hj; subst hj
            exact ⟨r, e0, rfl⟩
        | imm v z2 =>
          have hs : (if mn.fam = .imul then (⟨some 0, some 0, none⟩ : Slots) else if f.dir then ⟨none, none, none⟩ else ⟨some 0, none, none⟩) = s := by
            simp only [Option.bind_some, Src.abs] at h1
            split at h1
            · exfalso
              rw [List.getElem?_eq_none_iff] at h1
              rw [List.getElem?_eq_some_iff] at e1
              obtain ⟨e1, -⟩ := e1
              omega
            · rw [h1] at hs; exact hs
          have hl := hlen v z2 e1
          simp only at h rmr
          by_cases hi : mn.fam = .imul
          · rw [if_pos hi] at hs
            have hi' := fam_imul.mp hi
            rw [if_pos ⟨hi', hl⟩] at rmr
            have hd0 : d = 0 := hg (by rw [← hs]; rfl)
            subst hd0
            rw [rmr] at h
            simp only [Option.some.injEq] at h
            have key : rrOk ((swapRm f.dir (twice (single r.no))).1 ||| (0 <<< 3)) (swapRm f.dir (twice (single r.no))).2 r.no r.no := by
              cases f.dir
              · exact twice_ok' ⟨r.no, hr.1⟩
              · exact twice_ok ⟨r.no, hr.1⟩
            obtain ⟨g1, g2, g3⟩ := regCase _ _ r.no r.no h.symm key
            refine ⟨g1, _, g2, ?_, ?_, ?_⟩
            · intro w; rw [← hs] at w; simp at w
            · intro i hi
              rw [← hs] at hi; simp only [Option.some.injEq] at hi; subst hi
              rw [e0]; exact ⟨_, rfl⟩
            · intro j hj
              rw [← hs] at hj; simp only [Option.some.injEq] at hj; subst hj
              exact ⟨r, e0, rfl⟩
          · rw [if_neg hi] at hs
            rw [if_neg (fun w => hi (fam_imul.mpr w.1))] at rmr
            split at hs
            · rw [← hs] at he; simp at he
            rename_i hdir
            rw [rmr] at h
            simp only [swapRm, if_neg hdir, Option.some.injEq] at h
            obtain ⟨g1, g2, g3⟩ := regCase _ _ r.no d h.symm (single_ok ⟨r.no, hr.1⟩ ⟨d, hd⟩)
            refine ⟨g1, _, g2, fun _ => by omega, ?_, ?_⟩
            · intro i hi
              rw [← hs] at hi; simp only [Option.some.injEq] at hi; subst hi
              rw [e0]; exact ⟨_, rfl⟩
            · intro j hj; rw [← hs] at hj; simp at hj
        | reg r2 =>
          have hr2 := hops.regs r2 m1
          obtain ⟨u1, -⟩ := ty_ok hr2
          have h1 : as[1]? = some (.reg r2.ty _ _) := h1
          rw [h1] at hs
          simp only at hs h
          by_cases hsh : mn.fam = .shift
          · rw [if_pos hsh] at hs
            split at hs
            · rename_i hcl
              have hr1 := u1.mp hcl.1
              have rmr := rmRegs_cl (mn := mn) e0 (by rw [e1, hr1]) hsh
              rw [rmr] at h
              simp only [swapRm, hcl.2, Bool.false_eq_true, if_false, Option.some.injEq] at h
              obtain ⟨g1, g2, g3⟩ := regCase _ _ r.no d h.symm (cl_ok ⟨r.no, hr.1⟩ ⟨d, hd⟩)
              refine ⟨g1, _, g2, fun _ => by omega, ?_, ?_⟩
              · intro i hi
                rw [← hs] at hi; simp only [Option.some.injEq] at hi; subst hi
                rw [e0]; exact ⟨_, rfl⟩
              · intro j hj; rw [← hs] at hj; simp at hj
            · rw [← hs] at he; simp at he
          · rw [if_neg hsh] at hs
            split at hs
            · rw [← hs] at he; simp at he
            rename_i hnx
            have rmr := rmRegs_two e0 e1 hsh (fun ⟨w1, w2, w3⟩ => hnx ⟨fam_xchg.mpr w1, t2.mpr w2, t3.mpr w3⟩)
            have hd0 : d = 0 := by
              apply hg
              rw [← hs]
              cases f.dir <;> rfl
            subst hd0
            rw [rmr] at h
            simp only [Option.some.injEq] at h
            cases hdir : f.dir with
            | true =>
              rw [hdir] at h hs
              simp only [if_true] at hs
              obtain ⟨g1, g2, g3⟩ := regCase _ _ r2.no r.no h.symm (two_dir_ok ⟨r.no, hr.1⟩ ⟨r2.no, hr2.1⟩)
              refine ⟨g1, _, g2, ?_, ?_, ?_⟩
              · intro w; rw [← hs] at w; simp at w
              · intro i hi
                rw [← hs] at hi; simp only [Option.some.injEq] at hi; subst hi
                rw [e1]; exact ⟨_, rfl⟩
              · intro j hj
                rw [← hs] at hj; simp only [Option.some.injEq] at hj; subst hj
                exact ⟨r, e0, rfl⟩
            | false =>
              rw [hdir] at h hs
              simp only [Bool.false_eq_true, if_false] at hs
              obtain ⟨g1, g2, g3⟩ := regCase _ _ r.no r2.no h.symm (two_ok ⟨r.no, hr.1⟩ ⟨r2.no, hr2.1⟩)
              refine ⟨g1, _, g2, ?_, ?_, ?_⟩
              · intro w; rw [← hs] at w; simp at w
              · intro i hi
                rw [← hs] at hi; simp only [Option.some.injEq] at hi; subst hi
                rw [e0]; exact ⟨_, rfl⟩
              · intro j hj
                rw [← hs] at hj; simp only [Option.some.injEq] at hj; subst hj
                exact ⟨r2, e1, rfl⟩

end Verif.Ins
