import Verif.ModRM.Lemmas
/-! # C19: memory_operand chooses the right form -/
namespace Verif.ModRM

/-- The registers of an operand. -/
def Opnd.regSum (o : Opnd) (regs : Nat → Int) (next : Int) : Int :=
  (match o.base with | none => 0 | some b => b.value regs next) +
  (match o.idx with | none => 0 | some i => i.value regs next * (max 1 o.scale : Nat))

def Form.partSum (f : Form) (regs : Nat → Int) (next : Int) : Int :=
  (f.parts.map fun p => regs p.1 * (p.2 : Int)).sum + (if f.rip then next else 0)

/-- Size of the displacement from the mod field. -/
def modDsz (full : Nat) (m : Nat) : Nat := match m with | 0 => 0 | 1 => 1 | _ => full

theorem base_form : ∀ (long : Bool) (m : Fin 3) (no : Fin 16),
    let m' := if no.val % 8 = 5 ∧ m.val = 0 then 1 else m.val
    (if no.val % 8 = 4 then formSib m' 0x24 0 (no.val / 8) else form32 long m' (no.val % 8) (no.val / 8)) =
      { parts := [(no.val, 1)], dsz := modDsz 4 m', stack := decide (no.val = 4 ∨ no.val = 5) } := by decide +kernel

theorem idx_form : ∀ (s : Fin 4) (no : Fin 16), no.val ≠ 4 →
    formSib 0 (s.val * 64 ||| ((no.val &&& 7) <<< 3) ||| 5) (no.val / 8) 0 = { parts := [(no.val, 2 ^ s.val)], dsz := 4 } ∧
    (s.val * 64 ||| ((no.val &&& 7) <<< 3) ||| 5) % 8 = 5 := by
  decide +kernel

theorem both_form : ∀ (s : Fin 4) (m : Fin 3) (i b : Fin 16), i.val ≠ 4 →
    let m' := if b.val % 8 = 5 ∧ m.val = 0 then 1 else m.val
    formSib m' (s.val * 64 ||| ((i.val &&& 7) <<< 3) ||| (b.val &&& 7)) (i.val / 8) (b.val / 8) =
      { parts := [(b.val, 1), (i.val, 2 ^ s.val)], dsz := modDsz 4 m', stack := decide (b.val = 4 ∨ b.val = 5) } := by decide +kernel

theorem modField_cases (fixup : Bool) (v : Int) (rip : Bool) :
    ∃ m : Fin 3, modField fixup v rip = m.val * 64 ∧ (fixup = true → m.val = 2) ∧
      (fixup = false → rip = false → (m.val = 0 → lo32 v = 0) ∧ (m.val = 1 → -128 ≤ lo32 v ∧ lo32 v ≤ 127)) ∧
      (fixup = false → rip = true → m.val = 0) := by
  unfold modField
  split
  · exact ⟨2, rfl, by simp_all, by simp_all, by simp_all⟩
  · split
    · exact ⟨0, rfl, by simp_all, fun _ _ => ⟨fun _ => by simp_all, by simp⟩, by simp_all⟩
    · split
      · refine ⟨2, rfl, by simp_all, by simp_all, by simp_all⟩
      · refine ⟨1, rfl, by simp_all, fun _ _ => ⟨by simp, fun _ => by omega⟩, by simp_all⟩

/-- What is needed of the chosen form. -/
structure Good (cx : Ctx) (o : Opnd) (ci : CI) (f : Form) : Prop where
  wf : ci.WF
  rip : ci.rip = true → cx.mode = .u64
  sib : ci.rm = 4 → addrBits cx.mode (ci.adrsiz && !ci.rip) = 16 → cx.mode = .u16
  form : ci.form cx.mode = some f
  sum : ∀ regs next, f.partSum regs next = o.regSum regs next +
    (if o.base = none ∧ o.idx = none ∧ cx.mode = .u64 ∧ cx.fixup = true then next else 0)
  bits : ∀ r, o.base = some r ∨ o.idx = some r → addrBits cx.mode (ci.adrsiz && !ci.rip) = r.bits
  bitsDir : o.base = none → o.idx = none → addrBits cx.mode (ci.adrsiz && !ci.rip) = addrBits cx.dir false
  seg : usedSeg cx.mode ci.regOverride f.stack = usedSeg cx.mode cx.seg f.stack
  field : cx.fixup = true → f.dsz = if addrBits cx.mode (ci.adrsiz && !ci.rip) = 16 then 2 else 4
  disp : cx.fixup = false → (f.dsz = 0 ∧ lo32 o.value = 0) ∨ (f.dsz = 1 ∧ -128 ≤ lo32 o.value ∧ lo32 o.value ≤ 127) ∨
    f.dsz = if addrBits cx.mode (ci.adrsiz && !ci.rip) = 16 then 2 else 4
  check : cx.mode = .u64 → cx.fixup = false → (∀ b, o.base = some b → b.cls = .rip) →
    ci.md = 0 ∧ (ci.rm = 5 ∨ ci.rm = 4 ∧ ci.sib % 8 = 5)

/-- Conditions on the operand. -/
structure Pre (cx : Ctx) (o : Opnd) : Prop where
  base : ∀ r, o.base = some r → r.ok cx.mode
  idx : ∀ r, o.idx = some r → r.ok cx.mode
  ripIdx : ∀ r, o.idx = some r → r.cls ≠ .rip
  ripBase : ∀ r, o.base = some r → r.cls = .rip → o.idx = none
  si : cx.mode = .u32 → o.base = some ⟨.r16, 6⟩ → o.idx ≠ none
  idx16 : cx.mode = .u64 → ∀ r, o.idx = some r → o.base = none → r.cls ≠ .r16
  dir : cx.mode = .u64 → cx.dir ≠ .u16
  dir' : cx.mode ≠ .u64 → cx.dir ≠ .u64
  scaleIdx : ∀ r, o.idx = some r → o.base = none → o.scale ≠ 0

/-- Operands with these registers use SS by default. -/
def stackReg : Option Reg → Bool
  | some ⟨.r16, 5⟩ => true
  | some ⟨.r32, 5⟩ => true
  | some ⟨.r32, 4⟩ => true
  | _ => false

theorem usedSeg_override (m : Mode) (seg : Option Seg) (stack : Bool) (r : Option Reg)
    (h : m ≠ .u64 → stackReg r = stack) :
    usedSeg m (segOverride seg r) stack = usedSeg m seg stack := by
  have key : ∀ d : Seg, (d = .ss ∨ d = .ds) → (m ≠ .u64 → d = if stack then .ss else .ds) →
      usedSeg m (if seg = some d then none else seg) stack = usedSeg m seg stack := by
    intro d hd hk
    split
    · next hs =>
      subst hs
      unfold usedSeg
      by_cases hm : m = .u64
      · subst hm
        rcases hd with rfl | rfl <;> cases stack <;> rfl
      · rw [hk hm]; cases stack <;> simp
    · rfl
  unfold segOverride
  simp only
  apply key
  · split <;> simp
  · intro hm
    rw [← h hm]
    unfold stackReg
    split <;> simp

theorem ite_ok {c : Prop} [Decidable c] {e : Err} {x y : CI} :
    ((if c then Except.error e else Except.ok x) = Except.ok y) ↔ ¬ c ∧ x = y := by
  split <;> simp [*]

theorem good_direct {cx : Ctx} {o : Opnd} {ci : CI} (hp : Pre cx o) (hb : o.base = none) (hi : o.idx = none) {a : Bool} {ss : Nat}
    (h : setRmSib cx a ss none none o.value = .ok ci) : ∃ f, Good cx o ci f := by
  have hdir := hp.dir
  have hdir' := hp.dir'
  obtain ⟨mode, c386, fixup, seg, dir⟩ := cx
  simp only at hdir hdir'
  clear hp
  have hseg : ∀ m, usedSeg m (segOverride seg none) false = usedSeg m seg false :=
    fun m => usedSeg_override m seg false none (fun _ => rfl)
  refine ⟨⟨[], (mode == .u64 && fixup), if addrBits dir false = 16 then 2 else 4, false⟩, ?_⟩
  have hsum : o.regSum = fun _ _ => 0 := by funext r n; simp [Opnd.regSum, hb, hi]
  unfold setRmSib at h
  cases mode <;> cases dir <;> cases fixup <;> simp_all [ite_ok] <;>
  (try (obtain ⟨-, h⟩ := h)) <;> (try subst h) <;>
  · constructor <;>
    first
    | (constructor <;> simp <;> done)
    | (simp_all [CI.form, addrBits, form16, form32, formSib, CI.md, Form.partSum] <;> done)

theorem md_mul {ci : CI} {m : Nat} (hr : ci.rip = false) (h : ci.mod = m * 64) : ci.md = m := by
  simp [CI.md, hr, h]

theorem wf_mul {ci : CI} (m : Fin 3) (h : ci.mod = m.val * 64) (h2 : ci.rm < 8) (h3 : ci.rex < 4) : ci.WF := by
  refine ⟨?_, h2, h3⟩
  rw [h]
  have := m.isLt
  omega

theorem modDsz_disp {cx : Ctx} {v : Int} {m : Fin 3} {m' full : Nat} (hm : m' = m.val ∨ (m.val = 0 ∧ m' = 1))
    (h1 : cx.fixup = true → m.val = 2)
    (h2 : cx.fixup = false → (m.val = 0 → lo32 v = 0) ∧ (m.val = 1 → -128 ≤ lo32 v ∧ lo32 v ≤ 127)) :
    (cx.fixup = true → modDsz full m' = full) ∧
    (cx.fixup = false → (modDsz full m' = 0 ∧ lo32 v = 0) ∨ (modDsz full m' = 1 ∧ -128 ≤ lo32 v ∧ lo32 v ≤ 127) ∨
      modDsz full m' = full) := by
  constructor
  · intro hf
    have := h1 hf
    rcases hm with e | ⟨e, -⟩
    · rw [e, this]; rfl
    · omega
  · intro hf
    have h3 := h2 hf
    have := m.isLt
    rcases hm with e | ⟨e, e2⟩
    · rw [e]
      have : m.val = 0 ∨ m.val = 1 ∨ m.val = 2 := by omega
      rcases this with q | q | q <;> rw [q]
      · exact Or.inl ⟨rfl, h3.1 q⟩
      · exact Or.inr (Or.inl ⟨rfl, h3.2 q⟩)
      · exact Or.inr (Or.inr rfl)
    · rw [e2]
      have := h3.1 e
      exact Or.inr (Or.inl ⟨rfl, by omega, by omega⟩)

theorem form_of {ci : CI} {m : Mode} {md rm sib rex : Nat} {p : Bool} (h1 : ci.md = md) (h2 : ci.rm = rm) (h3 : ci.sib = sib)
    (h4 : ci.rex = rex) (h5 : (ci.adrsiz && !ci.rip) = p) :
    ci.form m = if addrBits m p = 16 then form16 md rm
      else if rm = 4 then some (formSib md sib (rex / 2 % 2) (rex % 2)) else some (form32 (m == .u64) md rm (rex % 2)) := by
  unfold CI.form; rw [h1, h2, h3, h4, h5]

theorem adrSize_base {m : Mode} {b : Reg} {a : Bool} (hk : b.ok m) (hr : b.cls ≠ .rip)
    (h : adrSize m (some b) none = .ok a) : addrBits m a = b.bits := by
  obtain ⟨cls, no⟩ := b
  cases cls <;> cases m <;> simp_all [Reg.ok, adrSize, sizeFits, bind, Except.bind, Reg.bits] <;> subst h <;> rfl

theorem adrSize_idx {m : Mode} {b : Option Reg} {i : Reg} {a : Bool} (hk : i.ok m) (hr : i.cls ≠ .rip)
    (h16 : m = .u64 → i.cls ≠ .r16) (h : adrSize m b (some i) = .ok a) : addrBits m a = i.bits := by
  have ha : a = !sizeFits m i := by
    unfold adrSize at h
    simp only [bind, Except.bind] at h
    rcases b with _ | b
    · simpa using h.symm
    · simp only at h
      by_cases c1 : sizeFits m b = true
      · rw [if_pos c1] at h; simpa using h.symm
      · rw [if_neg c1] at h
        by_cases c2 : b.cls = .r16 ∧ m = .u64
        · rw [if_pos c2] at h; exact absurd h (by simp)
        · rw [if_neg c2] at h; simpa using h.symm
  subst ha
  obtain ⟨cls, no⟩ := i
  cases cls <;> cases m <;> simp_all [Reg.ok, sizeFits, Reg.bits, addrBits]

/-- 16-bit index registers with a base register are refused in 64-bit code. -/
theorem both_not16 {cx : Ctx} {b i : Reg} {a : Bool} {ss : Nat} {v : Int} {ci : CI} (ha : adrSize cx.mode (some b) (some i) = .ok a)
    (h : setRmSib cx a ss (some i) (some b) v = .ok ci) (hm : cx.mode = .u64) : i.cls ≠ .r16 := by
  intro hi
  unfold setRmSib at h
  by_cases hb : b.cls = .r16
  · unfold adrSize at ha
    have : sizeFits .u64 b = false := by simp [sizeFits, hb]
    simp [hm, this, hb, bind, Except.bind] at ha
  · have : sflagsSize b.cls &&& sflagsSize i.cls = 0 := by
      rw [hi]
      cases hc : b.cls <;> simp_all <;> decide
    simp [this] at h

/-- Base register only, 32 or 64 bits. -/
theorem good_base32 {cx : Ctx} {o : Opnd} {ci : CI} {b : Reg} (hp : Pre cx o) (hb : o.base = some b)
    (hi : o.idx = none) {a : Bool} {ss : Nat} (ha : adrSize cx.mode (some b) none = .ok a) (hc : b.cls = .r32 ∨ b.cls = .r64)
    (h : setRmSib cx a ss none (some b) o.value = .ok ci) : ∃ f, Good cx o ci f := by
  obtain ⟨m, hm, hfix, hnofix, -⟩ := modField_cases cx.fixup o.value (isRip (some b))
  have hbk := hp.base b hb
  have hno : b.no < 16 := by
    unfold Reg.ok at hbk
    rcases hc with e | e <;> rw [e] at hbk <;> simp at hbk <;> omega
  have hnr : isRip (some b) = false := by rcases hc with e | e <;> simp [isRip, e]
  have hcr' : b.cls ≠ Cls.rip := by rcases hc with e | e <;> rw [e] <;> decide
  have hbits := adrSize_base hbk hcr' ha
  have hb16 : b.bits ≠ 16 := by unfold Reg.bits; rcases hc with e | e <;> rw [e] <;> decide
  have hn : ∀ n, b ≠ ⟨.r16, n⟩ := by rintro n rfl; rcases hc with e | e <;> simp at e
  have hno16 : b.no ≠ 16 := by omega
  have hcr : (b.cls == Cls.rip) = false := by rcases hc with e | e <;> rw [e] <;> rfl
  have hcr' : b.cls ≠ Cls.rip := by rcases hc with e | e <;> rw [e] <;> decide
  unfold setRmSib at h
  simp only [hn, if_false, hno16, hm, and7, Nat.shiftRight_eq_div_pow, hcr, Except.ok.injEq] at h
  have bf := base_form (cx.mode == .u64) m ⟨b.no, hno⟩
  simp only at bf
  have hmul : (if b.no % 8 ≠ 4 ∧ b.no % 8 = 5 ∧ m.val * 64 = 0 ∧ b.cls ≠ .rip then 0x40 else m.val * 64)
      = (if b.no % 8 = 5 ∧ m.val = 0 then 1 else m.val) * 64 := by
    by_cases c : b.no % 8 = 5 ∧ m.val = 0
    · rw [if_pos c, if_pos ⟨by omega, c.1, by omega, hcr'⟩]
    · rw [if_neg c, if_neg (by rintro ⟨-, c1, c2, -⟩; exact c ⟨c1, by omega⟩)]
  rw [hmul] at h
  have hm'lt : (if b.no % 8 = 5 ∧ m.val = 0 then 1 else m.val) < 3 := by split <;> omega
  have hm' : (if b.no % 8 = 5 ∧ m.val = 0 then 1 else m.val) = m.val ∨
      (m.val = 0 ∧ (if b.no % 8 = 5 ∧ m.val = 0 then 1 else m.val) = 1) := by
    split
    · next c => exact Or.inr ⟨c.2, rfl⟩
    · exact Or.inl rfl
  obtain ⟨hd1, hd2⟩ := modDsz_disp (cx := cx) (v := o.value) (full := 4) hm' hfix (fun hf => hnofix hf hnr)
  generalize (if b.no % 8 = 5 ∧ m.val = 0 then 1 else m.val) = m' at *
  have hmd : ci.md = m' := md_mul (by rw [← h]) (by rw [← h])
  have hpr : (ci.adrsiz && !ci.rip) = a := by rw [← h]; simp
  refine ⟨{ parts := [(b.no, 1)], dsz := modDsz 4 m', stack := decide (b.no = 4 ∨ b.no = 5) }, ?_⟩
  have hrex : b.no / 8 < 2 := by omega
  exact {
    wf := wf_mul ⟨m', hm'lt⟩ (by rw [← h]) (by rw [← h]; simp only; omega) (by rw [← h]; simp only; omega)
    rip := by rw [← h]; simp
    sib := by rw [hpr, hbits]; intro _ q; exact absurd q hb16
    form := by
      rw [form_of hmd (by rw [← h]) (by rw [← h]) (by rw [← h]) hpr, hbits, if_neg hb16]
      simp only [show (2 : Nat) ^ 3 = 8 from rfl, show b.no / 8 / 2 % 2 = 0 by omega, show b.no / 8 % 2 = b.no / 8 by omega]
      by_cases c : b.no % 8 = 4
      · simp only [c, if_true] at bf ⊢; rw [bf]
      · simp only [c, if_false] at bf ⊢; rw [bf]
    sum := by
      intro regs next
      rcases hc with e | e <;> simp [Form.partSum, Opnd.regSum, hb, hi, Reg.value, e]
    bits := by
      intro r hr
      rw [hpr, hbits]
      rcases hr with hr | hr
      · rw [hb] at hr; cases hr; rfl
      · rw [hi] at hr; exact absurd hr (by simp)
    bitsDir := by rw [hb]; intro q; exact absurd q (by simp)
    seg := by
      rw [← h]
      simp only
      refine usedSeg_override _ _ _ _ ?_
      intro hm64
      have e : b.cls = .r32 := by
        rcases hc with e | e
        · exact e
        · unfold Reg.ok at hbk; rw [e] at hbk; exact absurd hbk.1 hm64
      obtain ⟨cls, no⟩ := b
      simp only at e
      subst e
      simp only at hno ⊢
      interval_cases no <;> rfl
    field := by rw [hpr, hbits, if_neg hb16]; exact hd1
    disp := by rw [hpr, hbits, if_neg hb16]; exact hd2
    check := by
      intro _ _ q
      exact absurd (q b hb) hcr' }

theorem shl1_add (a b : Nat) : (a <<< 1) + b = 2 * a + b := by
  rw [Nat.shiftLeft_eq]; ring

/-- Index register only. -/
theorem good_idx {cx : Ctx} {o : Opnd} {ci : CI} {i : Reg} (hp : Pre cx o) (hb : o.base = none)
    (hi : o.idx = some i) {a : Bool} {s : Fin 4} (ha : adrSize cx.mode none (some i) = .ok a)
    (hc : i.cls = .r32 ∨ i.cls = .r64) (hi4 : i.no ≠ 4) (hs : max 1 o.scale = 2 ^ s.val)
    (h : setRmSib cx a (s.val * 64) (some i) none o.value = .ok ci) : ∃ f, Good cx o ci f := by
  have hik := hp.idx i hi
  have hno : i.no < 16 := by
    unfold Reg.ok at hik
    rcases hc with e | e <;> rw [e] at hik <;> simp at hik <;> omega
  have hbits := adrSize_idx hik (hp.ripIdx i hi) (fun q => hp.idx16 q i hi hb) ha
  have hb16 : i.bits ≠ 16 := by unfold Reg.bits; rcases hc with e | e <;> rw [e] <;> decide
  unfold setRmSib at h
  simp only [Nat.shiftRight_eq_div_pow, Except.ok.injEq] at h
  obtain ⟨bf, bf2⟩ := idx_form s ⟨i.no, hno⟩ hi4
  simp only at bf bf2
  have hmd : ci.md = 0 := md_mul (m := 0) (by rw [← h]) (by rw [← h])
  have hpr : (ci.adrsiz && !ci.rip) = a := by rw [← h]; simp
  have hrex : ci.rex = 2 * (i.no / 8) := by rw [← h]; simp only [Nat.shiftLeft_eq, pow_one]; exact Nat.mul_comm _ _
  refine ⟨{ parts := [(i.no, 2 ^ s.val)], dsz := 4 }, ?_⟩
  exact {
    wf := wf_mul 0 (by rw [← h]; rfl) (by rw [← h]; simp) (by rw [hrex]; omega)
    rip := by rw [← h]; simp
    sib := by rw [hpr, hbits]; intro _ q; exact absurd q hb16
    form := by
      rw [form_of hmd (by rw [← h]) (by rw [← h]) hrex hpr, hbits, if_neg hb16, if_pos rfl]
      rw [show 2 * (i.no / 8) / 2 % 2 = i.no / 8 by omega, show 2 * (i.no / 8) % 2 = 0 by omega, bf]
    sum := by
      intro regs next
      rcases hc with e | e <;> simp [Form.partSum, Opnd.regSum, hb, hi, hs, Reg.value, e]
    bits := by
      intro r hr
      rw [hpr, hbits]
      rcases hr with hr | hr
      · rw [hb] at hr; exact absurd hr (by simp)
      · rw [hi] at hr; cases hr; rfl
    bitsDir := by rw [hi]; intro _ q; exact absurd q (by simp)
    seg := by
      rw [← h]
      simp only
      refine usedSeg_override _ _ _ _ ?_
      intro hm64
      rfl
    field := by rw [hpr, hbits, if_neg hb16]; intro _; rfl
    disp := by rw [hpr, hbits, if_neg hb16]; intro _; exact Or.inr (Or.inr rfl)
    check := by
      intro _ _ _
      refine ⟨hmd, Or.inr ⟨by rw [← h], ?_⟩⟩
      rw [← h]; exact bf2 }

/-- Base and index register, 32 or 64 bits. -/
theorem good_both32 {cx : Ctx} {o : Opnd} {ci : CI} {i b : Reg} (hp : Pre cx o) (hb : o.base = some b)
    (hi : o.idx = some i) {a : Bool} {s : Fin 4} (ha : adrSize cx.mode (some b) (some i) = .ok a)
    (hc : i.cls = .r32 ∨ i.cls = .r64) (hi4 : i.no ≠ 4) (hs : max 1 o.scale = 2 ^ s.val)
    (h : setRmSib cx a (s.val * 64) (some i) (some b) o.value = .ok ci) : ∃ f, Good cx o ci f := by
  have hik := hp.idx i hi
  have hbk := hp.base b hb
  have hcr' : b.cls ≠ Cls.rip := by
    intro q; have := hp.ripBase b hb q; rw [hi] at this; exact absurd this (by simp)
  have hcr : (b.cls == Cls.rip) = false := by simpa using hcr'
  have hnr : isRip (some b) = false := by simp [isRip, hcr']
  unfold setRmSib at h
  have hsame : b.cls = i.cls := by
    by_contra hne
    have : sflagsSize b.cls &&& sflagsSize i.cls = 0 := by
      cases h1 : b.cls <;> cases h2 : i.cls <;> simp_all <;> decide
    simp [this] at h
  have hsz : ¬ (sflagsSize b.cls &&& sflagsSize i.cls = 0) := by
    rw [hsame]; rcases hc with e | e <;> rw [e] <;> decide
  have hno : i.no < 16 := by
    unfold Reg.ok at hik
    rcases hc with e | e <;> rw [e] at hik <;> simp at hik <;> omega
  have hbno : b.no < 16 := by
    unfold Reg.ok at hbk; rw [hsame] at hbk
    rcases hc with e | e <;> rw [e] at hbk <;> simp at hbk <;> omega
  have hbits := adrSize_idx hik (hp.ripIdx i hi) (fun _ => by rcases hc with e | e <;> rw [e] <;> decide) ha
  have hb16 : i.bits ≠ 16 := by unfold Reg.bits; rcases hc with e | e <;> rw [e] <;> decide
  have hn : ∀ n, i ≠ ⟨.r16, n⟩ := by rintro n rfl; rcases hc with e | e <;> simp at e
  have hn2 : ¬ (i = ⟨.r64, 4⟩ ∨ i.cls = .rip ∨ i = ⟨.r32, 4⟩) := by
    rintro (rfl | q | rfl)
    · exact hi4 rfl
    · rcases hc with e | e <;> rw [e] at q <;> exact absurd q (by decide)
    · exact hi4 rfl
  obtain ⟨m, hm, hfix, hnofix, -⟩ := modField_cases cx.fixup o.value (isRip (some b))
  simp only [hsz, hn, hn2, hcr', or_self, if_false, hm, Nat.shiftRight_eq_div_pow, hcr, Except.ok.injEq] at h
  have bf := both_form s m ⟨i.no, hno⟩ ⟨b.no, hbno⟩ hi4
  simp only at bf
  have hmul : (if b.no &&& 7 = 5 ∧ m.val * 64 = 0 ∧ b.cls ≠ .rip then 0x40 else m.val * 64)
      = (if b.no % 8 = 5 ∧ m.val = 0 then 1 else m.val) * 64 := by
    rw [and7]
    by_cases c : b.no % 8 = 5 ∧ m.val = 0
    · rw [if_pos c, if_pos ⟨c.1, by omega, hcr'⟩]
    · rw [if_neg c, if_neg (by rintro ⟨c1, c2, -⟩; exact c ⟨c1, by omega⟩)]
  rw [hmul] at h
  have hm'lt : (if b.no % 8 = 5 ∧ m.val = 0 then 1 else m.val) < 3 := by split <;> omega
  have hm' : (if b.no % 8 = 5 ∧ m.val = 0 then 1 else m.val) = m.val ∨
      (m.val = 0 ∧ (if b.no % 8 = 5 ∧ m.val = 0 then 1 else m.val) = 1) := by
    split
    · next c => exact Or.inr ⟨c.2, rfl⟩
    · exact Or.inl rfl
  obtain ⟨hd1, hd2⟩ := modDsz_disp (cx := cx) (v := o.value) (full := 4) hm' hfix (fun hf => hnofix hf hnr)
  generalize (if b.no % 8 = 5 ∧ m.val = 0 then 1 else m.val) = m' at *
  have hmd : ci.md = m' := md_mul (by rw [← h]) (by rw [← h])
  have hpr : (ci.adrsiz && !ci.rip) = a := by rw [← h]; simp
  have hrex : ci.rex = 2 * (i.no / 8) + b.no / 8 := by rw [← h]; simp only; rw [shl1_add]
  have hbb : b.bits = i.bits := by unfold Reg.bits; rw [hsame]
  refine ⟨{ parts := [(b.no, 1), (i.no, 2 ^ s.val)], dsz := modDsz 4 m', stack := decide (b.no = 4 ∨ b.no = 5) }, ?_⟩
  exact {
    wf := wf_mul ⟨m', hm'lt⟩ (by rw [← h]) (by rw [← h]; simp) (by rw [hrex]; omega)
    rip := by rw [← h]; simp
    sib := by rw [hpr, hbits]; intro _ q; exact absurd q hb16
    form := by
      rw [form_of hmd (by rw [← h]) (by rw [← h]) hrex hpr, hbits, if_neg hb16, if_pos rfl]
      rw [show (2 * (i.no / 8) + b.no / 8) / 2 % 2 = i.no / 8 by omega, show (2 * (i.no / 8) + b.no / 8) % 2 = b.no / 8 by omega, bf]
    sum := by
      intro regs next
      rcases hc with e | e <;> simp [Form.partSum, Opnd.regSum, hb, hi, hs, Reg.value, hsame, e]
    bits := by
      intro r hr
      rw [hpr, hbits]
      rcases hr with hr | hr
      · rw [hb] at hr; cases hr; exact hbb.symm
      · rw [hi] at hr; cases hr; rfl
    bitsDir := by rw [hi]; intro _ q; exact absurd q (by simp)
    seg := by
      rw [← h]
      simp only
      refine usedSeg_override _ _ _ _ ?_
      intro hm64
      have e : b.cls = .r32 := by
        rw [hsame]
        rcases hc with e | e
        · exact e
        · unfold Reg.ok at hik; rw [e] at hik; exact absurd hik.1 hm64
      obtain ⟨cls, no⟩ := b
      simp only at e
      subst e
      simp only at hbno ⊢
      interval_cases no <;> rfl
    field := by rw [hpr, hbits, if_neg hb16]; exact hd1
    disp := by rw [hpr, hbits, if_neg hb16]; exact hd2
    check := by
      intro _ _ q
      exact absurd (q b hb) hcr' }

/-- RIP. -/
theorem good_rip {cx : Ctx} {o : Opnd} {ci : CI} {b : Reg} (hp : Pre cx o) (hb : o.base = some b)
    (hc : b.cls = .rip) {a : Bool} {ss : Nat}
    (h : setRmSib cx a ss none (some b) o.value = .ok ci) : ∃ f, Good cx o ci f := by
  have hi := hp.ripBase b hb hc
  have hbk := hp.base b hb
  unfold Reg.ok at hbk
  rw [hc] at hbk
  obtain ⟨hm64, hno⟩ := hbk
  obtain ⟨cls, no⟩ := b
  simp only at hc hno
  subst hc hno
  unfold setRmSib at h
  simp only [reduceCtorEq, if_false, if_true, Reg.mk.injEq, false_and, Except.ok.injEq] at h
  simp at h
  obtain ⟨m, hm, hfix, hnofix, -⟩ := modField_cases cx.fixup o.value (isRip (some ⟨.rip, 16⟩))
  have hmd : ci.md = 0 := by rw [← h]; rfl
  have hpr : (ci.adrsiz && !ci.rip) = false := by rw [← h]; simp
  refine ⟨{ parts := [], rip := true, dsz := 4 }, ?_⟩
  exact {
    wf := wf_mul m (by rw [← h]; exact hm) (by rw [← h]; simp) (by rw [← h]; simp)
    rip := fun _ => hm64
    sib := by rw [hpr, hm64]; intro _ q; exact absurd q (by decide)
    form := by
      rw [form_of (rm := 5) (sib := 0) (rex := 0) hmd (by rw [← h]) (by rw [← h]) (by rw [← h]) hpr, hm64]
      decide
    sum := by
      intro regs next
      simp [Form.partSum, Opnd.regSum, hb, hi, Reg.value]
    bits := by
      intro r hr
      rw [hpr, hm64]
      rcases hr with hr | hr
      · rw [hb] at hr; cases hr; rfl
      · rw [hi] at hr; exact absurd hr (by simp)
    bitsDir := by rw [hb]; intro q; exact absurd q (by simp)
    seg := by
      rw [← h]
      simp only
      refine usedSeg_override _ _ _ _ ?_
      intro q
      exact absurd hm64 q
    field := by rw [hpr, hm64]; intro _; rfl
    disp := by rw [hpr, hm64]; intro _; exact Or.inr (Or.inr rfl)
    check := by
      intro _ _ q
      exact ⟨hmd, Or.inl (by rw [← h])⟩ }

theorem form16_base : ∀ (m : Fin 3),
    form16 m.val 4 = some { parts := [(6, 1)], dsz := modDsz 2 m.val } ∧
    form16 m.val 5 = some { parts := [(7, 1)], dsz := modDsz 2 m.val } ∧
    form16 m.val 7 = some { parts := [(3, 1)], dsz := modDsz 2 m.val } ∧
    form16 m.val 0 = some { parts := [(3, 1), (6, 1)], dsz := modDsz 2 m.val } ∧
    form16 m.val 1 = some { parts := [(3, 1), (7, 1)], dsz := modDsz 2 m.val } ∧
    form16 m.val 2 = some { parts := [(5, 1), (6, 1)], dsz := modDsz 2 m.val, stack := true } ∧
    form16 m.val 3 = some { parts := [(5, 1), (7, 1)], dsz := modDsz 2 m.val, stack := true } ∧
    form16 (if m.val = 0 then 1 else m.val) 6 =
      some { parts := [(5, 1)], dsz := modDsz 2 (if m.val = 0 then 1 else m.val), stack := true } := by decide +kernel

/-- Common part of the 16-bit cases. -/
theorem good16 {cx : Ctx} {o : Opnd} {ci : CI} {a : Bool} {m : Fin 3} {m' rm : Nat} {r : Option Reg} {f : Form}
    (hm' : m' = m.val ∨ (m.val = 0 ∧ m' = 1))
    (hci : ci = ⟨a, segOverride cx.seg r, m' * 64, rm, 0, 0, false⟩)
    (hfix : cx.fixup = true → m.val = 2)
    (hno : cx.fixup = false → (m.val = 0 → lo32 o.value = 0) ∧ (m.val = 1 → -128 ≤ lo32 o.value ∧ lo32 o.value ≤ 127))
    (ha : addrBits cx.mode a = 16)
    (hf : form16 m' rm = some f) (hrm : rm < 8) (hd : f.dsz = modDsz 2 m') (hsi : cx.mode = .u32 → rm ≠ 4)
    (hsum : ∀ regs next, f.partSum regs next = o.regSum regs next)
    (hbits : ∀ q, o.base = some q ∨ o.idx = some q → q.cls = .r16)
    (hb : o.base ≠ none)
    (hseg : stackReg r = f.stack) :
    Good cx o ci f := by
  obtain ⟨hd1, hd2⟩ := modDsz_disp (cx := cx) (v := o.value) (full := 2) hm' hfix hno
  have hm3 : m' < 3 := by have := m.isLt; omega
  subst hci
  exact {
    wf := wf_mul ⟨m', hm3⟩ rfl hrm (by simp)
    rip := by simp
    sib := by
      intro h4 h16
      cases hmo : cx.mode
      · rfl
      · exact absurd h4 (hsi hmo)
      · rw [hmo] at h16; cases a <;> simp [addrBits] at h16
    form := by
      rw [form_of (md := m') (md_mul rfl rfl) rfl rfl rfl (p := a) (by simp), ha, if_pos rfl, hf]
    sum := by intro regs next; rw [hsum]; simp [hb]
    bits := by
      intro q hq
      simp only [Bool.not_false, Bool.and_true, ha]
      have := hbits q hq
      unfold Reg.bits; rw [this]
    bitsDir := by intro q; exact absurd q hb
    seg := usedSeg_override _ _ _ _ (fun _ => hseg)
    field := by simp only [Bool.not_false, Bool.and_true, ha, if_true, hd]; exact hd1
    disp := by simp only [Bool.not_false, Bool.and_true, ha, if_true, hd]; exact hd2
    check := by
      intro hm64
      rw [hm64] at ha; cases a <;> simp [addrBits] at ha }

theorem good_base16 {cx : Ctx} {o : Opnd} {ci : CI} {b : Reg} (hp : Pre cx o) (hb : o.base = some b)
    (hi : o.idx = none) {a : Bool} {ss : Nat} (ha : adrSize cx.mode (some b) none = .ok a) (hc : b.cls = .r16)
    (h : setRmSib cx a ss none (some b) o.value = .ok ci) : ∃ f, Good cx o ci f := by
  have hbk := hp.base b hb
  have hnr : isRip (some b) = false := by simp [isRip, hc]
  obtain ⟨m, hm, hfix, hnofix, -⟩ := modField_cases cx.fixup o.value (isRip (some b))
  have hbits := adrSize_base hbk (by rw [hc]; decide) ha
  obtain ⟨cls, no⟩ := b
  simp only at hc
  subst hc
  have hsi := hp.si
  unfold Reg.ok at hbk
  simp only at hbk
  have hbits' : addrBits cx.mode a = 16 := hbits
  have hno := fun hf => hnofix hf hnr
  have hcls : ∀ q, o.base = some q ∨ o.idx = some q → q.cls = .r16 := by
    intro q hq; rw [hb, hi] at hq; rcases hq with hq | hq
    · cases hq; rfl
    · exact absurd hq (by simp)
  unfold setRmSib at h
  simp only [hm] at h
  obtain ⟨f4, f5, f7, -, -, -, -, f6⟩ := form16_base m
  rcases hbk with rfl | rfl | rfl | rfl
  · simp at h
    exact ⟨_, good16 (Or.inl rfl) h.symm hfix hno hbits' f7 (by decide) rfl (by simp)
      (by intro regs next; simp [Form.partSum, Opnd.regSum, hb, hi, Reg.value]) hcls (by simp [hb]) rfl⟩
  · simp at h
    have e : (if m = 0 then 64 else m.val * 64) = (if m.val = 0 then 1 else m.val) * 64 := by
      have : m = 0 ↔ m.val = 0 := by constructor <;> intro q <;> [rw [q]; exact Fin.ext q]; rfl
      simp only [this]; split <;> simp [*]
    rw [e] at h
    refine ⟨_, good16 (m := m) ?_ h.symm hfix hno hbits' f6 (by decide) rfl (by simp)
      (by intro regs next; simp [Form.partSum, Opnd.regSum, hb, hi, Reg.value]) hcls (by simp [hb]) rfl⟩
    split
    · next q => exact Or.inr ⟨q, rfl⟩
    · exact Or.inl rfl
  · simp at h
    exact ⟨_, good16 (Or.inl rfl) h.symm hfix hno hbits' f4 (by decide) rfl
      (fun q => absurd hi (hsi q hb))
      (by intro regs next; simp [Form.partSum, Opnd.regSum, hb, hi, Reg.value]) hcls (by simp [hb]) rfl⟩
  · simp at h
    exact ⟨_, good16 (Or.inl rfl) h.symm hfix hno hbits' f5 (by decide) rfl (by simp)
      (by intro regs next; simp [Form.partSum, Opnd.regSum, hb, hi, Reg.value]) hcls (by simp [hb]) rfl⟩

theorem good_both16 {cx : Ctx} {o : Opnd} {ci : CI} {i b : Reg} (hp : Pre cx o) (hb : o.base = some b)
    (hi : o.idx = some i) {a : Bool} {ss : Nat} (ha : adrSize cx.mode (some b) (some i) = .ok a)
    (hc : i.cls = .r16) (hs : o.scale = 0)
    (h : setRmSib cx a ss (some i) (some b) o.value = .ok ci) : ∃ f, Good cx o ci f := by
  have hik := hp.idx i hi
  have hbk := hp.base b hb
  have hbits := adrSize_idx hik (hp.ripIdx i hi) (both_not16 ha h) ha
  have hcr' : b.cls ≠ Cls.rip := by
    intro q; have := hp.ripBase b hb q; rw [hi] at this; exact absurd this (by simp)
  have hnr : isRip (some b) = false := by simp [isRip, hcr']
  obtain ⟨m, hm, hfix, hnofix, -⟩ := modField_cases cx.fixup o.value (isRip (some b))
  have hno := fun hf => hnofix hf hnr
  unfold setRmSib at h
  have hsame : b.cls = .r16 := by
    by_contra hne
    have : sflagsSize b.cls &&& sflagsSize i.cls = 0 := by
      cases h1 : b.cls <;> simp_all <;> decide
    simp [this] at h
  have hcls : ∀ q, o.base = some q ∨ o.idx = some q → q.cls = .r16 := by
    intro q hq; rw [hb, hi] at hq; rcases hq with hq | hq
    · cases hq; exact hsame
    · cases hq; exact hc
  obtain ⟨icls, ino⟩ := i
  obtain ⟨bcls, bno⟩ := b
  simp only at hc hsame
  subst hc hsame
  unfold Reg.ok at hik hbk
  simp only at hik hbk
  have hbits' : addrBits cx.mode a = 16 := hbits
  simp only [hm] at h
  obtain ⟨-, -, -, f0, f1, f2, f3, -⟩ := form16_base m
  rcases hik with rfl | rfl | rfl | rfl <;> rcases hbk with rfl | rfl | rfl | rfl <;>
    simp [compMem16, sflagsSize, bind, Except.bind] at h
  all_goals
    first
    | exact ⟨_, good16 (Or.inl rfl) h.symm hfix hno hbits' f0 (by decide) rfl (by simp)
        (by intro regs next; simp [Form.partSum, Opnd.regSum, hb, hi, Reg.value, hs]; try omega) hcls (by simp [hb]) rfl⟩
    | exact ⟨_, good16 (Or.inl rfl) h.symm hfix hno hbits' f1 (by decide) rfl (by simp)
        (by intro regs next; simp [Form.partSum, Opnd.regSum, hb, hi, Reg.value, hs]; try omega) hcls (by simp [hb]) rfl⟩
    | exact ⟨_, good16 (Or.inl rfl) h.symm hfix hno hbits' f2 (by decide) rfl (by simp)
        (by intro regs next; simp [Form.partSum, Opnd.regSum, hb, hi, Reg.value, hs]; try omega) hcls (by simp [hb]) rfl⟩
    | exact ⟨_, good16 (Or.inl rfl) h.symm hfix hno hbits' f3 (by decide) rfl (by simp)
        (by intro regs next; simp [Form.partSum, Opnd.regSum, hb, hi, Reg.value, hs]; try omega) hcls (by simp [hb]) rfl⟩

theorem scale_cases {cx : Ctx} {a : Bool} {i : Reg} {scale ss : Nat} (h : scaleFactor cx a (some i) scale = .ok ss) :
    i.no ≠ 4 ∧ ((∃ s : Fin 4, ss = s.val * 64 ∧ max 1 scale = 2 ^ s.val) ) ∧
    (addrBits cx.mode a = 16 → scale = 0) := by
  unfold scaleFactor at h
  simp only at h
  split at h
  · split at h <;> exact absurd h (by simp)
  next h4 =>
  refine ⟨h4, ?_⟩
  split at h
  · next hc =>
    have h16 : addrBits cx.mode a = 16 → scale = 0 := by
      intro q
      rcases hc with ⟨e1, e2⟩ | e1 | ⟨e1, e2⟩
      · rw [e1, e2] at q; exact absurd q (by decide)
      · rw [e1] at q; cases a <;> exact absurd q (by decide)
      · rw [e1, e2] at q; exact absurd q (by decide)
    refine ⟨?_, h16⟩
    split at h
    · split at h
      · cases h; exact ⟨0, rfl, rfl⟩
      · cases h; exact ⟨0, rfl, rfl⟩
      · cases h; exact ⟨1, rfl, rfl⟩
      · cases h; exact ⟨2, rfl, rfl⟩
      · cases h; exact ⟨3, rfl, rfl⟩
      · exact absurd h (by simp)
    · exact absurd h (by simp)
  · split at h
    · exact absurd h (by simp)
    · next q =>
      have : scale = 0 := by omega
      cases h
      subst this
      exact ⟨⟨0, rfl, rfl⟩, fun _ => rfl⟩

/-- memory_operand always chooses a form that stands for the operand. -/
theorem memoryOperand_good {cx : Ctx} {o : Opnd} {ci : CI} (hp : Pre cx o) (h : memoryOperand cx o = .ok ci) :
    ∃ f, Good cx o ci f := by
  unfold memoryOperand at h
  split at h
  · exact absurd h (by simp)
  simp only [bind, Except.bind] at h
  split at h
  · exact absurd h (by simp)
  rename_i a ha
  split at h
  · exact absurd h (by simp)
  rename_i ss hss
  rcases hb : o.base with _ | b <;> rcases hi : o.idx with _ | i <;> rw [hb, hi] at h ha
  · exact good_direct hp hb hi h
  · rw [hi] at hss
    obtain ⟨h4, ⟨s, rfl, hs⟩, h16⟩ := scale_cases hss
    have hik := hp.idx i hi
    have hr := hp.ripIdx i hi
    have hbits := adrSize_idx hik hr (fun q => hp.idx16 q i hi hb) ha
    cases hc : i.cls
    · -- `[si*2]` is refused; an index without a base has a scale
      have e := h16 (by rw [hbits]; unfold Reg.bits; rw [hc])
      exact absurd e (by have := hp.scaleIdx i hi hb; exact this)
    · exact good_idx hp hb hi ha (Or.inl hc) h4 hs h
    · exact good_idx hp hb hi ha (Or.inr hc) h4 hs h
    · exact absurd hc hr
  · cases hc : b.cls
    · exact good_base16 hp hb hi ha hc h
    · exact good_base32 hp hb hi ha (Or.inl hc) h
    · exact good_base32 hp hb hi ha (Or.inr hc) h
    · exact good_rip hp hb hc h
  · rw [hi] at hss
    obtain ⟨h4, ⟨s, rfl, hs⟩, h16⟩ := scale_cases hss
    have hik := hp.idx i hi
    have hr := hp.ripIdx i hi
    have hbits := adrSize_idx hik hr (both_not16 ha h) ha
    cases hc : i.cls
    · exact good_both16 hp hb hi ha hc (h16 (by rw [hbits]; unfold Reg.bits; rw [hc])) h
    · exact good_both32 hp hb hi ha (Or.inl hc) h4 hs h
    · exact good_both32 hp hb hi ha (Or.inr hc) h4 hs h
    · exact absurd hc hr

end Verif.ModRM
