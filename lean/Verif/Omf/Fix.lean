import Verif.Omf.Read
/-! # FIXUPP subrecords and LEDATA buffering -/
namespace Verif.Omf

theorem fixdata : ∀ (f t : Fin 8), (BitVec.ofNat 8 (f.1 <<< 4 ||| t.1)).toNat = 16 * f.1 + t.1 := by decide
theorem or4 : ∀ t : Fin 8, t.1 ||| 4 = t.1 % 4 + 4 := by decide
theorem and4 : ∀ t : Fin 8, t.1 &&& 4 = 0 ↔ t.1 < 4 := by decide

theorem rdRef_translate (lr : LogRef) (ms : Bool) (t : List Byte) (hf : lr.frame < 8) (ht : lr.target < 8)
    (hfd : lr.frame ≤ 2 → idxOk lr.frameDatum) (htd : idxOk lr.targetDatum) (ho : ofsOk ms lr.targetOffset)
    (hz : lr.target < 4 ∨ lr.targetOffset = 0#32) :
    rdRef ms (translateLogref lr ms ++ t) =
      some (⟨lr.frame, if lr.frame ≤ 2 then some lr.frameDatum.toNat else none, lr.target % 4, lr.targetDatum.toNat,
        lr.targetOffset.toNat⟩, t) := by
  obtain ⟨frame, fd, sec, target, td, ofs⟩ := lr
  simp only at hf ht hfd htd ho hz
  have h4 := or4 ⟨target, ht⟩
  have key : ∀ T : Nat, T < 8 → T % 4 = target % 4 → (4 ≤ T → ofs = 0#32) →
      rdRef ms (([BitVec.ofNat 8 (frame <<< 4 ||| T)] ++ (if frame ≤ 2 then idxBytes fd else []) ++ idxBytes td
        ++ (if T &&& 4 = 0 then
          (if ms then le32 ofs else [lo (ofs.truncate 16), hi (ofs.truncate 16)]) else [])) ++ t) =
      some (⟨frame, if frame ≤ 2 then some fd.toNat else none, target % 4, td.toNat, ofs.toNat⟩, t) := by
    intro T hT hT4 hz
    have hd := fixdata ⟨frame, hf⟩ ⟨T, hT⟩
    have ha := and4 ⟨T, hT⟩
    simp only at hd ha
    simp only [List.append_assoc, List.cons_append, List.nil_append, rdRef, rdByte, bind, Option.bind, hd]
    rw [if_neg (by omega)]
    have e1 : (16 * frame + T) / 16 % 8 = frame := by omega
    have e2 : (16 * frame + T) % 4 = target % 4 := by omega
    simp only [e1, e2, ha]
    by_cases hfr : frame ≤ 2
    · simp only [hfr, if_true, rdIndex_idxBytes _ _ (hfd hfr), pure, rdIndex_idxBytes _ _ htd]
      by_cases hT3 : T < 4
      · simp only [hT3, if_true]
        rw [if_neg (by omega)]
        have := rdOfs_ofsBytes ms ofs t ho
        simp only [ofsBytes, wordBytes] at this
        simp only [this]
      · rw [if_pos (by omega), if_neg hT3]
        simp [hz (by omega)]
    · simp only [hfr, if_false, pure, rdIndex_idxBytes _ _ htd, List.nil_append]
      by_cases hT3 : T < 4
      · simp only [hT3, if_true]
        rw [if_neg (by omega)]
        have := rdOfs_ofsBytes ms ofs t ho
        simp only [ofsBytes, wordBytes] at this
        simp only [this]
      · rw [if_pos (by omega), if_neg hT3]
        simp [hz (by omega)]
  unfold translateLogref
  simp only
  by_cases hs : ofs = 0#32 ∧ sec = true
  · simp only [hs, and_self, if_true]
    simp only at h4
    have := key (target ||| 4) (by omega) (by omega) (fun _ => hs.1)
    rw [hs.1] at this
    simpa using this
  · rw [if_neg hs]
    exact key target ht rfl (by intro h; rcases hz with hz | hz; omega; exact hz)

theorem translate_len (lr : LogRef) (ms : Bool) : (translateLogref lr ms).length ≤ 9 := by
  have := idxBytes_len lr.frameDatum
  have := idxBytes_len lr.targetDatum
  unfold translateLogref
  simp only [List.length_append]
  have h1 : (if lr.frame ≤ 2 then idxBytes lr.frameDatum else []).length ≤ 2 := by split <;> simp_all
  have h2 : ∀ c : Prop, [Decidable c] → (if c then (if ms = true then le32 lr.targetOffset
      else [lo (lr.targetOffset.truncate 16), hi (lr.targetOffset.truncate 16)]) else []).length ≤ 4 := by
    intro c _; split
    · split <;> simp [le32]
    · simp
  simp only [List.length_singleton]
  have := h2 ((if lr.targetOffset = 0#32 ∧ lr.secondary = true then lr.target ||| 4 else lr.target) &&& 4 = 0)
  omega

theorem locat : ∀ (l : Fin 16) (o : Fin 4) (s : Bool),
    ((BitVec.ofNat 8 (l.1 <<< 2) ||| (if s then 0x80#8 else 0xc0#8)) ||| BitVec.ofNat 8 o.1).toNat =
      128 + (if s then 0 else 64) + 4 * l.1 + o.1 := by decide

theorem fixGenFix_read (f : Fixup) (start : Nat) (ms : Bool) (t : List Byte) (loc : Nat) (sr : Bool) (lr : LogRef)
    (hl : locOf f = some (loc, sr)) (hlr : fillLogref f = some lr) (hloc : loc < 16)
    (h1 : start ≤ f.locofs) (h2 : f.locofs < start + 1024) (h3 : f.locofs < 2 ^ 32)
    (hf : lr.frame < 8) (ht : lr.target < 8) (hfd : lr.frame ≤ 2 → idxOk lr.frameDatum) (htd : idxOk lr.targetDatum)
    (hz : lr.targetOffset = 0#32) :
    rdFix ms (fixGenFix f start ms ++ t) =
      some (⟨sr, loc, f.locofs - start, ⟨lr.frame, if lr.frame ≤ 2 then some lr.frameDatum.toNat else none,
        lr.target % 4, lr.targetDatum.toNat, 0⟩⟩, t) := by
  have hofs : (BitVec.ofNat 32 f.locofs - BitVec.ofNat 32 start).toNat = f.locofs - start := by
    simp only [BitVec.toNat_sub, BitVec.toNat_ofNat]; omega
  unfold fixGenFix
  simp only [hl, hlr, List.cons_append, List.nil_append]
  have e1 : ((BitVec.ofNat 32 f.locofs - BitVec.ofNat 32 start) >>> 8).truncate 8 = BitVec.ofNat 8 ((f.locofs - start) / 256) := by
    apply BitVec.eq_of_toNat_eq
    simp [hofs, Nat.shiftRight_eq_div_pow]
  have e2 : ((BitVec.ofNat 32 f.locofs - BitVec.ofNat 32 start).truncate 8).toNat = (f.locofs - start) % 256 := by
    simp [hofs]
  have hlo := locat ⟨loc, hloc⟩ ⟨(f.locofs - start) / 256, by omega⟩ sr
  simp only at hlo
  rw [e1]
  simp only [rdFix, hlo, e2]
  rw [if_neg (by omega), rdRef_translate lr ms t hf ht hfd htd (by right; simp [hz]) (Or.inr hz)]
  simp only [bind, Option.bind, pure, hz, Option.some.injEq, Prod.mk.injEq, FixRec.mk.injEq, and_true]
  refine ⟨?_, ?_, ?_, by simp⟩
  · cases sr <;> simp <;> omega
  · cases sr <;> simp <;> omega
  · cases sr <;> simp <;> omega

theorem fixGenFix_len (f : Fixup) (start : Nat) (ms : Bool) : (fixGenFix f start ms).length ≤ 11 := by
  unfold fixGenFix
  split
  · simp
  · split
    · simp
    · have := translate_len (by assumption) ms
      simp at *; omega

/-- The methods chosen by `fillLogref` in terms of the request. -/
theorem fill_spec (f : Fixup) (lr : LogRef) (tg : Item) (hft : f.frameType ≤ 6)
    (hw : f.wantTarget = some tg) (h : fillLogref f = some lr) :
    lr.target % 4 = tg.1 ∧ lr.targetDatum.toNat = tg.2 ∧ lr.target < 8 ∧ lr.frame < 8 ∧ lr.targetOffset = 0#32 := by
  obtain ⟨ty, ldr, ft, fd, locofs, sym⟩ := f
  simp only [Fixup.wantTarget] at hw
  simp only [fillLogref] at h
  simp only at hft
  rcases sym with _ | (_ | i | i | ⟨i, g⟩ | _ | _ | i | i)
  · simp only at hw h
    split at hw
    · split at h
      · omega
      · cases hw; cases h; simp; omega
    · cases hw
  all_goals simp only at hw h
  · cases hw
  · cases hw
    split at h <;> cases h <;> simp <;> split <;> omega
  · cases hw
    split at h <;> cases h <;> simp <;> split <;> omega
  · cases hw; cases h; simp; split <;> split <;> omega
  · cases hw; cases h
    simp only
    repeat' split
    all_goals (simp; try omega)
  · cases hw
  · cases hw; cases h; simp
  · cases hw; cases h; simp; repeat' split
    all_goals omega

/-- The frame a linker sees, in terms of the request. -/
theorem fill_frame (f : Fixup) (lr : LogRef) (tg : Item) (hft : f.frameType ∈ [0, 1, 2, 5, 6])
    (hw : f.wantTarget = some tg) (h : fillLogref f = some lr) :
    let r : Ref := ⟨lr.frame, if lr.frame ≤ 2 then some lr.frameDatum.toNat else none, lr.target % 4, lr.targetDatum.toNat, 0⟩
    r.frameItem = some (match f.wantFrame with
      | some (m, d) => if m = tg.1 then tg else (m, d)
      | none => tg) := by
  obtain ⟨ty, ldr, ft, fd, locofs, sym⟩ := f
  simp only [Fixup.wantTarget] at hw
  simp only [fillLogref] at h
  simp only [List.mem_cons, List.not_mem_nil, or_false] at hft
  rcases sym with _ | (_ | i | i | ⟨i, g⟩ | _ | _ | i | i)
  · simp only at hw h
    split at hw
    · split at h
      · omega
      · cases hw; cases h; simp [Ref.frameItem, Fixup.wantFrame]
        repeat' split
        all_goals first | omega | simp_all | rfl
        all_goals omega
    · cases hw
  all_goals simp only at hw h
  · cases hw
  all_goals cases hw
  all_goals rcases hft with rfl | rfl | rfl | rfl | rfl
  all_goals simp at h
  all_goals subst h
  all_goals simp [Ref.frameItem, Fixup.wantFrame]
  all_goals split <;> simp_all

theorem fillLogref_some (f : Fixup) (tg : Item) (hw : f.wantTarget = some tg) : ∃ lr, fillLogref f = some lr := by
  obtain ⟨ty, ldr, ft, fd, locofs, sym⟩ := f
  simp only [Fixup.wantTarget] at hw
  simp only [fillLogref]
  rcases sym with _ | (_ | i | i | ⟨i, g⟩ | _ | _ | i | i)
  · simp only at hw ⊢
    split at hw
    · rw [if_neg (by omega)]; exact ⟨_, rfl⟩
    · cases hw
  all_goals simp only at hw ⊢
  all_goals first | (cases hw; done) | exact ⟨_, rfl⟩ | (split <;> exact ⟨_, rfl⟩)

theorem locOf_meaning (f : Fixup) (p : Part) (n : Nat) (ldr sr : Bool)
    (h : f.type.meaning f.loaderResolved = some (p, n, ldr, sr)) :
    ∃ loc, locOf f = some (loc, sr) ∧ locMeaning loc = some (p, n, ldr) ∧ loc < 16 := by
  obtain ⟨ty, l, ft, fd, locofs, sym⟩ := f
  cases ty <;> cases l <;> simp_all [FixType.meaning, locOf] <;> (obtain ⟨rfl, rfl, rfl, rfl⟩ := h; decide)

/-- Indices in range. -/
def Fixup.idxOk (f : Fixup) : Prop :=
  f.frameDatum.toNat ≤ 0x7fff ∧
  match f.sym with
  | some (.grp i) | some (.seg i) | some (.comdat i) | some (.label i) => i.toNat ≤ 0x7fff
  | some (.ext i g) => i.toNat ≤ 0x7fff ∧ g.toNat ≤ 0x7fff
  | _ => True

theorem fill_idx (f : Fixup) (lr : LogRef) (h : fillLogref f = some lr) (hi : f.idxOk) :
    Omf.idxOk lr.frameDatum ∧ Omf.idxOk lr.targetDatum := by
  obtain ⟨ty, ldr, ft, fd, locofs, sym⟩ := f
  simp only [Fixup.idxOk] at hi
  simp only [fillLogref] at h
  rcases sym with _ | (_ | i | i | ⟨i, g⟩ | _ | _ | i | i)
  all_goals simp only at hi h
  all_goals try split at h
  all_goals cases h
  all_goals (try simp only [Omf.idxOk])
  all_goals simp_all
  all_goals (try split)
  all_goals simp_all

/-! ### Splitting into FIXUPP records -/

theorem chunk_spec (is32 : Bool) (st : Nat) (fs : List Fixup) (acc : List Byte) (ha : acc.length ≤ 1020) :
    ∃ pre, fs = pre ++ (fixuppChunk is32 st fs acc).2 ∧
      (fixuppChunk is32 st fs acc).1 = acc ++ (pre.filter (·.type.is32 == is32)).flatMap (fixGenFix · st is32) ∧
      (fixuppChunk is32 st fs acc).1.length ≤ 1020 := by
  induction fs generalizing acc with
  | nil => exact ⟨[], by simp [fixuppChunk], by simp [fixuppChunk], by simpa [fixuppChunk] using ha⟩
  | cons f fs ih =>
    unfold fixuppChunk
    split
    · rename_i hne
      obtain ⟨pre, h1, h2, h3⟩ := ih acc ha
      refine ⟨f :: pre, by simp [← h1], ?_, h3⟩
      rw [h2, List.filter_cons_of_neg (by simpa using hne)]
    · rename_i he
      split
      · exact ⟨[], by simp, by simp, ha⟩
      · have := fixGenFix_len f st is32
        obtain ⟨pre, h1, h2, h3⟩ := ih (acc ++ fixGenFix f st is32) (by simp; omega)
        refine ⟨f :: pre, by simp [← h1], ?_, h3⟩
        rw [h2, List.filter_cons_of_pos (by simpa using he)]
        simp

/-- The first chunk always consumes something. -/
theorem chunk_progress (is32 : Bool) (st : Nat) (f : Fixup) (fs : List Fixup) :
    (fixuppChunk is32 st (f :: fs) []).2.length ≤ fs.length := by
  unfold fixuppChunk
  split
  · obtain ⟨pre, h1, _⟩ := chunk_spec is32 st fs [] (by simp)
    have := congrArg List.length h1
    simp at this; omega
  · have := fixGenFix_len f st is32
    rw [if_neg (by simp)]
    obtain ⟨pre, h1, _⟩ := chunk_spec is32 st fs ([] ++ fixGenFix f st is32) (by simp; omega)
    have := congrArg List.length h1
    simp at this ⊢; omega

theorem writeFixupp_spec (is32 : Bool) (st : Nat) (n : Nat) (fs : List Fixup) (hn : fs.length ≤ n) :
    ∃ groups : List (List Fixup), groups.flatten = fs ∧
      writeFixupp is32 st n fs =
        (groups.map fun g => (g.filter (·.type.is32 == is32)).flatMap (fixGenFix · st is32)).filter (· ≠ []) ∧
      (∀ d ∈ writeFixupp is32 st n fs, d.length ≤ 1020) := by
  induction n generalizing fs with
  | zero =>
    have : fs = [] := List.length_eq_zero_iff.mp (by omega)
    exact ⟨[], by simp [this], by simp [writeFixupp], by simp [writeFixupp]⟩
  | succ n ih =>
    unfold writeFixupp
    split
    · rename_i h; exact ⟨[], by simp [h], by simp, by simp⟩
    · rename_i h
      obtain ⟨f, t, rfl⟩ := List.exists_cons_of_ne_nil h
      have hp := chunk_progress is32 st f t
      obtain ⟨pre, h1, h2, h3⟩ := chunk_spec is32 st (f :: t) [] (by simp)
      generalize hc : fixuppChunk is32 st (f :: t) [] = c at *
      obtain ⟨acc, rest⟩ := c
      simp only at *
      obtain ⟨gs, g1, g2, g3⟩ := ih rest (by simp at hn; omega)
      refine ⟨pre :: gs, by simp [g1, ← h1], ?_, ?_⟩
      · rw [g2]
        simp only [List.nil_append] at h2
        by_cases ha : acc = []
        · simp [← h2, ha]
        · simp [← h2, ha]
      · intro d hd
        simp only [List.mem_append] at hd
        rcases hd with hd | hd
        · split at hd
          · simp at hd
          · simp at hd; subst hd; exact h3
        · exact g3 d hd

/-! ### LEDATA buffering -/

structure Inv (s : Seg) (mem : Nat → Option Byte) (fx : List Fixup) : Prop where
  le : s.start ≤ s.cur
  len : s.buf.length = s.cur - s.start
  small : s.cur - s.start ≤ 1014
  recs : ∀ r ∈ s.recs, 0 < r.2.length ∧ r.2.length ≤ 1014
  fixes : ∀ f ∈ s.fixes, s.start ≤ f.locofs ∧ f.locofs < s.cur
  fixRecs : ∀ p ∈ s.fixRecs, ∃ d, (p.1, d) ∈ s.recs ∧ ∀ f ∈ p.2, p.1 ≤ f.locofs ∧ f.locofs < p.1 + d.length
  mem : image (s.recs ++ [(s.start, s.buf)]) = mem
  allfx : s.fixRecs.flatMap (·.2) ++ s.fixes = fx

theorem image_snoc (l : List (Nat × List Byte)) (r : Nat × List Byte) (a : Nat) :
    image (l ++ [r]) a = if r.1 ≤ a ∧ a < r.1 + r.2.length then r.2[a - r.1]? else image l a := by
  simp [image]

theorem image_empty (l : List (Nat × List Byte)) (n : Nat) : image (l ++ [(n, [])]) = image l := by
  funext a; rw [image_snoc, if_neg (by simp)]

theorem flush_inv (s : Seg) (mem fx) (h : Inv s mem fx) :
    Inv (flush s) mem fx ∧ (flush s).start = s.cur ∧ (flush s).cur = s.cur ∧ (flush s).buf = [] ∧ (flush s).fixes = [] ∧
      image (flush s).recs = mem := by
  unfold flush
  split
  · rename_i hgt
    refine ⟨⟨by simp, by simp, by simp, ?_, by simp, ?_, ?_, ?_⟩, rfl, rfl, rfl, rfl, h.mem⟩
    · intro r hr
      simp only [List.mem_append, List.mem_singleton] at hr
      rcases hr with hr | rfl
      · exact h.recs r hr
      · have := h.len; have := h.small
        simp only; omega
    · intro p hp
      simp only at hp ⊢
      have old : ∀ p ∈ s.fixRecs, ∃ d, (p.1, d) ∈ s.recs ++ [(s.start, s.buf)] ∧ ∀ f ∈ p.2, p.1 ≤ f.locofs ∧ f.locofs < p.1 + d.length := by
        intro p hp
        obtain ⟨d, hd1, hd2⟩ := h.fixRecs p hp
        exact ⟨d, by simp [hd1], hd2⟩
      split at hp
      · exact old p hp
      · simp only [List.mem_append, List.mem_singleton] at hp
        rcases hp with hp | rfl
        · exact old p hp
        · refine ⟨s.buf, by simp, ?_⟩
          intro f hf
          have := h.fixes f hf
          have := h.len
          simp only; omega
    · simp only; rw [image_empty, h.mem]
    · simp only [List.append_nil]
      rw [← h.allfx]
      split
      · rename_i he; simp [he]
      · simp
  · rename_i hle
    have heq : s.cur = s.start := by have := h.le; omega
    have hb : s.buf = [] := by
      apply List.length_eq_zero_iff.mp; rw [h.len]; omega
    have hfx : s.fixes = [] := by
      rcases hf : s.fixes with _ | ⟨f, t⟩
      · rfl
      · have := h.fixes f (by simp [hf]); omega
    have hm := h.mem
    rw [hb, image_empty] at hm
    refine ⟨⟨by simp, by simp, by simp, h.recs, by simp [hfx], h.fixRecs, ?_, h.allfx⟩, rfl, rfl, rfl, hfx, hm⟩
    simp only; rw [image_empty, hm]

theorem store_inv (s : Seg) (mem fx) (bs : List Byte) (f : Option Fixup) (h : Inv s mem fx)
    (hs : s.cur - s.start + bs.length ≤ 1014) (hf : ∀ x ∈ f, s.cur ≤ x.locofs ∧ x.locofs < s.cur + bs.length) :
    ∃ s', store { s with fixes := s.fixes ++ f.toList } bs = .ok s' ∧ s'.cur = s.cur + bs.length ∧
      Inv s' (Emitted.bytes ⟨s.cur, mem⟩ bs).mem (fx ++ f.toList) := by
  unfold store
  rw [if_neg (by simp only; omega)]
  refine ⟨_, rfl, rfl, ?_⟩
  have hle := h.le
  have hlen := h.len
  constructor
  · simp only; omega
  · simp only [List.length_append]; omega
  · simp only; omega
  · exact h.recs
  · intro x hx
    simp only [List.mem_append] at hx ⊢
    rcases hx with hx | hx
    · have := h.fixes x hx; omega
    · have := hf x (by simpa using hx); omega
  · exact h.fixRecs
  · funext a
    have hm := congrFun h.mem a
    simp only [image_snoc, Emitted.bytes, List.length_append] at hm ⊢
    by_cases h1 : s.cur ≤ a ∧ a < s.cur + bs.length
    · rw [if_pos h1, if_pos (by omega), List.getElem?_append_right (by omega)]
      congr 1; omega
    · rw [if_neg h1, ← hm]
      by_cases h2 : s.start ≤ a ∧ a < s.start + s.buf.length
      · rw [if_pos h2, if_pos (by omega), List.getElem?_append_left (by omega)]
      · rw [if_neg h2, if_neg (by omega)]
  · simp only; rw [← h.allfx]; simp

theorem run_inv (ops : List Op) (s : Seg) (mem fx) (h : Inv s mem fx) (hok : OpsOk s.cur ops) :
    ∃ s', s.run ops = .ok s' ∧ s'.cur = (ops.foldl Emitted.step ⟨s.cur, mem⟩).pos ∧
      Inv s' (ops.foldl Emitted.step ⟨s.cur, mem⟩).mem (fx ++ opFixups ops) := by
  induction ops generalizing s mem fx with
  | nil => exact ⟨s, rfl, rfl, by simpa [opFixups] using h⟩
  | cons op ops ih =>
    have step : ∀ s1 (e : Emitted) (x : List Fixup), s.step op = .ok s1 → Emitted.step ⟨s.cur, mem⟩ op = e → s1.cur = e.pos →
        Inv s1 e.mem (fx ++ x) → opFixups (op :: ops) = x ++ opFixups ops → OpsOk s1.cur ops →
        ∃ s', s.run (op :: ops) = .ok s' ∧ s'.cur = ((op :: ops).foldl Emitted.step ⟨s.cur, mem⟩).pos ∧
          Inv s' ((op :: ops).foldl Emitted.step ⟨s.cur, mem⟩).mem (fx ++ opFixups (op :: ops)) := by
      intro s1 e x h1 h2 h3 h4 h5 h6
      obtain ⟨s', r1, r2, r3⟩ := ih s1 e.mem (fx ++ x) h4 h6
      refine ⟨s', ?_, ?_, ?_⟩
      · simp only [Seg.run, List.foldlM_cons, h1, bind, Except.bind]; exact r1
      · simp only [List.foldl_cons, h2]; rw [h3] at r2; exact r2
      · simp only [List.foldl_cons, h2]; rw [h3] at r3; rw [h5, ← List.append_assoc]; exact r3
    cases op with
    | byte b =>
      simp only [OpsOk] at hok
      have hfl := flush_inv s mem fx h
      have : ∃ s0, (if s.cur - s.start ≥ ledataMax then flush s else s) = s0 ∧ Inv s0 mem fx ∧ s0.cur = s.cur ∧
          s0.cur - s0.start + 1 ≤ 1014 := by
        split
        · exact ⟨_, rfl, hfl.1, hfl.2.2.1, by rw [hfl.2.1, hfl.2.2.1]; omega⟩
        · rename_i hh; exact ⟨_, rfl, h, rfl, by simp [ledataMax] at hh; omega⟩
      obtain ⟨s0, e0, i0, c0, l0⟩ := this
      obtain ⟨s1, hs1, hc1, hi1⟩ := store_inv s0 mem fx [b] none i0 (by simpa using l0) (by simp)
      simp only [Option.toList_none, List.append_nil] at hs1 hi1
      refine step s1 _ [] ?_ rfl ?_ ?_ rfl ?_
      · simp only [Seg.step, outputByte, e0]; exact hs1
      · simp [Emitted.step, Emitted.bytes, hc1, c0]
      · simp only [Emitted.step, List.append_nil]; rw [← c0]; exact hi1
      · rw [hc1, c0]; exact hok
    | bytes bs f =>
      simp only [OpsOk] at hok
      obtain ⟨k1, k2, k3, k4⟩ := hok
      have hfl := flush_inv s mem fx h
      have : ∃ s0, (if s.cur - s.start + bs.length > ledataMax then flush s else s) = s0 ∧ Inv s0 mem fx ∧ s0.cur = s.cur ∧
          s0.cur - s0.start + bs.length ≤ 1014 := by
        split
        · exact ⟨_, rfl, hfl.1, hfl.2.2.1, by rw [hfl.2.1, hfl.2.2.1]; omega⟩
        · rename_i hh; exact ⟨_, rfl, h, rfl, by simp [ledataMax] at hh; omega⟩
      obtain ⟨s0, e0, i0, c0, l0⟩ := this
      obtain ⟨s1, hs1, hc1, hi1⟩ := store_inv s0 mem fx bs f i0 l0 (by rw [c0]; exact k3)
      refine step s1 _ f.toList ?_ rfl ?_ ?_ ?_ ?_
      · simp only [Seg.step, outputBytes, e0]; exact hs1
      · simp [Emitted.step, Emitted.bytes, hc1, c0]
      · simp only [Emitted.step]; rw [← c0]; exact hi1
      · simp [opFixups]
      · rw [hc1, c0]; exact k4
    | flush =>
      simp only [OpsOk] at hok
      have hfl := flush_inv s mem fx h
      refine step (flush s) _ [] rfl rfl ?_ ?_ rfl ?_
      · exact hfl.2.2.1
      · simp only [List.append_nil]; exact hfl.1
      · rw [hfl.2.2.1]; exact hok
    | org v rel =>
      simp only [OpsOk] at hok
      have hfl := flush_inv s mem fx h
      refine step (setCurrOffset s v rel) _ [] rfl rfl ?_ ?_ rfl ?_
      · simp only [setCurrOffset, Emitted.step]; split <;> omega
      · obtain ⟨i1, i2, i3, i4, i5, i6⟩ := hfl
        simp only [setCurrOffset, Emitted.step, List.append_nil]
        refine ⟨by simp, by simp, by simp, i1.recs, by simp [i5], i1.fixRecs, ?_, i1.allfx⟩
        simp only; rw [image_empty, i6]
      · simp only [setCurrOffset]
        have : (if rel = true then v + s.cur else v) = (if rel = true then s.cur + v else v) := by split <;> omega
        rw [this]; exact hok

theorem init_inv : Inv segInit (fun _ => none) [] := by
  refine ⟨by simp [segInit], by simp [segInit], by simp [segInit], by simp [segInit], by simp [segInit], by simp [segInit], ?_, by simp [segInit]⟩
  simp only [segInit]; rw [image_empty]; rfl

end Verif.Omf
