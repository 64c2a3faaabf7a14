import Verif.Frame.Lemmas
/-! # The unwind data read back as the directives -/
namespace Verif.Frame

/-- The operands are in the range the unwind codes can express (and the assembler encodes correctly). -/
def InRange : Dir → Prop
  | .alloc v => 0 ≤ v ∧ v < 4294967296
  | .endprolog => True
  | .pushframe _ => True
  | .pushreg r => r < 16
  | .savereg r v => r < 16 ∧ 0 ≤ v ∧ v < 524288
  | .savexmm r v => r < 16 ∧ 0 ≤ v ∧ v < 1048576
  | .setframe r v => r < 16 ∧ 0 ≤ v ∧ v < 4294967296

/-- The operation of a directive, computed. -/
def opOf : Dir → Option UOp
  | .alloc v => some (.alloc v.toNat)
  | .endprolog => none
  | .pushframe c => some (.pushMachframe c)
  | .pushreg r => some (.pushNonvol r)
  | .savereg r v => some (.saveNonvol r v.toNat)
  | .savexmm r v => some (.saveXmm128 r v.toNat)
  | .setframe _ _ => some .setFpreg

theorem opOf_announces (d : Dir) (h : InRange d) (o : UOp) (ho : opOf d = some o) : Announces d o := by
  cases d <;> simp only [opOf, Option.some.injEq, reduceCtorEq] at ho <;> subst ho
  case alloc v => have := Announces.alloc v.toNat; rwa [Int.toNat_of_nonneg h.1] at this
  case pushframe c => exact .pushframe c
  case pushreg r => exact .pushreg r
  case savereg r v => have := Announces.savereg r v.toNat; rwa [Int.toNat_of_nonneg h.2.1] at this
  case savexmm r v => have := Announces.savexmm r v.toNat; rwa [Int.toNat_of_nonneg h.2.1] at this
  case setframe r v => have := Announces.setframe r v.toNat; rwa [Int.toNat_of_nonneg h.2.1] at this

theorem lo32_eq (v : Int) (h0 : 0 ≤ v) (h : v < 4294967296) : lo32 v = v.toNat := by
  unfold lo32; rw [Int.emod_eq_of_lt h0 h]

theorem shr16_eq (v : Int) (k : Nat) (h0 : 0 ≤ v) (h : v < 2147483648) (hb : v / 2 ^ k < 65536) :
    shr16 v k = (v / 2 ^ k).toNat := by
  unfold shr16 sval
  have e := lo32_eq v h0 (by omega)
  rw [e, if_neg (by omega), Int.toNat_of_nonneg h0]
  have hn : 0 ≤ v / 2 ^ k := Int.ediv_nonneg h0 (Int.le_of_lt (Int.pow_pos (by omega)))
  rw [Int.emod_eq_of_lt hn hb]

theorem slot_parts (pos op info : Nat) (hp : pos < 256) (ho : op < 16) (hi : info < 16) :
    slot pos op info % 256 = pos ∧ slot pos op info / 256 % 16 = op ∧ slot pos op info / 4096 = info
    ∧ slot pos op info < 65536 := by
  unfold slot
  rw [Nat.mod_eq_of_lt hp, Nat.mod_eq_of_lt ho, Nat.mod_eq_of_lt hi]
  omega

section
variable (s n h : Nat) (r : List Nat)
theorem decode_push (i : Nat) (ho : s / 256 % 16 = 0) (hi : s / 4096 = i) :
    decode (s :: r) = (decode r).map ((s % 256, .pushNonvol i) :: ·) := by
  rw [decode.eq_def]; simp only [ho, hi]
theorem decode_alloc2 (ho : s / 256 % 16 = 1) (hi : s / 4096 = 0) :
    decode (s :: n :: r) = (decode r).map ((s % 256, .alloc (n * 8)) :: ·) := by
  rw [decode.eq_def]; simp only [ho, hi]
theorem decode_alloc3 (ho : s / 256 % 16 = 1) (hi : s / 4096 = 1) :
    decode (s :: n :: h :: r) = (decode r).map ((s % 256, .alloc (n + 65536 * h)) :: ·) := by
  rw [decode.eq_def]; simp only [ho, hi]
theorem decode_alloc1 (i : Nat) (ho : s / 256 % 16 = 2) (hi : s / 4096 = i) :
    decode (s :: r) = (decode r).map ((s % 256, .alloc (i * 8 + 8)) :: ·) := by
  rw [decode.eq_def]; simp only [ho, hi]
theorem decode_fp (ho : s / 256 % 16 = 3) :
    decode (s :: r) = (decode r).map ((s % 256, .setFpreg) :: ·) := by
  rw [decode.eq_def]; simp only [ho]
theorem decode_save (i : Nat) (ho : s / 256 % 16 = 4) (hi : s / 4096 = i) :
    decode (s :: n :: r) = (decode r).map ((s % 256, .saveNonvol i (n * 8)) :: ·) := by
  rw [decode.eq_def]; simp only [ho, hi]
theorem decode_xmm (i : Nat) (ho : s / 256 % 16 = 8) (hi : s / 4096 = i) :
    decode (s :: n :: r) = (decode r).map ((s % 256, .saveXmm128 i (n * 16)) :: ·) := by
  rw [decode.eq_def]; simp only [ho, hi]
theorem decode_frame0 (ho : s / 256 % 16 = 10) (hi : s / 4096 = 0) :
    decode (s :: r) = (decode r).map ((s % 256, .pushMachframe false) :: ·) := by
  rw [decode.eq_def]; simp only [ho, hi]
theorem decode_frame1 (ho : s / 256 % 16 = 10) (hi : s / 4096 = 1) :
    decode (s :: r) = (decode r).map ((s % 256, .pushMachframe true) :: ·) := by
  rw [decode.eq_def]; simp only [ho, hi]
end

/-- What an accepted directive adds to the table. -/
structure Added (u : U) (pos : Nat) (d : Dir) (u' : U) (s : List Nat) : Prop where
  codes : u'.codes = u.codes ++ s
  small : ∀ x ∈ s, x < 65536
  dec : ∀ rest, decode (s.reverse ++ rest) = (decode rest).map ((match opOf d with | some o => [(pos, o)] | none => []) ++ ·)
  len : u.codes.length ≤ 255 → u'.codes.length ≤ 255
  fr : u'.frameReg = (match d with | .setframe r _ => r | _ => u.frameReg)
  fo : u'.frameOfs * 16 = (match d with | .setframe _ v => v.toNat | _ => u.frameOfs * 16)
  size : u'.sizeOfProlog = (match d with | .endprolog => pos | _ => u.sizeOfProlog)
  done : u'.done = (match d with | .endprolog => true | _ => false)
  was : u.done = false

theorem add_ok {u u' : U} {s : List Nat} (h : u.add s = .ok u') :
    u' = { u with codes := u.codes ++ s } ∧ (u.codes.length ≤ 255 → s.length ≤ 3 → (u.codes ++ s).length ≤ 255) := by
  unfold U.add at h
  split at h
  · cases h
  · injection h with h
    refine ⟨h.symm, fun h1 h2 => ?_⟩
    rw [List.length_append]
    omega

theorem excFrame_added (u u' : U) (pos : Nat) (d : Dir) (hp : pos < 256) (hr : InRange d) (h : excFrame u pos d = .ok u') :
    ∃ s, Added u pos d u' s := by
  unfold excFrame at h
  cases hd : u.done
  case true => rw [hd] at h; simp at h
  rw [hd, if_neg (by simp)] at h
  cases d with
  | alloc v =>
    obtain ⟨h0, h1⟩ := hr
    simp only [lo32_eq v h0 h1] at h
    split at h; · cases h
    split at h; · cases h
    split at h; · cases h
    rename_i h8
    split at h
    · split at h
      · obtain ⟨rfl, hl⟩ := add_ok h
        have sp := slot_parts pos 1 1 hp (by omega) (by omega)
        refine ⟨_, rfl, ?_, ?_, fun hu => hl hu (by simp), rfl, rfl, rfl, hd, hd⟩
        · intro x hx
          simp at hx
          rcases hx with rfl | rfl | rfl
          · omega
          · omega
          · exact sp.2.2.2
        · intro rest
          show decode (slot pos 1 1 :: (v.toNat % 65536) :: (v.toNat / 65536) :: rest) = _
          rw [decode_alloc3 _ _ _ _ sp.2.1 sp.2.2.1, sp.1, show v.toNat % 65536 + 65536 * (v.toNat / 65536) = v.toNat by omega]
          rfl
      · obtain ⟨rfl, hl⟩ := add_ok h
        have sp := slot_parts pos 1 0 hp (by omega) (by omega)
        refine ⟨_, rfl, ?_, ?_, fun hu => hl hu (by simp), rfl, rfl, rfl, hd, hd⟩
        · intro x hx
          simp at hx
          rcases hx with rfl | rfl
          · omega
          · exact sp.2.2.2
        · intro rest
          show decode (slot pos 1 0 :: (v.toNat / 8) :: rest) = _
          rw [decode_alloc2 _ _ _ sp.2.1 sp.2.2.1, sp.1, show v.toNat / 8 * 8 = v.toNat by omega]
          rfl
    · obtain ⟨rfl, hl⟩ := add_ok h
      have sp := slot_parts pos 2 ((v.toNat - 8) / 8) hp (by omega) (by omega)
      refine ⟨_, rfl, ?_, ?_, fun hu => hl hu (by simp), rfl, rfl, rfl, hd, hd⟩
      · intro x hx
        simp at hx
        rw [hx]; exact sp.2.2.2
      · intro rest
        show decode (slot pos 2 ((v.toNat - 8) / 8) :: rest) = _
        rw [decode_alloc1 _ _ _ sp.2.1 sp.2.2.1, sp.1, show (v.toNat - 8) / 8 * 8 + 8 = v.toNat by omega]
        rfl
  | endprolog =>
    simp only at h
    split at h
    · cases h
    · injection h with h
      subst h
      refine ⟨[], by simp, by simp, ?_, fun hu => hu, rfl, rfl, rfl, rfl, hd⟩
      intro rest
      simp [opOf]
  | pushframe c =>
    obtain ⟨rfl, hl⟩ := add_ok h
    have sp := slot_parts pos 10 (if c then 1 else 0) hp (by omega) (by cases c <;> simp)
    refine ⟨_, rfl, ?_, ?_, fun hu => hl hu (by simp), rfl, rfl, rfl, hd, hd⟩
    · intro x hx
      simp at hx
      rw [hx]; exact sp.2.2.2
    · intro rest
      show decode (slot pos 10 (if c then 1 else 0) :: rest) = _
      cases c
      · rw [decode_frame0 _ _ sp.2.1 sp.2.2.1, sp.1]; rfl
      · rw [decode_frame1 _ _ sp.2.1 sp.2.2.1, sp.1]; rfl
  | pushreg r =>
    obtain ⟨rfl, hl⟩ := add_ok h
    have sp := slot_parts pos 0 r hp (by omega) hr
    refine ⟨_, rfl, ?_, ?_, fun hu => hl hu (by simp), rfl, rfl, rfl, hd, hd⟩
    · intro x hx
      simp at hx
      rw [hx]; exact sp.2.2.2
    · intro rest
      show decode (slot pos 0 r :: rest) = _
      rw [decode_push _ _ _ sp.2.1 sp.2.2.1, sp.1]
      rfl
  | savereg r v =>
    obtain ⟨hr16, h0, h1⟩ := hr
    simp only [lo32_eq v h0 (by omega)] at h
    split at h; · cases h
    rename_i h8
    rw [if_neg (by omega)] at h
    obtain ⟨rfl, hl⟩ := add_ok h
    have sp := slot_parts pos 4 r hp (by omega) hr16
    have sh := shr16_eq v 3 h0 (by omega) (by omega)
    refine ⟨_, rfl, ?_, ?_, fun hu => hl hu (by simp), rfl, rfl, rfl, hd, hd⟩
    · intro x hx
      simp at hx
      rcases hx with rfl | rfl
      · rw [sh]; omega
      · exact sp.2.2.2
    · intro rest
      show decode (slot pos 4 r :: shr16 v 3 :: rest) = _
      rw [decode_save _ _ _ _ sp.2.1 sp.2.2.1, sp.1, show shr16 v 3 * 8 = v.toNat by rw [sh]; omega]
      rfl
  | savexmm r v =>
    obtain ⟨hr16, h0, h1⟩ := hr
    simp only [lo32_eq v h0 (by omega)] at h
    split at h; · cases h
    rename_i h8
    rw [if_neg (by omega)] at h
    obtain ⟨rfl, hl⟩ := add_ok h
    have sp := slot_parts pos 8 r hp (by omega) hr16
    have sh := shr16_eq v 4 h0 (by omega) (by omega)
    refine ⟨_, rfl, ?_, ?_, fun hu => hl hu (by simp), rfl, rfl, rfl, hd, hd⟩
    · intro x hx
      simp at hx
      rcases hx with rfl | rfl
      · rw [sh]; omega
      · exact sp.2.2.2
    · intro rest
      show decode (slot pos 8 r :: shr16 v 4 :: rest) = _
      rw [decode_xmm _ _ _ _ sp.2.1 sp.2.2.1, sp.1, show shr16 v 4 * 16 = v.toNat by rw [sh]; omega]
      rfl
  | setframe r v =>
    obtain ⟨hr16, h0, h1⟩ := hr
    simp only [lo32_eq v h0 (by omega)] at h
    split at h; · cases h
    rename_i h8
    split at h; · cases h
    obtain ⟨rfl, hl⟩ := add_ok h
    have sp := slot_parts pos 3 r hp (by omega) hr16
    refine ⟨_, rfl, ?_, ?_, fun hu => hl hu (by simp), ?_, ?_, rfl, rfl, hd⟩
    · intro x hx
      simp at hx
      rw [hx]; exact sp.2.2.2
    · intro rest
      show decode (slot pos 3 r :: rest) = _
      rw [decode_fp _ _ sp.2.1, sp.1]
      rfl
    · exact Nat.mod_eq_of_lt hr16
    · show v.toNat / 16 * 16 = v.toNat
      omega

/-- The operations announced by a list of directives, in order. -/
def opsOf (l : List (Nat × Dir)) : List (Nat × UOp) := l.filterMap (fun p => (opOf p.2).map (p.1, ·))

/-- The frame register and offset after a list of directives. -/
def frameOf : (Nat × Nat) → List (Nat × Dir) → Nat × Nat
  | q, [] => q
  | _, (_, .setframe r v) :: l => frameOf (r, v.toNat) l
  | q, _ :: l => frameOf q l

theorem assemble_added (len : Ins → Nat) (ls : List Line) (pos : Nat) (u u' : U)
    (hpos : ∀ p ∈ dirsAt len pos ls, p.1 < 256) (hr : ∀ p ∈ dirsAt len pos ls, InRange p.2)
    (h : assembleLines len u pos ls = .ok u') :
    ∃ s, u'.codes = u.codes ++ s ∧ (∀ x ∈ s, x < 65536)
      ∧ (∀ rest, decode (s.reverse ++ rest) = (decode rest).map ((opsOf (dirsAt len pos ls)).reverse ++ ·))
      ∧ (u.codes.length ≤ 255 → u'.codes.length ≤ 255)
      ∧ (u'.frameReg, u'.frameOfs * 16) = frameOf (u.frameReg, u.frameOfs * 16) (dirsAt len pos ls) := by
  induction ls generalizing pos u with
  | nil =>
    simp only [assembleLines, Except.ok.injEq] at h
    subst h
    exact ⟨[], by simp, by simp, by simp [dirsAt, opsOf], fun h => h, rfl⟩
  | cons a l ih =>
    cases a with
    | ins i => exact ih _ u hpos hr h
    | dir d =>
      simp only [assembleLines] at h
      cases he : excFrame u pos d with
      | error e => rw [he] at h; cases h
      | ok u1 =>
        rw [he] at h
        simp only at h
        have hp0 := hpos (pos, d) List.mem_cons_self
        have hr0 := hr (pos, d) List.mem_cons_self
        obtain ⟨s1, a1⟩ := excFrame_added u u1 pos d hp0 hr0 he
        obtain ⟨s2, c2, sm2, d2, l2, f2⟩ := ih pos u1 (fun p hp => hpos p (List.mem_cons_of_mem _ hp))
          (fun p hp => hr p (List.mem_cons_of_mem _ hp)) h
        refine ⟨s1 ++ s2, ?_, ?_, ?_, fun hu => l2 (a1.len hu), ?_⟩
        · rw [c2, a1.codes, List.append_assoc]
        · intro x hx
          rcases List.mem_append.1 hx with hx | hx
          · exact a1.small x hx
          · exact sm2 x hx
        · intro rest
          rw [List.reverse_append, List.append_assoc, d2, a1.dec]
          cases hz : decode rest with
          | none => rfl
          | some q =>
            simp only [Option.map_some, dirsAt, opsOf, List.filterMap_cons]
            cases ho : opOf d with
            | none => simp
            | some o => simp [List.append_assoc]
        · rw [f2]
          have h1 := a1.fr
          have h2 := a1.fo
          cases d <;> simp only at h1 h2 <;> simp only [dirsAt, frameOf, h1, h2]

theorem words_le16 (l : List Nat) (rest : List Nat) (h : ∀ x ∈ l, x < 65536) :
    words l.length (l.flatMap le16 ++ rest) = some (l, rest) := by
  induction l with
  | nil => rfl
  | cons a l ih =>
    have ha := h a List.mem_cons_self
    have hi := ih (fun x hx => h x (List.mem_cons_of_mem _ hx))
    simp only [List.flatMap_cons, le16, List.cons_append, List.nil_append, List.length_cons, words, hi, Option.map_some]
    congr 3
    omega

/-- **The unwind data written for a prologue read back as its directives**: `ls` are the lines of the prologue (instructions and
directives, `.ENDPROLOG` last, accepted by the assembler), `len` the lengths of the instructions. -/
theorem readInfo_xdata (len : Ins → Nat) (ls : List Line) (u : U) (handler : Option Nat)
    (hh : ∀ h, handler = some h → h < 4294967296)
    (hpos : ∀ p ∈ dirsAt len 0 ls, p.1 < 256) (hr : ∀ p ∈ dirsAt len 0 ls, InRange p.2)
    (h : assembleLines len {} 0 ls = .ok u) :
    readInfo (xdata u handler) = some
      { version := 1, flags := if handler.isSome then 3 else 0, sizeOfProlog := u.sizeOfProlog,
        frameReg := u.frameReg, frameOfs := u.frameOfs,
        codes := (opsOf (dirsAt len 0 ls)).reverse, handler := handler }
    ∧ (u.frameReg, u.frameOfs * 16) = frameOf (0, 0) (dirsAt len 0 ls) := by
  obtain ⟨s, c, sm, dec, _, fr⟩ := assemble_added len ls 0 {} u hpos hr h
  have c' : u.codes = s := by simpa using c
  refine ⟨?_, by simpa using fr⟩
  have hfr : u.frameReg < 16 := by
    have key : ∀ (l : List (Nat × Dir)) (q : Nat × Nat), q.1 < 16 → (∀ p ∈ l, InRange p.2) → (frameOf q l).1 < 16 := by
      intro l
      induction l with
      | nil => intro q h _; exact h
      | cons p l ih =>
        intro q hq hl
        obtain ⟨x, d⟩ := p
        have hd := hl (x, d) List.mem_cons_self
        cases d <;> simp only [frameOf] <;>
          first
          | exact ih _ hd.1 (fun p hp => hl p (List.mem_cons_of_mem _ hp))
          | exact ih _ hq (fun p hp => hl p (List.mem_cons_of_mem _ hp))
    have := key _ (0, 0) (by omega) hr
    have e : u.frameReg = (frameOf (0, 0) (dirsAt len 0 ls)).1 := by
      have := congrArg Prod.fst fr
      simpa using this
    rw [e]; exact this
  unfold xdata
  rw [c']
  simp only [List.cons_append, List.nil_append, readInfo, List.append_assoc]
  have hw := words_le16 s.reverse ((if s.length % 2 = 1 then [0, 0] else []) ++
    handlerBytes handler) (fun x hx => sm x (by simpa using hx))
  rw [List.length_reverse] at hw
  rw [hw]
  have hd := dec []
  simp only [List.append_nil, decode, Option.map_some] at hd
  simp only [hd]
  have hdrop : (if s.length % 2 = 1 then List.drop 2 ((if s.length % 2 = 1 then [0, 0] else []) ++
      handlerBytes handler) else
      ((if s.length % 2 = 1 then [0, 0] else []) ++ handlerBytes handler))
      = handlerBytes handler := by
    by_cases hz : s.length % 2 = 1
    · simp [hz]
    · simp [hz]
  rw [hdrop]
  have e1 : (u.frameReg + 16 * u.frameOfs) % 16 = u.frameReg := by omega
  have e2 : (u.frameReg + 16 * u.frameOfs) / 16 = u.frameOfs := by omega
  cases handler with
  | none => simp [e1, e2, handlerBytes]
  | some hv =>
    have := hh hv rfl
    simp only [Option.isSome_some, if_true, handlerBytes, le32, List.cons_append, List.nil_append]
    rw [e1, e2]
    have e3 : hv % 256 + 256 * (hv / 256 % 256) + 65536 * (hv / 65536 % 256) + 16777216 * (hv / 16777216 % 256) = hv := by omega
    rw [e3]
    simp

theorem opsOf_matches (l : List (Nat × Dir)) (h : ∀ p ∈ l, InRange p.2) : Matches l (opsOf l) := by
  induction l with
  | nil => exact .nil
  | cons p l ih =>
    obtain ⟨x, d⟩ := p
    have h0 := h (x, d) List.mem_cons_self
    have h1 := ih (fun p hp => h p (List.mem_cons_of_mem _ hp))
    have key : ∀ o, opOf d = some o → Matches ((x, d) :: l) (opsOf ((x, d) :: l)) := by
      intro o ho
      have e : opsOf ((x, d) :: l) = (x, o) :: opsOf l := by simp [opsOf, ho]
      rw [e]
      exact .cons x d o _ _ (opOf_announces d h0 o ho) h1
    cases d with
    | endprolog => exact .skip x _ _ h1
    | _ => exact key _ rfl

end Verif.Frame
