import Verif.Startup.Spec
import Verif.Cpu.Props
/-!
# C77: .MODEL; C78: .STARTUP and .EXIT
-/
namespace Verif.Startup
open Verif.Cpu

/-! ## .MODEL -/

theorem ieq_iff (a b : Text) : ieq a b = true ↔ a.map Char.toLower = b.map Char.toLower := by simp [ieq]

theorem find_model (m : MemModel) (w : Text) (h : ieq m.name w = true) : findToken w modelTokens = some (m.number - 1) := by
  rw [ieq_iff] at h
  have hx : ∀ a, ieq a w = decide (a.map Char.toLower = m.name.map Char.toLower) := by
    intro a; rw [h, Bool.eq_iff_iff]; simp [ieq]
  simp only [findToken, modelTokens, hx]
  cases m <;> decide

theorem find_attr (a w : Text) (h : ieq a w = true) : findToken w modelAttrs = findToken a modelAttrs := by
  rw [ieq_iff] at h
  have hx : ∀ b, ieq b w = ieq b a := by intro b; simp only [ieq, h]
  simp only [findToken, modelAttrs, hx]

/-- what the code reads: the words of the two operating systems are exchanged -/
def swapOs : Os → Os
  | .dos => .os2
  | .os2 => .dos

theorem parse_args (flat : Bool) (as : List Arg) (ts : List Tok) (h : ArgsWritten as ts) : ∀ (f : Found),
    (f.lang.toList ++ langs as).length ≤ 1 → (f.dist.toList ++ stacks as).length ≤ 1 → (f.os.toList ++ oses as).length ≤ 1 →
    (flat = true → stacks as = []) → as.getLast? ≠ some .blank →
    parseArgs flat ts f = .ok ⟨(f.lang.toList ++ langs as).head?, (f.dist.toList ++ stacks as).head?,
      (f.os.toList ++ (oses as).map swapOs).head?⟩ := by
  induction h with
  | nil =>
    intro f _ _ _ _ _
    obtain ⟨l, d, o⟩ := f
    cases l <;> cases d <;> cases o <;> rfl
  | @cons a as ts ts' ha hr ih =>
    intro f h1 h2 h3 h4 h5
    have h5' : as.getLast? ≠ some .blank := by
      cases as with
      | nil => simp
      | cons b bs => rwa [List.getLast?_cons_cons] at h5
    cases a with
    | blank =>
      cases ha
      cases hr with
      | nil => simp at h5
      | cons ha' hr' =>
        simp only [List.nil_append, parseArgs]
        exact ih f h1 h2 h3 h4 h5'
    | lang l t =>
      cases ha
      have hl : f.lang = none := by
        cases hf : f.lang with
        | none => rfl
        | some x => rw [hf] at h1; simp [langs] at h1
      simp only [List.singleton_append, parseArgs, hl, Option.isSome_none, Bool.false_eq_true, if_false]
      have := ih { f with lang := some l } (by simpa [hl, langs] using h1) (by simpa [stacks] using h2) (by simpa [oses] using h3)
        (by simpa [stacks] using h4) h5'
      rw [this]; simp [langs, stacks, oses]
    | nearStack =>
      obtain ⟨w, hw, rfl⟩ := ha
      have hfl : flat = false := by
        cases flat with
        | false => rfl
        | true => have := h4 rfl; simp [stacks] at this
      have hl : f.dist = none := by
        cases hf : f.dist with
        | none => rfl
        | some x => rw [hf] at h2; simp [stacks] at h2
      have hv : (findToken w modelAttrs).bind (fun i => modelAttrValues[i]?) = some (.stack .near) := by
        rw [find_attr _ _ hw]; decide
      simp only [List.singleton_append, parseArgs, hv, hfl, hl, Option.isSome_none, Bool.false_eq_true, if_false]
      subst hfl
      have := ih { f with dist := some .near } (by simpa [langs] using h1) (by simpa [hl, stacks] using h2) (by simpa [oses] using h3)
        (by simp) h5'
      rw [this]; simp [langs, stacks, oses]
    | farStack =>
      obtain ⟨w, hw, rfl⟩ := ha
      have hfl : flat = false := by
        cases flat with
        | false => rfl
        | true => have := h4 rfl; simp [stacks] at this
      have hl : f.dist = none := by
        cases hf : f.dist with
        | none => rfl
        | some x => rw [hf] at h2; simp [stacks] at h2
      have hv : (findToken w modelAttrs).bind (fun i => modelAttrValues[i]?) = some (.stack .far) := by
        rw [find_attr _ _ hw]; decide
      simp only [List.singleton_append, parseArgs, hv, hfl, hl, Option.isSome_none, Bool.false_eq_true, if_false]
      subst hfl
      have := ih { f with dist := some .far } (by simpa [langs] using h1) (by simpa [hl, stacks] using h2) (by simpa [oses] using h3)
        (by simp) h5'
      rw [this]; simp [langs, stacks, oses]
    | osWord o =>
      have hl : f.os = none := by
        cases hf : f.os with
        | none => rfl
        | some x => rw [hf] at h3; simp [oses] at h3
      obtain ⟨w, hv, rfl⟩ : ∃ w, (findToken w modelAttrs).bind (fun i => modelAttrValues[i]?) = some (.os (swapOs o)) ∧ ts = [.word w] := by
        cases o with
        | dos => obtain ⟨w, hw, rfl⟩ := ha; exact ⟨w, by rw [find_attr _ _ hw]; decide, rfl⟩
        | os2 => obtain ⟨w, hw, rfl⟩ := ha; exact ⟨w, by rw [find_attr _ _ hw]; decide, rfl⟩
      simp only [List.singleton_append, parseArgs, hv, hl, Option.isSome_none, Bool.false_eq_true, if_false]
      have := ih { f with os := some (swapOs o) } (by simpa [langs] using h1) (by simpa [stacks] using h2)
        (by simpa [hl, oses] using h3) (by simpa [stacks] using h4) h5'
      rw [this]; simp [langs, stacks, oses]

theorem parse_sound (flat : Bool) (as : List Arg) (ts : List Tok) (h : ArgsWritten as ts) : ∀ (f g : Found), parseArgs flat ts f = .ok g →
    (f.lang.toList ++ langs as).length ≤ 1 ∧ (f.dist.toList ++ stacks as).length ≤ 1 ∧ (f.os.toList ++ oses as).length ≤ 1 ∧
    (flat = true → stacks as = []) ∧ as.getLast? ≠ some .blank := by
  induction h with
  | nil =>
    intro f _ _
    obtain ⟨l, d, o⟩ := f
    cases l <;> cases d <;> cases o <;> simp [langs, stacks, oses]
  | @cons a as ts ts' ha hr ih =>
    intro f g hg
    have last : as.getLast? ≠ some .blank → (a = .blank → as ≠ []) → (a :: as).getLast? ≠ some .blank := by
      intro h1 h2
      cases as with
      | nil => simp; intro e; exact absurd rfl (h2 e)
      | cons b bs => rwa [List.getLast?_cons_cons]
    cases a with
    | blank =>
      cases ha
      cases hr with
      | nil => simp [parseArgs] at hg
      | cons ha' hr' =>
        simp only [List.nil_append, parseArgs] at hg
        obtain ⟨h1, h2, h3, h4, h5⟩ := ih f g hg
        exact ⟨h1, h2, h3, h4, last h5 (by simp)⟩
    | lang l t =>
      cases ha
      simp only [List.singleton_append, parseArgs] at hg
      split at hg
      · cases hg
      · rename_i hl
        obtain ⟨h1, h2, h3, h4, h5⟩ := ih _ g hg
        have : f.lang = none := by simpa using hl
        exact ⟨by simpa [this, langs] using h1, h2, h3, h4, last h5 (by simp)⟩
    | nearStack =>
      obtain ⟨w, hw, rfl⟩ := ha
      have hv : (findToken w modelAttrs).bind (fun i => modelAttrValues[i]?) = some (.stack .near) := by
        rw [find_attr _ _ hw]; decide
      simp only [List.singleton_append, parseArgs, hv] at hg
      split at hg
      · cases hg
      · rename_i hfl
        split at hg
        · cases hg
        · rename_i hl
          obtain ⟨h1, h2, h3, h4, h5⟩ := ih _ g hg
          have : f.dist = none := by simpa using hl
          exact ⟨h1, by simpa [this, stacks] using h2, h3, fun e => absurd e hfl, last h5 (by simp)⟩
    | farStack =>
      obtain ⟨w, hw, rfl⟩ := ha
      have hv : (findToken w modelAttrs).bind (fun i => modelAttrValues[i]?) = some (.stack .far) := by
        rw [find_attr _ _ hw]; decide
      simp only [List.singleton_append, parseArgs, hv] at hg
      split at hg
      · cases hg
      · rename_i hfl
        split at hg
        · cases hg
        · rename_i hl
          obtain ⟨h1, h2, h3, h4, h5⟩ := ih _ g hg
          have : f.dist = none := by simpa using hl
          exact ⟨h1, by simpa [this, stacks] using h2, h3, fun e => absurd e hfl, last h5 (by simp)⟩
    | osWord o =>
      obtain ⟨w, hv, rfl⟩ : ∃ w, (findToken w modelAttrs).bind (fun i => modelAttrValues[i]?) = some (.os (swapOs o)) ∧ ts = [.word w] := by
        cases o with
        | dos => obtain ⟨w, hw, rfl⟩ := ha; exact ⟨w, by rw [find_attr _ _ hw]; decide, rfl⟩
        | os2 => obtain ⟨w, hw, rfl⟩ := ha; exact ⟨w, by rw [find_attr _ _ hw]; decide, rfl⟩
      simp only [List.singleton_append, parseArgs, hv] at hg
      split at hg
      · cases hg
      · rename_i hl
        obtain ⟨h1, h2, h3, h4, h5⟩ := ih _ g hg
        have : f.os = none := by simpa using hl
        exact ⟨h1, h2, by simpa [this, oses] using h3, h4, last h5 (by simp)⟩

/-- The state behind an accepted `.MODEL` before the modes and the symbols are set. -/
def written (i : Info) (m : MemModel) (as : List Arg) : Info :=
  { i with model := m.number, lang := (langs as).head?.getD i.lang, dist := (stacks as).head?.getD i.dist,
           os := ((oses as).map swapOs).head?.getD i.os }

def accepted (i : Info) (m : MemModel) (as : List Arg) : Info := setModelModes (written i m as)

theorem model_ok (i : Info) (m : MemModel) (w : Text) (as : List Arg) (ts : List Tok) (hw : ieq m.name w = true)
    (hts : ArgsWritten as ts) (ha : Acceptable m as) (hc : m = .flat → P_386 ≤ i.curr &&& P_CPU_MASK) :
    modelDirective i (.word w :: ts) = .ok (setModelSyms (accepted i m as)) := by
  obtain ⟨h1, h2, h3, h4, h5⟩ := ha
  have hk : m.number - 1 + 1 = m.number := by cases m <;> rfl
  have hf : decide (m.number = 7) = true → stacks as = [] := by cases m <;> simp [MemModel.number] at * <;> exact h4
  have hp := parse_args (decide (m.number = 7)) as ts hts {} (by simpa using h1) (by simpa using h2) (by simpa using h3) hf h5
  have hcpu : ¬(m.number = 7 ∧ i.curr &&& P_CPU_MASK < P_386) := by
    rintro ⟨h7, hl⟩
    have : m = .flat := by cases m <;> simp [MemModel.number] at h7 ⊢
    have := hc this
    exact absurd hl (BitVec.not_lt.mpr this)
  simp only [modelDirective, Tok.str, find_model m w hw, hk, hp, hcpu, if_false]
  simp [accepted, written]

/-- **C77** (accepted): exactly the acceptable argument lists are accepted; FLAT only for a CPU from the 386 on. -/
theorem C77_accepted (i : Info) (m : MemModel) (w : Text) (as : List Arg) (ts : List Tok) (hw : ieq m.name w = true)
    (hts : ArgsWritten as ts) :
    (∃ i', modelDirective i (.word w :: ts) = .ok i') ↔ Acceptable m as ∧ (m = .flat → P_386 ≤ i.curr &&& P_CPU_MASK) := by
  constructor
  · rintro ⟨i', h⟩
    have hk : m.number - 1 + 1 = m.number := by cases m <;> rfl
    simp only [modelDirective, Tok.str, find_model m w hw, hk] at h
    split at h
    · cases h
    · rename_i f hf
      obtain ⟨h1, h2, h3, h4, h5⟩ := parse_sound _ as ts hts {} f hf
      split at h
      · cases h
      · rename_i hc
        refine ⟨⟨by simpa using h1, by simpa using h2, by simpa using h3, ?_, h5⟩, ?_⟩
        · rintro rfl; exact h4 (by decide)
        · rintro rfl
          exact BitVec.not_lt.mp fun hl => hc ⟨rfl, hl⟩
  · rintro ⟨ha, hc⟩
    exact ⟨_, model_ok i m w as ts hw hts ha hc⟩

/-- **C77** (first word): a first word that names no memory model is an error. -/
theorem C77_unknown (i : Info) (w : Text) (ts : List Tok) (hw : ∀ m : MemModel, ieq m.name w = false) :
    modelDirective i (.word w :: ts) = .error .syntax := by
  have : findToken w modelTokens = none := by
    simp only [findToken, modelTokens]
    rw [show ieq "TINY".toList w = false from hw .tiny, show ieq "SMALL".toList w = false from hw .small,
      show ieq "COMPACT".toList w = false from hw .compact, show ieq "MEDIUM".toList w = false from hw .medium,
      show ieq "LARGE".toList w = false from hw .large, show ieq "HUGE".toList w = false from hw .huge,
      show ieq "FLAT".toList w = false from hw .flat]
    rfl
  simp only [modelDirective, Tok.str, this]

theorem modes_eq (i : Info) : (setModelModes i).model = i.model ∧ (setModelModes i).lang = i.lang ∧ (setModelModes i).dist = i.dist ∧
    (setModelModes i).os = i.os ∧ (setModelModes i).name = i.name ∧ (setModelModes i).syms = i.syms := by
  unfold setModelModes
  split
  · dsimp only; split <;> split <;> simp
  · simp

/-- **C77** (settings): a `.MODEL` with a memory model in any case of letters and acceptable arguments in any order is accepted,
with FLAT for a CPU from the 386 on; it sets the model, and language and stack as written, or leaves them when not written. Partial:
with an operating system written see `C77_defect_os`. -/
theorem C77_settings_partial (i : Info) (m : MemModel) (w : Text) (as : List Arg) (ts : List Tok) (hw : ieq m.name w = true)
    (hts : ArgsWritten as ts) (ha : Acceptable m as) (hc : m = .flat → P_386 ≤ i.curr &&& P_CPU_MASK) :
    ∃ i', modelDirective i (.word w :: ts) = .ok i' ∧ i'.model = m.number ∧ i'.lang = (langs as).head?.getD i.lang ∧
      i'.dist = (stacks as).head?.getD i.dist ∧ (oses as = [] → i'.os = i.os) := by
  refine ⟨_, model_ok i m w as ts hw hts ha hc, ?_⟩
  obtain ⟨a1, a2, a3, a4, _, _⟩ := modes_eq (written i m as)
  refine ⟨a1, a2, a3, fun h => ?_⟩
  have : (setModelSyms (accepted i m as)).os = (written i m as).os := a4
  rw [this]; simp [written, h]

/-- **C77** (defect): `OS_DOS` selects OS/2, and `OS_OS2` selects DOS: the two tables disagree. -/
theorem C77_defect_os (i : Info) (m : MemModel) (w : Text) (as : List Arg) (ts : List Tok) (o : Os) (hw : ieq m.name w = true)
    (hts : ArgsWritten as ts) (ha : Acceptable m as) (hc : m = .flat → P_386 ≤ i.curr &&& P_CPU_MASK) (ho : o ∈ oses as) :
    ∃ i', modelDirective i (.word w :: ts) = .ok i' ∧ i'.os ≠ o := by
  refine ⟨_, model_ok i m w as ts hw hts ha hc, ?_⟩
  obtain ⟨_, _, _, a4, _, _⟩ := modes_eq (written i m as)
  have hl := ha.2.2.1
  have : oses as = [o] := by
    cases h : oses as with
    | nil => rw [h] at ho; simp at ho
    | cons x t =>
      rw [h] at ho hl
      cases t with
      | nil => simp at ho; rw [ho]
      | cons y t => simp at hl
  have h4 : (setModelSyms (accepted i m as)).os = (written i m as).os := a4
  rw [h4]; simp only [written, this]
  cases o <;> simp [swapOs]

/-- **C77** (modes): FLAT sets, outside of a segment, the default offset size to 64 bits for an x64 CPU and to 32 bits for any
other; the other models leave it. The Windows 64-bit conventions are switched on exactly for FLAT with an x64 CPU, one of the
languages FASTCALL (7) and VECTORCALL (9), and a format other than ELF. -/
theorem C77_modes (i : Info) (m : MemModel) (w : Text) (as : List Arg) (ts : List Tok) (hw : ieq m.name w = true)
    (hts : ArgsWritten as ts) (ha : Acceptable m as) (hc : m = .flat → P_386 ≤ i.curr &&& P_CPU_MASK) :
    ∃ i', modelDirective i (.word w :: ts) = .ok i' ∧
      i'.defOfs = (if m = .flat ∧ i.seg = none then (if P_64 ≤ i.curr &&& P_CPU_MASK then .use64 else .use32) else i.defOfs) ∧
      (i'.win64 = true ↔ i.win64 = true ∨ (m = .flat ∧ i.curr &&& P_CPU_MASK = P_64 ∧
        ((langs as).head?.getD i.lang = 7 ∨ (langs as).head?.getD i.lang = 9) ∧ i.elf = false)) := by
  refine ⟨_, model_ok i m w as ts hw hts ha hc, ?_⟩
  have hm : m.number = 7 ↔ m = .flat := by cases m <;> simp [MemModel.number]
  simp only [setModelSyms, accepted, setModelModes, written, hm]
  by_cases hf : m = .flat
  · by_cases hs : i.seg = none <;> by_cases hp : P_64 ≤ i.curr &&& P_CPU_MASK <;>
      simp only [hf, hs, hp, true_and, if_true, if_false] <;> (split <;> rename_i h <;> simp [h])
  · simp [hf]

/-- The value of a symbol. -/
def valueOf (i : Info) (n : String) : Option Val := i.syms.lookup n.toList

theorem syms_values (j : Info) (h : j.syms = []) :
    valueOf (setModelSyms j) "@CodeSize" = some (.num (if farCodeBit j.model then 1 else 0)) ∧
    valueOf (setModelSyms j) "@DataSize" = some (.num (if j.model = 3 ∨ j.model = 5 then 1 else if j.model = 6 then 2 else 0)) ∧
    valueOf (setModelSyms j) "@Model" = some (.num j.model) ∧
    valueOf (setModelSyms j) "@Interface" = some (.num j.lang) ∧
    valueOf (setModelSyms j) "@code" = some (.text (codeSeg j)) ∧
    valueOf (setModelSyms j) "@data" = some (.text (if j.model = 7 then "FLAT".toList else "DGROUP".toList)) ∧
    valueOf (setModelSyms j) "@stack" = some (.text (if j.dist = .far then "STACK".toList
      else if j.model = 7 then "FLAT".toList else "DGROUP".toList)) := by
  simp only [valueOf, setModelSyms, h, List.nil_append, List.cons_append]
  generalize codeSeg j = x
  refine ⟨?_, ?_, ?_, ?_, ?_, ?_, ?_⟩ <;> simp [List.lookup]

/-- **C77** (symbols): what `.MODEL` tells the program: `@CodeSize`, `@DataSize`, `@Model`, `@Interface`, and the names `@code`,
`@data`, `@stack`. -/
theorem C77_symbols (i : Info) (m : MemModel) (w : Text) (as : List Arg) (ts : List Tok) (hw : ieq m.name w = true)
    (hts : ArgsWritten as ts) (ha : Acceptable m as) (hc : m = .flat → P_386 ≤ i.curr &&& P_CPU_MASK) (h0 : i.syms = []) :
    ∃ i', modelDirective i (.word w :: ts) = .ok i' ∧
      valueOf i' "@CodeSize" = some (.num (if m.farCode then 1 else 0)) ∧
      valueOf i' "@DataSize" = some (.num m.dataSize) ∧
      valueOf i' "@Model" = some (.num m.number) ∧
      valueOf i' "@Interface" = some (.num ((langs as).head?.getD i.lang)) ∧
      valueOf i' "@code" = some (.text (if m.farCode then i.name ++ "_TEXT".toList else "_TEXT".toList)) ∧
      valueOf i' "@data" = some (.text (if m = .flat then "FLAT".toList else "DGROUP".toList)) ∧
      valueOf i' "@stack" = some (.text (if (stacks as).head?.getD i.dist = .far then "STACK".toList
        else if m = .flat then "FLAT".toList else "DGROUP".toList)) := by
  refine ⟨_, model_ok i m w as ts hw hts ha hc, ?_⟩
  obtain ⟨a1, a2, a3, a4, a5, a6⟩ := modes_eq (written i m as)
  obtain ⟨b1, b2, b3, b4, b5, b6, b7⟩ := syms_values (accepted i m as) (a6.trans h0)
  have c1 : farCodeBit m.number = m.farCode := by cases m <;> decide
  have c2 : (accepted i m as).model = m.number := a1
  have c3 : (accepted i m as).lang = (langs as).head?.getD i.lang := a2
  have c4 : (accepted i m as).dist = (stacks as).head?.getD i.dist := a3
  have c5 : (accepted i m as).name = i.name := a5
  have c7 : m.number = 7 ↔ m = .flat := by cases m <;> simp [MemModel.number]
  rw [b1, b2, b3, b4, b5, b6, b7]
  simp only [codeSeg, c1, c2, c3, c4, c5, c7]
  refine ⟨trivial, ?_, trivial, trivial, trivial, trivial, trivial⟩
  cases m <;> rfl

/-! ## .STARTUP and .EXIT -/

theorem shl4 (x : BitVec 16) : x <<< 1 <<< 1 <<< 1 <<< 1 = x <<< 4 := by
  simp only [← BitVec.shiftLeft_add]

theorem stack_same (d ss sp : BitVec 16) (h : d.toNat ≤ ss.toNat) (hr : (ss.toNat - d.toNat) * 16 + sp.toNat < 65536) :
    d.toNat * 16 + (sp + (ss - d) <<< 4).toNat = ss.toNat * 16 + sp.toNat := by
  have h1 : (ss - d).toNat = ss.toNat - d.toNat := by
    rw [BitVec.toNat_sub_of_le (by simpa [BitVec.le_def] using h)]
  rw [BitVec.toNat_add, BitVec.toNat_shiftLeft, h1, Nat.shiftLeft_eq]
  have := ss.isLt; have := d.isLt
  omega

theorem append_nat (a b : BitVec 8) : BitVec.toNat (w := 16) (a ++ b) = a.toNat * 256 + b.toNat := by
  have h := BitVec.toNat_append a b
  rw [← Nat.shiftLeft_add_eq_or_of_lt b.isLt, Nat.shiftLeft_eq] at h
  exact h

theorem hi_append (a b : BitVec 8) : hi (a ++ b) = a := by
  apply BitVec.eq_of_toNat_eq
  have h := append_nat a b; have := a.isLt; have := b.isLt
  simp only [hi, BitVec.extractLsb'_toNat, h, Nat.shiftRight_eq_div_pow]; omega

theorem lo_append (a b : BitVec 8) : lo (a ++ b) = b := by
  apply BitVec.eq_of_toNat_eq
  have h := append_nat a b; have := a.isLt; have := b.isLt
  simp only [lo, BitVec.extractLsb'_toNat, h, Nat.shiftRight_eq_div_pow]; omega

/-- The state behind `.STARTUP`. -/
def after (i : Info) (cpu : Cpu.Info) (d : BitVec 16) (v : Machine → BitVec 16) (s : Machine) : Machine := s.run d v (startup i cpu)

/-- **C78** (near stack): for DOS, a near stack and a model other than TINY, `.STARTUP` leaves DS and SS at DGROUP; when the stack
is loaded at or above DGROUP and within 64 KB of it, SS:SP is still the same address. For every CPU. -/
theorem C78_startup_near (i : Info) (cpu : Cpu.Info) (d : BitVec 16) (v : Machine → BitVec 16) (s : Machine) (ho : i.os = .dos)
    (hm : i.model ≠ 1) (hd : i.dist = .near) :
    (after i cpu d v s).reg .ds = d ∧ (after i cpu d v s).reg .ss = d ∧
    (d.toNat ≤ (s.reg .ss).toNat → ((s.reg .ss).toNat - d.toNat) * 16 + (s.reg .sp).toNat < 65536 →
      (after i cpu d v s).stackTop = s.stackTop) := by
  have e : (after i cpu d v s).reg .ds = d ∧ (after i cpu d v s).reg .ss = d ∧
      (after i cpu d v s).reg .sp = s.reg .sp + (s.reg .ss - d) <<< 4 := by
    simp only [after, startup, ho, hm, hd, if_true, if_false]
    split <;> simp [Machine.run, startupDosNear0, startupDosNear1, Machine.step, Machine.set, shl4]
  obtain ⟨e1, e2, e3⟩ := e
  refine ⟨e1, e2, fun h1 h2 => ?_⟩
  simp only [Machine.stackTop, e2, e3]
  exact stack_same _ _ _ h1 h2

/-- **C78** (far stack, TINY, OS/2): with a far stack `.STARTUP` sets DS to DGROUP and leaves the stack; for TINY and OS/2 it
changes nothing. -/
theorem C78_startup_far (i : Info) (cpu : Cpu.Info) (d : BitVec 16) (v : Machine → BitVec 16) (s : Machine) :
    (i.os = .dos → i.model ≠ 1 → i.dist = .far → (after i cpu d v s).reg .ds = d ∧ (after i cpu d v s).reg .ss = s.reg .ss ∧
      (after i cpu d v s).reg .sp = s.reg .sp) ∧
    (i.model = 1 ∨ i.os = .os2 → after i cpu d v s = s) := by
  constructor
  · intro ho hm hd
    simp [after, startup, ho, hm, hd, Machine.run, startupDosFar, Machine.step, Machine.set]
  · rintro (h | h)
    · cases ho : i.os <;> simp [after, startup, h, ho, Machine.run, Machine.step]
    · by_cases hm : i.model = 1 <;> simp [after, startup, h, hm, Machine.run, Machine.step]

/-- **C78** (interrupts): an interrupt during `.STARTUP` finds either the stack of the loader or the final stack, never a new SS
with an old SP: for an 8086 the code disables interrupts, for the CPUs from the 186 on it relies on their waiting one instruction
after a load of SS. -/
theorem C78_interrupts (i : Info) (cpu : Cpu.Info) (d : BitVec 16) (v : Machine → BitVec 16) (s t : Machine)
    (h : t ∈ interruptible d v (decide (¬ cpu &&& 0x7F#16 ≤ 1#16)) s (startup i cpu)) :
    (t.reg .ss = s.reg .ss ∧ t.reg .sp = s.reg .sp) ∨
    (t.reg .ss = (after i cpu d v s).reg .ss ∧ t.reg .sp = (after i cpu d v s).reg .sp) := by
  revert h
  by_cases hc : cpu &&& 0x7F#16 ≤ 1#16 <;> cases ho : i.os <;> by_cases hm : i.model = 1 <;> cases hd : i.dist <;> cases hi : s.intr <;>
    simp [after, startup, ho, hm, hd, hc, hi, Machine.run, startupDosFar, startupDosNear0, startupDosNear1, Machine.step, Machine.set,
      interruptible, shl4]
  all_goals (intro h; (repeat' (rcases h with h | h)) <;> simp)

/-- **C78** (exit): `.EXIT` ends the program: without an operand with the return code in AL, with an operand with its low byte,
evaluated in the state before `.EXIT`. -/
theorem C78_exit (i : Info) (a : Option ExitArg) (d : BitVec 16) (v : Machine → BitVec 16) (s : Machine)
    (hv : ∀ n, a = some (.const n) → ∀ t, v t = BitVec.ofNat 16 n) :
    (s.run d v (exit i a)).ended = some (match a with
      | none => lo (s.reg .ax)
      | some _ => lo (v s)) := by
  cases a with
  | none =>
    cases ho : i.os <;>
      simp [exit, ho, exitDos, exitOs2, Machine.run, Machine.step, Machine.set, hi_append, lo_append]
  | some a =>
    cases ho : i.os with
    | os2 => simp [exit, ho, exitOs2, Machine.run, Machine.step, Machine.set]
    | dos =>
      cases a with
      | expr => simp [exit, ho, exitDos, Machine.run, Machine.step, Machine.set, hi_append, lo_append]
      | const n =>
        by_cases hn : n < 0x100
        · have h1 : hi (BitVec.ofNat 16 (0x4C00 + n)) = 0x4C#8 := by
            apply BitVec.eq_of_toNat_eq; simp [hi, Nat.shiftRight_eq_div_pow]; omega
          have h2 : lo (BitVec.ofNat 16 (0x4C00 + n)) = lo (BitVec.ofNat 16 n) := by
            apply BitVec.eq_of_toNat_eq; simp [lo]; omega
          simp [exit, ho, exitDos, hn, Machine.run, Machine.step, Machine.set, h1, h2, hv n rfl s]
        · simp [exit, ho, exitDos, hn, Machine.run, Machine.step, Machine.set, hi_append, lo_append]

/-! ## Concrete cases -/

/-- a 386, DOS -/
def info0 : Info := ⟨0x10D3#16, none, "PROG".toList, false, 0, 0, .near, .dos, .use16, false, []⟩

/-- `.model large, c, farstack` is accepted, and its hypotheses hold. -/
example : ArgsWritten [.lang 1 "c".toList, .farStack] [.comma, .lang 1 "c".toList, .comma, .word "FarStack".toList] :=
  .cons (ts := [.lang 1 "c".toList]) rfl (.cons (ts := [.word "FarStack".toList]) ⟨_, by decide, rfl⟩ .nil)
example : Acceptable .large [.lang 1 "c".toList, .farStack] := by
  simp [Acceptable, langs, stacks, oses]
example : (modelDirective info0 [.word "large".toList, .comma, .lang 1 "c".toList, .comma, .word "FarStack".toList]).map
    (fun i => (i.model, i.lang, i.dist)) = .ok (5, 1, .far) := by rfl
example : (modelDirective info0 [.word "small".toList, .comma, .word "os_dos".toList]).map Info.os = .ok .os2 := by rfl
example : modelDirective info0 [.word "flat".toList, .comma, .word "nearstack".toList] = .error .notForFlat := by rfl
example : modelDirective info0 [.word "small".toList, .comma] = .error .syntax := by rfl

/-- A program loaded with DS = 1000h, DGROUP = 1200h, SS:SP = 1240h:400h. -/
def mach0 : Machine := ⟨fun r => match r with | .ds => 0x1000#16 | .ss => 0x1240#16 | .sp => 0x400#16 | .ax => 0x1234#16 | _ => 0#16, true, [], none⟩

example : (after { info0 with model := 2 } 0x8D07#16 0x1200#16 (fun _ => 0#16) mach0).reg .sp = 0x800#16 := by decide
example : (after { info0 with model := 2 } 0x8D07#16 0x1200#16 (fun _ => 0#16) mach0).stackTop = mach0.stackTop := by decide
example : (mach0.run 0x1200#16 (fun _ => 5#16) (exit info0 (some (.const 5)))).ended = some 5#8 := by decide
example : (mach0.run 0x1200#16 (fun _ => 5#16) (exit { info0 with os := .os2 } none)).ended = some 0x34#8 := by decide

end Verif.Startup
