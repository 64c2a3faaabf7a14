import Verif.FpEmu.Model
import Mathlib.Data.List.Nodup
/-! # Property theorems: floating point emulation (C84) -/
namespace Verif.FpEmu

namespace Spec

/-- The values the symbols have in the emulator libraries of Microsoft and Open Watcom. -/
def lib : String → Option Nat
  | "FIWRQQ" => some 0xA23D
  | "FIDRQQ" => some 0x5C32
  | "FIERQQ" => some 0x1632
  | "FICRQQ" => some 0x0E32
  | "FISRQQ" => some 0x0632
  | "FIARQQ" => some 0xFE32
  | "FJCRQQ" => some 0xC000
  | "FJSRQQ" => some 0x8000
  | "FJARQQ" => some 0x4000
  | _ => none

/-- A 16-bit offset fixup: the linker adds the symbol's value to the word at the location, which must be in the record. -/
def addWord : Nat → Nat → List Nat → Option (List Nat)
  | 0, v, a :: b :: r => some ((a + 256 * b + v) % 256 :: (a + 256 * b + v) / 256 % 256 :: r)
  | n + 1, v, a :: r => (addWord n v r).map (a :: ·)
  | _, _, _ => none

/-- One fixup; an unknown symbol is an error. -/
def apply1 (bs : List Nat) (f : Nat × String) : Option (List Nat) := (lib f.2).bind (fun v => addWord f.1 v bs)

/-- One record with its fixups. -/
def linkRec (bs : List Nat) : List (Nat × String) → Option (List Nat)
  | [] => some bs
  | f :: r => (apply1 bs f).bind (fun b => linkRec b r)

/-- The segment the linker makes of the records. -/
def link : List (List Nat × List (Nat × String)) → Option (List Nat)
  | [] => some []
  | (b, f) :: r => (linkRec b f).bind (fun x => (link r).map (x ++ ·))

/-- The two bits that stand for the segment in the byte behind `INT 3Ch`. -/
def segBits (r : Fin 6) : Nat := [3, 2, 1, 0, 0, 0][r.1]!

/-- What the emulator expects: `INT 34h+k`, `INT 3Ch` with the segment, `INT 3Dh` for FWAIT. -/
def emulated (i : Ins) : List Nat :=
  if i.isWait then [0xCD, 0x3D]
  else match i.seg with
    | none => [0xCD, 0x34 + i.k] ++ i.rest
    | some r => [0xCD, 0x3C, 64 * segBits r + 0x18 + i.k] ++ i.rest

/-- The instruction is emulated: the emulator is on, and it is none of the FN instructions. -/
def Emulated (i : Ins) : Prop := i.emu = true ∧ i.wait ≠ .noFwait

/-- The bytes of the 8087 instruction: FWAIT in front if the mnemonic or the 8087 asks for it. -/
def native (i : Ins) : List Nat :=
  if i.isWait then [0x9B]
  else (if i.wait = .fwait ∨ (i.wait = .implicit ∧ i.cpu86) then [0x9B] else [])
    ++ (if i.adrsiz then [0x67] else []) ++ (if i.opsiz then [0x66] else [])
    ++ (match i.seg with | some r => [[0x26, 0x2E, 0x36, 0x3E, 0x64, 0x65][r.1]!] | none => [])
    ++ [0xD8 + i.k] ++ i.rest

instance (i : Ins) : Decidable (Emulated i) := inferInstanceAs (Decidable (_ ∧ _))

/-- The bytes of an item in the linked program. -/
def expected : Item → List Nat
  | .code bs => bs
  | .fp i => if Emulated i then emulated i else native i

/-- An opcode D8..DF; no size prefix and none of FS and GS if it is emulated. -/
def Fits : Item → Prop
  | .code _ => True
  | .fp i => i.k < 8 ∧ (Emulated i → i.adrsiz = false ∧ i.opsiz = false ∧ ∀ r, i.seg = some r → r.1 < 4)

/-- The symbols an item needs. -/
def needs : Item → List String
  | .code _ => []
  | .fp i =>
    if Emulated i then
      if i.isWait then ["FIWRQQ"]
      else match i.seg with
        | none => ["FIDRQQ"]
        | some 0 => ["FIERQQ"]
        | some 1 => ["FICRQQ", "FJCRQQ"]
        | some 2 => ["FISRQQ", "FJSRQQ"]
        | some 3 => ["FIARQQ", "FJARQQ"]
        | some 4 => ["FIFRQQ", "FJFRQQ"]
        | some 5 => ["FIGRQQ", "FJGRQQ"]
    else []

end Spec
open Spec

/-! ## The linker -/

theorem addWord_append {v : Nat} : ∀ {n : Nat} {bs r : List Nat} (t : List Nat), addWord n v bs = some r →
    addWord n v (bs ++ t) = some (r ++ t) ∧ r.length = bs.length := by
  intro n
  induction n with
  | zero =>
    intro bs r t h
    match bs, h with
    | a :: b :: q, h =>
      simp only [addWord, Option.some.injEq] at h
      subst h
      simp [addWord]
  | succ n ih =>
    intro bs r t h
    match bs, h with
    | a :: q, h =>
      simp only [addWord, Option.map_eq_some_iff] at h
      obtain ⟨x, hx, rfl⟩ := h
      obtain ⟨h1, h2⟩ := ih t hx
      simp [addWord, h1, h2]

theorem linkRec_append : ∀ {fx : List (Nat × String)} {bs r : List Nat} (t : List Nat), linkRec bs fx = some r →
    linkRec (bs ++ t) fx = some (r ++ t) ∧ r.length = bs.length := by
  intro fx
  induction fx with
  | nil => intro bs r t h; simp only [linkRec, Option.some.injEq] at h ⊢; subst h; exact ⟨rfl, rfl⟩
  | cons f q ih =>
    intro bs r t h
    simp only [linkRec, apply1, Option.bind_eq_some_iff] at h
    obtain ⟨b, ⟨v, hv, hb⟩, h2⟩ := h
    obtain ⟨e1, e2⟩ := addWord_append t hb
    obtain ⟨g1, g2⟩ := ih t h2
    refine ⟨?_, g2.trans e2⟩
    simp [linkRec, apply1, hv, e1, g1]

theorem linkRec_more : ∀ (fx gx : List (Nat × String)) (bs : List Nat),
    linkRec bs (fx ++ gx) = (linkRec bs fx).bind (fun r => linkRec r gx) := by
  intro fx gx
  induction fx with
  | nil => intro bs; rfl
  | cons f q ih =>
    intro bs
    show (apply1 bs f).bind _ = ((apply1 bs f).bind _).bind _
    rw [Option.bind_assoc]
    congr 1
    funext b
    exact ih b

theorem addWord_at {v : Nat} (n : Nat) : ∀ (bs t : List Nat),
    addWord (bs.length + n) v (bs ++ t) = (addWord n v t).map (bs ++ ·) := by
  intro bs
  induction bs with
  | nil => intro t; simp
  | cons a q ih =>
    intro t
    rw [show (a :: q).length + n = (q.length + n) + 1 by simp; omega]
    show (addWord _ v (q ++ t)).map _ = _
    rw [ih, Option.map_map]
    rfl

theorem link_append : ∀ {a b : List (List Nat × List (Nat × String))} {x y : List Nat}, link a = some x → link b = some y →
    link (a ++ b) = some (x ++ y) := by
  intro a
  induction a with
  | nil => intro b x y h1 h2; simp only [link, Option.some.injEq] at h1; subst h1; exact h2
  | cons p q ih =>
    intro b x y h1 h2
    obtain ⟨b0, f0⟩ := p
    simp only [link, Option.bind_eq_some_iff, Option.map_eq_some_iff] at h1
    obtain ⟨c, hc, d, hd, rfl⟩ := h1
    simp [link, hc, ih hd h2]

/-- What the records and the buffer link to. -/
structure Inv (s : St) (out : List Nat) : Prop where
  ok : ∃ a b, link s.recs = some a ∧ linkRec s.buf s.fix = some b ∧ a ++ b = out
  nofix : s.buf.length = 0 → s.fix = []

theorem flush_inv {s : St} {out : List Nat} (h : Inv s out) : Inv (flush s) out ∧ (flush s).buf = [] := by
  unfold flush
  by_cases he : s.buf.length = 0
  · rw [if_pos he]
    exact ⟨h, List.length_eq_zero_iff.1 he⟩
  · rw [if_neg he]
    obtain ⟨a, b, h1, h2, h3⟩ := h.ok
    refine ⟨⟨⟨a ++ b, [], ?_, rfl, by simpa using h3⟩, fun _ => rfl⟩, rfl⟩
    apply link_append h1
    simp [link, h2]

theorem outputByte_inv {s : St} {out : List Nat} (b : Nat) (h : Inv s out) : Inv (outputByte s b) (out ++ [b]) := by
  have key : ∀ t : St, Inv t out → Inv { t with buf := t.buf ++ [b] } (out ++ [b]) := by
    intro t ht
    obtain ⟨x, y, h1, h2, h3⟩ := ht.ok
    refine ⟨⟨x, y ++ [b], h1, (linkRec_append [b] h2).1, ?_⟩, ?_⟩
    · rw [← List.append_assoc, h3]
    · intro he; simp at he
  unfold outputByte
  by_cases hc : maxLedata ≤ s.buf.length
  · rw [if_pos hc]; exact key _ (flush_inv h).1
  · rw [if_neg hc]; exact key _ h

theorem outputs_inv : ∀ (bs : List Nat) {s : St} {out : List Nat}, Inv s out → Inv (bs.foldl outputByte s) (out ++ bs) := by
  intro bs
  induction bs with
  | nil => intro s out h; simpa using h
  | cons b r ih =>
    intro s out h
    have := ih (outputByte_inv b h)
    simpa using this

/-- Bytes that fit go into the buffer. -/
theorem outputs_fit : ∀ (bs : List Nat) (s : St), s.buf.length + bs.length ≤ maxLedata →
    bs.foldl outputByte s = { s with buf := s.buf ++ bs } := by
  intro bs
  induction bs with
  | nil => intro s _; simp
  | cons b r ih =>
    intro s h
    simp only [List.length_cons] at h
    have e : outputByte s b = { s with buf := s.buf ++ [b] } := by
      unfold outputByte
      rw [if_neg (by omega)]
    rw [List.foldl_cons, e, ih _ (by simp; omega)]
    simp

/-- The patched bytes: at most three, with their fixups, end up in one record. -/
theorem patched_inv {s : St} {out : List Nat} (h : Inv s out) (t t' : List Nat) (gx : List (Nat × String))
    (hlen : t.length ≤ 3) (hpos : 0 < t.length) (hroom : s.buf.length + 3 ≤ maxLedata)
    (hlink : linkRec t gx = some t') :
    Inv (t.foldl outputByte { s with fix := s.fix ++ gx.map (fun f => (s.buf.length + f.1, f.2)) }) (out ++ t') := by
  obtain ⟨a, b, h1, h2, h3⟩ := h.ok
  rw [outputs_fit _ _ (by show s.buf.length + _ ≤ _; omega)]
  obtain ⟨e1, e2⟩ := linkRec_append t h2
  refine ⟨⟨a, b ++ t', h1, ?_, by rw [← List.append_assoc, h3]⟩, ?_⟩
  · show linkRec (s.buf ++ t) _ = _
    rw [linkRec_more, e1]
    show linkRec (b ++ t) _ = _
    rw [← e2]
    clear h1 h2 h3 e1 e2 h hroom hlen hpos
    induction gx generalizing t with
    | nil => simp only [linkRec, Option.some.injEq] at hlink ⊢; subst hlink; simp [linkRec]
    | cons f r ih =>
      simp only [linkRec, apply1, Option.bind_eq_some_iff] at hlink
      obtain ⟨c, ⟨v, hv, hc⟩, hr⟩ := hlink
      simp only [List.map_cons, linkRec, apply1, hv, Option.bind_some, addWord_at, hc, Option.map_some]
      exact ih c hr
  · intro he
    have : (s.buf ++ t).length = 0 := he
    rw [List.length_append] at this
    omega

theorem ext_inv {s : St} {out : List Nat} (e : List String) (h : Inv s out) : Inv { s with ext := e } out := ⟨h.ok, h.nofix⟩

/-- Room is made for the patch. -/
def roomy (s : St) (e : List String) : St :=
  let s := { s with ext := e }
  if s.buf.length + 3 > maxLedata then flush s else s

theorem roomy_inv {s : St} {out : List Nat} (e : List String) (h : Inv s out) :
    Inv (roomy s e) out ∧ (roomy s e).buf.length + 3 ≤ maxLedata := by
  unfold roomy
  dsimp only
  by_cases hc : s.buf.length + 3 > maxLedata
  · rw [if_pos hc]
    obtain ⟨h1, h2⟩ := flush_inv (ext_inv e h)
    refine ⟨h1, ?_⟩
    rw [h2]
    decide
  · rw [if_neg hc]
    exact ⟨ext_inv e h, by show s.buf.length + 3 ≤ _; omega⟩

/-- Fixups relative to the instruction. -/
def rel : Nat → Option String → List (Nat × String)
  | _, none => []
  | n, some x => [(n, x)]

theorem addFpFixup_eq (s : St) (i : Ins) : ∃ e, addFpFixup s i =
    { roomy s e with fix := (roomy s e).fix ++
        (rel 0 (patchName 0 (patch i)) ++ rel 1 (patchName 1 (patch i))).map (fun f => ((roomy s e).buf.length + f.1, f.2)) } := by
  refine ⟨declare (declare s.ext (patchName 0 (patch i))) (patchName 1 (patch i)), ?_⟩
  unfold addFpFixup
  dsimp only
  cases patchName 0 (patch i) <;> cases patchName 1 (patch i) <;>
    simp [storeFix, rel, roomy]

/-- The first bytes, which are patched, and the others. -/
theorem fp_inv {s : St} {out : List Nat} (h : Inv s out) (i : Ins) (t t' q : List Nat)
    (hb : waitBytes i ++ opBytes i = t ++ q) (hf : fpfix i = true) (hlen : t.length ≤ 3) (hpos : 0 < t.length)
    (hlink : linkRec t (rel 0 (patchName 0 (patch i)) ++ rel 1 (patchName 1 (patch i))) = some t') :
    Inv (step s (.fp i)) (out ++ (t' ++ q)) := by
  show Inv ((waitBytes i ++ opBytes i).foldl outputByte (if fpfix i then addFpFixup s i else s)) _
  rw [if_pos hf, hb, List.foldl_append, ← List.append_assoc]
  apply outputs_inv
  obtain ⟨e, he⟩ := addFpFixup_eq s i
  rw [he]
  obtain ⟨h1, h2⟩ := roomy_inv e h
  exact patched_inv h1 t t' _ hlen hpos h2 hlink

theorem names0 : patchName 0 0 = some "FIWRQQ" ∧ patchName 0 1 = some "FIDRQQ" ∧ patchName 0 2 = some "FIERQQ" ∧
    patchName 0 3 = some "FICRQQ" ∧ patchName 0 4 = some "FISRQQ" ∧ patchName 0 5 = some "FIARQQ" ∧
    patchName 0 6 = some "FIFRQQ" ∧ patchName 0 7 = some "FIGRQQ" := by
  simp [patchName, patchmask, patchchr2, Nat.testBit]

theorem names1 : patchName 1 0 = none ∧ patchName 1 1 = none ∧ patchName 1 2 = none ∧
    patchName 1 3 = some "FJCRQQ" ∧ patchName 1 4 = some "FJSRQQ" ∧ patchName 1 5 = some "FJARQQ" ∧
    patchName 1 6 = some "FJFRQQ" ∧ patchName 1 7 = some "FJGRQQ" := by
  simp [patchName, patchmask, patchchr2, Nat.testBit]

theorem fpfix_iff (i : Ins) : fpfix i = true ↔ Emulated i := by
  unfold fpfix Emulated
  simp

theorem step_inv {s : St} {out : List Nat} (h : Inv s out) (x : Item) (hx : Fits x) : Inv (step s x) (out ++ expected x) := by
  cases x with
  | code bs => exact outputs_inv bs h
  | fp i =>
    obtain ⟨isWait, emu, cpu86, wait, adrsiz, opsiz, seg, k, rest⟩ := i
    obtain ⟨hk, hx⟩ := hx
    dsimp only at hk
    by_cases hE : Emulated ⟨isWait, emu, cpu86, wait, adrsiz, opsiz, seg, k, rest⟩
    · obtain ⟨ha, ho, hs⟩ := hx hE
      have hf := (fpfix_iff _).2 hE
      dsimp only at ha ho
      subst ha ho
      show Inv _ (out ++ (if _ then _ else _))
      rw [if_pos hE]
      cases isWait with
      | true =>
        have := fp_inv h _ [0x90, 0x9B] [0xCD, 0x3D] [] (by simp [waitBytes, opBytes, hf]) hf (by decide) (by decide) (by simp [patch, names0, names1, rel, linkRec, apply1, lib, addWord])
        exact this
      | false =>
        cases seg with
        | none =>
          have := fp_inv h _ [0x9B, 0xD8 + k] [0xCD, 0x34 + k] rest (by simp [waitBytes, opBytes, hf]) hf (by simp) (by simp)
            (by
              have : k = 0 ∨ k = 1 ∨ k = 2 ∨ k = 3 ∨ k = 4 ∨ k = 5 ∨ k = 6 ∨ k = 7 := by omega
              rcases this with rfl | rfl | rfl | rfl | rfl | rfl | rfl | rfl <;>
                simp [patch, names0, names1, rel, linkRec, apply1, lib, addWord, srPrefix, segBits])
          exact this
        | some r =>
          have hr := hs r rfl
          have := fp_inv h ⟨false, emu, cpu86, wait, false, false, some r, k, rest⟩
            [0x9B, srPrefix r, 0xD8 + k] [0xCD, 0x3C, 64 * segBits r + 0x18 + k] rest
            (by simp [waitBytes, opBytes, hf]) hf (by simp) (by simp)
            (by
              have : k = 0 ∨ k = 1 ∨ k = 2 ∨ k = 3 ∨ k = 4 ∨ k = 5 ∨ k = 6 ∨ k = 7 := by omega
              obtain ⟨r, h6⟩ := r
              dsimp only at hr
              have h4 : r = 0 ∨ r = 1 ∨ r = 2 ∨ r = 3 := by omega
              rcases h4 with rfl | rfl | rfl | rfl <;>
              rcases this with rfl | rfl | rfl | rfl | rfl | rfl | rfl | rfl <;>
                simp [patch, names0, names1, rel, linkRec, apply1, lib, addWord, srPrefix, segBits])
          exact this
    · have hf : fpfix ⟨isWait, emu, cpu86, wait, adrsiz, opsiz, seg, k, rest⟩ = false := by
        cases hq : fpfix ⟨isWait, emu, cpu86, wait, adrsiz, opsiz, seg, k, rest⟩ with
        | false => rfl
        | true => exact absurd ((fpfix_iff _).1 hq) hE
      show Inv (List.foldl outputByte (if _ then _ else _) _) (out ++ (if _ then _ else _))
      rw [if_neg hE, hf]
      have : waitBytes ⟨isWait, emu, cpu86, wait, adrsiz, opsiz, seg, k, rest⟩ ++ opBytes ⟨isWait, emu, cpu86, wait, adrsiz, opsiz, seg, k, rest⟩
          = native ⟨isWait, emu, cpu86, wait, adrsiz, opsiz, seg, k, rest⟩ := by
        unfold waitBytes opBytes native
        rw [hf]
        cases isWait <;> cases wait <;> cases cpu86 <;> cases seg <;> simp [srPrefix]
      rw [this]
      exact outputs_inv _ h

theorem steps_inv : ∀ (l : List Item) {s : St} {out : List Nat}, Inv s out → (∀ x ∈ l, Fits x) →
    Inv (l.foldl step s) (out ++ l.flatMap expected) := by
  intro l
  induction l with
  | nil => intro s out h _; simpa using h
  | cons x r ih =>
    intro s out h hf
    have := ih (step_inv h x (hf x (by simp))) (fun y hy => hf y (by simp [hy]))
    simpa using this

/-- **C84** After linking with the emulator library every emulated instruction is the interrupt the emulator expects,
and everything else in the segment is what it would be without emulation. -/
theorem C84_linked_partial (l : List Item) (h : ∀ x ∈ l, Fits x) : link (records l) = some (l.flatMap expected) := by
  have hi : Inv init [] := ⟨⟨[], [], rfl, rfl, rfl⟩, fun _ => rfl⟩
  have h1 := steps_inv l hi h
  obtain ⟨h2, h3⟩ := flush_inv h1
  obtain ⟨a, b, e1, e2, e3⟩ := h2.ok
  have h0 := h2.nofix (by rw [h3]; rfl)
  rw [h3, h0] at e2
  simp only [linkRec, Option.some.injEq] at e2
  subst e2
  show link (flush (l.foldl step init)).recs = _
  rw [e1, ← List.append_nil a, e3]
  rfl

/-! ## The external symbols -/

theorem declare_spec (e : List String) (n : Option String) :
    (e.Nodup → (declare e n).Nodup) ∧ ∀ y, y ∈ declare e n ↔ y ∈ e ∨ n = some y := by
  cases n with
  | none => exact ⟨id, by simp [declare]⟩
  | some x =>
    unfold declare
    dsimp only
    by_cases hx : x ∈ e
    · rw [if_pos hx]
      refine ⟨id, fun y => ⟨Or.inl, ?_⟩⟩
      rintro (h | h)
      · exact h
      · cases h; exact hx
    · rw [if_neg hx]
      refine ⟨fun h => ?_, fun y => ?_⟩
      · rw [List.nodup_append]
        refine ⟨h, by simp, ?_⟩
        intro a ha b hb hab
        simp only [List.mem_singleton] at hb
        subst hb
        exact hx (hab ▸ ha)
      · simp [eq_comm]

theorem flush_ext (s : St) : (flush s).ext = s.ext := by
  unfold flush; split <;> rfl

theorem outputByte_ext (s : St) (b : Nat) : (outputByte s b).ext = s.ext := by
  unfold outputByte
  dsimp only
  split
  · exact flush_ext s
  · rfl

theorem outputs_ext : ∀ (bs : List Nat) (s : St), (bs.foldl outputByte s).ext = s.ext := by
  intro bs
  induction bs with
  | nil => intro s; rfl
  | cons b r ih => intro s; rw [List.foldl_cons, ih, outputByte_ext]

theorem addFpFixup_ext (s : St) (i : Ins) :
    (addFpFixup s i).ext = declare (declare s.ext (patchName 0 (patch i))) (patchName 1 (patch i)) := by
  unfold addFpFixup
  dsimp only
  have hs : ∀ (t : St) (n : Nat) (x : Option String), (storeFix t n x).ext = t.ext := by
    intro t n x; cases x <;> rfl
  rw [hs, hs]
  split
  · rw [flush_ext]
  · rfl

theorem needs_eq (i : Ins) (h : Emulated i) (y : String) :
    (patchName 0 (patch i) = some y ∨ patchName 1 (patch i) = some y) ↔ y ∈ needs (.fp i) := by
  show _ ↔ y ∈ (if Emulated i then _ else _)
  rw [if_pos h]
  unfold patch
  cases i.isWait with
  | true => simp [names0, names1, eq_comm]
  | false =>
    cases i.seg with
    | none => simp [names0, names1, eq_comm]
    | some r =>
      have : r = 0 ∨ r = 1 ∨ r = 2 ∨ r = 3 ∨ r = 4 ∨ r = 5 := by omega
      have e3 : ((3 : Fin 6) : Nat) = 3 := rfl
      have e4 : ((4 : Fin 6) : Nat) = 4 := rfl
      have e5 : ((5 : Fin 6) : Nat) = 5 := rfl
      rcases this with rfl | rfl | rfl | rfl | rfl | rfl <;>
        simp [names0, names1, eq_comm, e3, e4, e5]

theorem step_ext (s : St) (x : Item) :
    (s.ext.Nodup → (step s x).ext.Nodup) ∧ ∀ y, y ∈ (step s x).ext ↔ y ∈ s.ext ∨ y ∈ needs x := by
  cases x with
  | code bs =>
    show (_ → (bs.foldl outputByte s).ext.Nodup) ∧ ∀ y, y ∈ (bs.foldl outputByte s).ext ↔ _
    rw [outputs_ext]
    exact ⟨id, by simp [needs]⟩
  | fp i =>
    show (_ → (List.foldl outputByte _ _).ext.Nodup) ∧ ∀ y, y ∈ (List.foldl outputByte _ _).ext ↔ _
    rw [outputs_ext]
    by_cases hE : Emulated i
    · rw [if_pos ((fpfix_iff i).2 hE), addFpFixup_ext]
      obtain ⟨a1, a2⟩ := declare_spec s.ext (patchName 0 (patch i))
      obtain ⟨b1, b2⟩ := declare_spec (declare s.ext (patchName 0 (patch i))) (patchName 1 (patch i))
      refine ⟨fun h => b1 (a1 h), fun y => ?_⟩
      rw [b2, a2, or_assoc, needs_eq i hE]
    · rw [if_neg (fun h => hE ((fpfix_iff i).1 h))]
      refine ⟨id, fun y => ?_⟩
      simp [needs, hE]

/-- **C84** The object file declares each symbol an instruction of the program needs, once, and no other. -/
theorem C84_externs (l : List Item) : (externs l).Nodup ∧ ∀ y, y ∈ externs l ↔ ∃ x ∈ l, y ∈ needs x := by
  have key : ∀ (l : List Item) (s : St), (s.ext.Nodup → (l.foldl step s).ext.Nodup) ∧
      ∀ y, y ∈ (l.foldl step s).ext ↔ y ∈ s.ext ∨ ∃ x ∈ l, y ∈ needs x := by
    intro l
    induction l with
    | nil => intro s; exact ⟨id, by simp⟩
    | cons x r ih =>
      intro s
      obtain ⟨a1, a2⟩ := step_ext s x
      obtain ⟨b1, b2⟩ := ih (step s x)
      refine ⟨fun h => b1 (a1 h), fun y => ?_⟩
      rw [List.foldl_cons, b2, a2]
      simp [or_assoc]
  obtain ⟨h1, h2⟩ := key l init
  exact ⟨h1 List.nodup_nil, fun y => by rw [externs, h2]; simp [init]⟩

/-! ## Defects -/

/-- `fld dword ptr [eax]` in a 16-bit segment: the address size prefix stands where the opcode is expected, and
the interrupt that results is `INT 0C3h`. -/
theorem C84_defect_prefix :
    link (records [.fp ⟨false, true, false, .implicit, true, false, none, 1, [0x00]⟩]) = some [0xCD, 0xC3, 0xD9, 0x00] := by
  simp [records, flush, step, init, waitBytes, opBytes, fpfix, addFpFixup, patch, names0, names1, declare, storeFix, outputByte,
    maxLedata, link, linkRec, apply1, lib, addWord]

/-! ## Examples -/

/-- `fld st(1)`, `fstp es:[bx]`, `fadd cs:[bx]`, `fwait`, `fnsave [bx]` behind a record that is almost full. -/
def prog : List Item :=
  [.code (List.replicate 1013 0x90), .fp ⟨false, true, false, .implicit, false, false, none, 1, [0xC1]⟩,
   .fp ⟨false, true, false, .implicit, false, false, some 0, 5, [0x1F]⟩,
   .fp ⟨false, true, false, .implicit, false, false, some 1, 0, [0x07]⟩,
   .fp ⟨true, true, false, .implicit, false, false, none, 3, []⟩,
   .fp ⟨false, true, false, .noFwait, false, false, none, 5, [0x37]⟩]

theorem prog_fits : ∀ x ∈ prog, Fits x := by
  intro x hx
  simp only [prog, List.mem_cons, List.not_mem_nil, or_false] at hx
  rcases hx with rfl | rfl | rfl | rfl | rfl | rfl
  · trivial
  all_goals simp [Fits, Emulated]

example : link (records prog) = some (List.replicate 1013 0x90 ++
    [0xCD, 0x35, 0xC1, 0xCD, 0x3C, 0xDD, 0x1F, 0xCD, 0x3C, 0x98, 0x07, 0xCD, 0x3D, 0xDD, 0x37]) :=
  C84_linked_partial prog prog_fits

example : (externs prog).Nodup ∧ "FJCRQQ" ∈ externs prog ∧ "FJARQQ" ∉ externs prog := by
  refine ⟨(C84_externs prog).1, ?_, ?_⟩
  · rw [(C84_externs prog).2]; exact ⟨.fp ⟨false, true, false, .implicit, false, false, some 1, 0, [0x07]⟩,
      .tail _ (.tail _ (.tail _ (.head _))), by simp [needs, Emulated]⟩
  · rw [(C84_externs prog).2]
    rintro ⟨x, hx, hy⟩
    simp only [prog, List.mem_cons, List.not_mem_nil, or_false] at hx
    rcases hx with rfl | rfl | rfl | rfl | rfl | rfl <;> simp [needs, Emulated] at hy

end Verif.FpEmu
