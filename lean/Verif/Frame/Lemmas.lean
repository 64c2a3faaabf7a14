import Verif.Frame.Model
import Verif.Frame.Spec
/-! # Lemmas: pushes and pops, vector stores and loads -/
namespace Verif.Frame

theorem run_append (ws : Nat) (m : M) (a b : List Ins) : run ws m (a ++ b) = run ws (run ws m a) b := by
  simp [run, List.foldl_append]

theorem run_cons (ws : Nat) (m : M) (a : Ins) (b : List Ins) : run ws m (a :: b) = run ws (exec ws m a) b := rfl

theorem written_append (ws : Nat) (m : M) (x : Int) (a b : List Ins) :
    written ws m x (a ++ b) ↔ written ws m x a ∨ written ws (run ws m a) x b := by
  induction a generalizing m with
  | nil => simp [written, run]
  | cons i l ih =>
    simp only [List.cons_append, written, ih, run_cons]
    exact or_assoc.symm

theorem pushes (ws : Nat) (rs : List Nat) (m : M) :
    (run ws m (rs.map Ins.push)).gpr = m.gpr ∧ (run ws m (rs.map Ins.push)).vec = m.vec
    ∧ (run ws m (rs.map Ins.push)).sp = m.sp - ws * rs.length
    ∧ (∀ x, x < m.sp - ws * rs.length ∨ m.sp ≤ x → (run ws m (rs.map Ins.push)).mem x = m.mem x)
    ∧ (∀ x, m.sp - ws * rs.length ≤ x → x < m.sp → written ws m x (rs.map Ins.push)) := by
  induction rs generalizing m with
  | nil => simp [run, written]
  | cons r l ih =>
    have h := ih (exec ws m (.push r))
    simp only [List.map_cons, run_cons]
    have hsp : (exec ws m (.push r)).sp = m.sp - ws := rfl
    have hl : ((r :: l).length : Int) = l.length + 1 := by simp
    have hm : (ws : Int) * (l.length + 1) = ws * l.length + ws := by rw [Int.mul_add]; omega
    have hn : (0 : Int) ≤ ws * l.length := by
      have := Int.natCast_nonneg (ws * l.length); simpa using this
    rw [hsp] at h
    rw [hl, hm]
    generalize hP : (ws : Int) * l.length = P at *
    refine ⟨h.1, h.2.1, ?_, ?_, ?_⟩
    · rw [h.2.2.1]; omega
    · intro x hx
      rw [h.2.2.2.1 x (by omega)]
      exact store_out _ _ _ _ _ (by omega)
    · intro x h1 h2
      by_cases hx : m.sp - ws ≤ x
      · exact .inl ⟨hx, h2⟩
      · exact .inr (h.2.2.2.2 x (by omega) (by omega))

theorem pops_aux (ws : Nat) (l : List Nat) (m0 m1 : M) (hf : ∀ r ∈ l, 0 ≤ m0.gpr r ∧ m0.gpr r < 256 ^ ws)
    (hsp : m1.sp = m0.sp - ws * l.length)
    (hmem : ∀ x, m1.sp ≤ x → x < m0.sp → m1.mem x = (run ws m0 (l.reverse.map Ins.push)).mem x) :
    (run ws m1 (l.map Ins.pop)).sp = m0.sp ∧ (run ws m1 (l.map Ins.pop)).mem = m1.mem
    ∧ (run ws m1 (l.map Ins.pop)).vec = m1.vec
    ∧ ∀ r, (run ws m1 (l.map Ins.pop)).gpr r = if r ∈ l then m0.gpr r else m1.gpr r := by
  induction l generalizing m1 with
  | nil => simp [run] at hsp ⊢; omega
  | cons r l ih =>
    have hp := pushes ws l.reverse m0
    have hl : ((r :: l).length : Int) = l.length + 1 := by simp
    have hm : (ws : Int) * (l.length + 1) = ws * l.length + ws := by rw [Int.mul_add]; omega
    have hn : (0 : Int) ≤ ws * l.length := by
      have := Int.natCast_nonneg (ws * l.length); simpa using this
    rw [hl, hm] at hsp
    have e : (r :: l).reverse.map Ins.push = l.reverse.map Ins.push ++ [.push r] := by simp
    rw [e, run_append] at hmem
    rw [List.length_reverse] at hp
    generalize hP : (ws : Int) * l.length = P at *
    let mp := run ws m0 (l.reverse.map Ins.push)
    have hmp : mp = run ws m0 (l.reverse.map Ins.push) := rfl
    rw [← hmp] at hp hmem
    have hv : load m1.mem m1.sp ws = m0.gpr r := by
      have : load m1.mem m1.sp ws = load (store mp.mem (mp.sp - ws) ws (mp.gpr r)) m1.sp ws := by
        apply load_congr
        intro x h1 h2
        exact hmem x h1 (by omega)
      rw [this, hp.1, show m1.sp = mp.sp - ws by rw [hp.2.2.1]; omega]
      exact load_store_eq _ _ _ _ (hf r List.mem_cons_self).1 (hf r List.mem_cons_self).2
    have h := ih (exec ws m1 (.pop r)) (fun q hq => hf q (List.mem_cons_of_mem _ hq)) (by show m1.sp + ws = _; omega) (by
      intro x h1 h2
      have h1' : m1.sp + ws ≤ x := h1
      show m1.mem x = _
      rw [hmem x (by omega) h2]
      show store mp.mem (mp.sp - ws) ws (mp.gpr r) x = _
      rw [store_out _ _ _ _ _ (.inr (by rw [hp.2.2.1]; omega))])
    simp only [List.map_cons, run_cons]
    refine ⟨h.1, h.2.1, h.2.2.1, ?_⟩
    intro q
    rw [h.2.2.2 q]
    by_cases hq : q ∈ l
    · rw [if_pos hq, if_pos (List.mem_cons_of_mem _ hq)]
    · rw [if_neg hq]
      show setG m1.gpr r (load m1.mem m1.sp ws) q = _
      unfold setG
      by_cases hqr : q = r
      · subst hqr; rw [if_pos rfl, if_pos List.mem_cons_self, hv]
      · rw [if_neg hqr, if_neg (by simp [hqr, hq])]

/-- Popping in reverse order what was pushed. -/
theorem pops (ws : Nat) (rs : List Nat) (m0 m1 : M) (hf : ∀ r ∈ rs, 0 ≤ m0.gpr r ∧ m0.gpr r < 256 ^ ws)
    (hsp : m1.sp = m0.sp - ws * rs.length)
    (hmem : ∀ x, m1.sp ≤ x → x < m0.sp → m1.mem x = (run ws m0 (rs.map Ins.push)).mem x) :
    (run ws m1 (popLines rs)).sp = m0.sp ∧ (run ws m1 (popLines rs)).mem = m1.mem
    ∧ (run ws m1 (popLines rs)).vec = m1.vec
    ∧ ∀ r, (run ws m1 (popLines rs)).gpr r = if r ∈ rs then m0.gpr r else m1.gpr r := by
  have h := pops_aux ws rs.reverse m0 m1 (fun r hr => hf r (by simpa using hr)) (by simpa using hsp) (by simpa using hmem)
  simpa [popLines] using h

/-! ## Vector registers -/

def bytes (vs : List (Nat × Nat)) : Nat := (vs.map (·.2)).sum

theorem bytes_cons (p : Nat × Nat) (vs : List (Nat × Nat)) : bytes (p :: vs) = p.2 + bytes vs := by simp [bytes]

theorem code_append (a b : List Line) : code (a ++ b) = code a ++ code b := by simp [code]

theorem code_map (l : List Ins) : code (l.map Line.ins) = l := by
  induction l with
  | nil => rfl
  | cons a l ih => simpa [code, Line.ins?] using ih

theorem code_vput (i : Int) (r n : Nat) (l : List (Nat × Nat)) :
    code (vputLines i ((r, n) :: l)) = .vput r i n :: code (vputLines (i + n) l) := by
  rfl

theorem vputs (ws : Nat) (vs : List (Nat × Nat)) (i : Int) (m : M) :
    (run ws m (code (vputLines i vs))).gpr = m.gpr ∧ (run ws m (code (vputLines i vs))).vec = m.vec
    ∧ (run ws m (code (vputLines i vs))).sp = m.sp
    ∧ (∀ x, x < m.sp + i ∨ m.sp + i + bytes vs ≤ x → (run ws m (code (vputLines i vs))).mem x = m.mem x)
    ∧ (∀ x, m.sp + i ≤ x → x < m.sp + i + bytes vs → written ws m x (code (vputLines i vs))) := by
  induction vs generalizing i m with
  | nil => simp [vputLines, code, run, bytes, written]
  | cons p l ih =>
    obtain ⟨r, n⟩ := p
    rw [code_vput, run_cons, bytes_cons]
    have h := ih (i + n) (exec ws m (.vput r i n))
    have hsp : (exec ws m (.vput r i n)).sp = m.sp := rfl
    rw [hsp] at h
    refine ⟨h.1, h.2.1, h.2.2.1, ?_, ?_⟩
    · intro x hx
      simp only [Int.natCast_add] at hx
      rw [h.2.2.2.1 x (by omega)]
      exact store_out _ _ _ _ _ (by omega)
    · intro x h1 h2
      simp only [Int.natCast_add] at h2
      by_cases hx : x < m.sp + i + n
      · exact .inl ⟨h1, hx⟩
      · exact .inr (h.2.2.2.2 x (by omega) (by omega))

/-- The base address of a vector load. -/
def baseVal (m : M) : Option Nat → Int
  | none => m.sp
  | some b => m.gpr b

theorem vgets (ws : Nat) (vs : List (Nat × Nat)) (i d : Int) (base : Option Nat) (m0 m1 : M)
    (hnd : (vs.map (·.1)).Nodup) (hb : baseVal m1 base + d = m0.sp + i)
    (hmem : ∀ x, m0.sp + i ≤ x → x < m0.sp + i + bytes vs → m1.mem x = (run ws m0 (code (vputLines i vs))).mem x) :
    (run ws m1 (vgetLines base d vs)).sp = m1.sp ∧ (run ws m1 (vgetLines base d vs)).mem = m1.mem
    ∧ (run ws m1 (vgetLines base d vs)).gpr = m1.gpr
    ∧ (∀ p ∈ vs, (run ws m1 (vgetLines base d vs)).vec p.1 = m0.vec p.1 % 256 ^ p.2)
    ∧ (∀ r, r ∉ vs.map (·.1) → (run ws m1 (vgetLines base d vs)).vec r = m1.vec r) := by
  induction vs generalizing i d m0 m1 with
  | nil => simp [vgetLines, run]
  | cons p l ih =>
    obtain ⟨r, n⟩ := p
    rw [code_vput] at hmem
    simp only [bytes_cons, Int.natCast_add] at hmem
    simp only [vgetLines, run_cons]
    have hv := vputs ws l (i + n) (exec ws m0 (.vput r i n))
    have hsp : (exec ws m0 (.vput r i n)).sp = m0.sp := rfl
    rw [hsp] at hv
    have hnd' := List.nodup_cons.1 hnd
    have h := ih (i + n) (d + n) (exec ws m0 (.vput r i n)) (exec ws m1 (.vget r base d n)) hnd'.2
      (by
        have : baseVal (exec ws m1 (.vget r base d n)) base = baseVal m1 base := by cases base <;> rfl
        rw [this, hsp]; omega)
      (by
        rw [hsp]
        intro x h1 h2
        exact hmem x (by omega) (by omega))
    have hload : load m1.mem (baseVal m1 base + d) n = m0.vec r % 256 ^ n := by
      rw [hb, ← load_store m0.mem n (m0.sp + i) (m0.vec r)]
      apply load_congr
      intro x h1 h2
      rw [hmem x h1 (by omega), run_cons, hv.2.2.2.1 x (.inl (by omega))]
      rfl
    refine ⟨h.1, h.2.1, h.2.2.1, ?_, ?_⟩
    · intro q hq
      rcases List.mem_cons.1 hq with rfl | hq
      · rw [h.2.2.2.2 r (by simpa using hnd'.1)]
        show setG m1.vec r _ r = _
        unfold setG
        rw [if_pos rfl, ← hload]
        cases base <;> rfl
      · exact h.2.2.2.1 q hq
    · intro q hq
      rw [List.map_cons, List.mem_cons] at hq
      have hq' : q ≠ r ∧ q ∉ l.map (·.1) := ⟨fun e => hq (.inl e), fun e => hq (.inr e)⟩
      rw [h.2.2.2.2 q hq'.2]
      show setG m1.vec r _ q = _
      unfold setG
      rw [if_neg hq'.1]

/-! ## The frame -/

/-- The instruction that makes room on the stack, or none if there is nothing to reserve. -/
def IsSub (S : List Ins) (N : Int) : Prop := S = [.sub N] ∨ (S = [] ∧ N = 0)

theorem run_sub (ws : Nat) (m : M) {S : List Ins} {N : Int} (h : IsSub S N) : run ws m S = { m with sp := m.sp - N } := by
  rcases h with rfl | ⟨rfl, rfl⟩
  · rfl
  · simp [run]

theorem written_sub (ws : Nat) (m : M) (x : Int) {S : List Ins} {N : Int} (h : IsSub S N) : ¬ written ws m x S := by
  rcases h with rfl | ⟨rfl, rfl⟩ <;> simp [written, writes]

/-- State after pushes, reservation, vector stores. -/
theorem core_run (ws : Nat) (rs : List Nat) (S : List Ins) (N i : Int) (vs : List (Nat × Nat)) (m0 : M) (hS : IsSub S N) :
    let Q := rs.map Ins.push ++ S ++ code (vputLines i vs)
    (run ws m0 Q).gpr = m0.gpr ∧ (run ws m0 Q).vec = m0.vec ∧ (run ws m0 Q).sp = m0.sp - ws * rs.length - N := by
  intro Q
  have hp := pushes ws rs m0
  have hv := vputs ws vs i { run ws m0 (rs.map Ins.push) with sp := (run ws m0 (rs.map Ins.push)).sp - N }
  simp only [Q, run_append, run_sub ws _ hS]
  exact ⟨hv.1.trans hp.1, hv.2.1.trans hp.2.1, by rw [hv.2.2.1]; show _ - _ = _; rw [hp.2.2.1]⟩

/-- Loading the vector registers back. -/
theorem core_vec (ws : Nat) (rs : List Nat) (S : List Ins) (N i d : Int) (vs : List (Nat × Nat)) (base : Option Nat)
    (m0 m1 : M) (hS : IsSub S N) (hnd : (vs.map (·.1)).Nodup)
    (hk : ∀ a, written ws m0 a (rs.map Ins.push ++ S ++ code (vputLines i vs)) →
      m1.mem a = (run ws m0 (rs.map Ins.push ++ S ++ code (vputLines i vs))).mem a)
    (hb : baseVal m1 base + d = m0.sp - ws * rs.length - N + i) :
    (run ws m1 (vgetLines base d vs)).sp = m1.sp ∧ (run ws m1 (vgetLines base d vs)).mem = m1.mem
    ∧ (run ws m1 (vgetLines base d vs)).gpr = m1.gpr
    ∧ (∀ p ∈ vs, (run ws m1 (vgetLines base d vs)).vec p.1 = m0.vec p.1 % 256 ^ p.2)
    ∧ (∀ r, r ∉ vs.map (·.1) → (run ws m1 (vgetLines base d vs)).vec r = m1.vec r) := by
  have hp := pushes ws rs m0
  let mS : M := { run ws m0 (rs.map Ins.push) with sp := (run ws m0 (rs.map Ins.push)).sp - N }
  have hmS : mS.sp = m0.sp - ws * rs.length - N := by show _ - N = _; rw [hp.2.2.1]
  have hv := vputs ws vs i mS
  have h := vgets ws vs i d base mS m1 hnd (by rw [hb, hmS]) (by
    intro x h1 h2
    rw [hk x, run_append, run_append, run_sub ws _ hS]
    rw [written_append]
    right
    rw [run_append, run_sub ws _ hS]
    exact hv.2.2.2.2 x h1 h2)
  have e : mS.vec = m0.vec := hp.2.1
  rw [e] at h
  exact h

/-- Popping the registers back. -/
theorem core_pop (ws : Nat) (rs : List Nat) (S : List Ins) (N i : Int) (vs : List (Nat × Nat))
    (m0 m1 m3 : M) (hf : ∀ r ∈ rs, 0 ≤ m0.gpr r ∧ m0.gpr r < 256 ^ ws) (hS : IsSub S N) (hi : i + bytes vs ≤ N)
    (hk : ∀ a, written ws m0 a (rs.map Ins.push ++ S ++ code (vputLines i vs)) →
      m1.mem a = (run ws m0 (rs.map Ins.push ++ S ++ code (vputLines i vs))).mem a)
    (hm : m3.mem = m1.mem) (hsp : m3.sp = m0.sp - ws * rs.length) :
    (run ws m3 (popLines rs)).sp = m0.sp ∧ (run ws m3 (popLines rs)).mem = m1.mem
    ∧ (run ws m3 (popLines rs)).vec = m3.vec
    ∧ ∀ r, (run ws m3 (popLines rs)).gpr r = if r ∈ rs then m0.gpr r else m3.gpr r := by
  have hp := pushes ws rs m0
  let mS : M := { run ws m0 (rs.map Ins.push) with sp := (run ws m0 (rs.map Ins.push)).sp - N }
  have hmS : mS.sp = m0.sp - ws * rs.length - N := by show _ - N = _; rw [hp.2.2.1]
  have hv := vputs ws vs i mS
  have h := pops ws rs m0 m3 hf hsp (by
    intro x h1 h2
    rw [hm, hk x]
    · rw [run_append, run_append, run_sub ws _ hS]
      exact hv.2.2.2.1 x (.inr (by rw [hmS]; omega))
    · rw [written_append, written_append]
      exact .inl (.inl (hp.2.2.2.2 x (by omega) h2)))
  rw [hm] at h
  exact h

/-- Memory above the frame is not touched by the prologue. -/
theorem core_above (ws : Nat) (rs : List Nat) (S : List Ins) (N i : Int) (vs : List (Nat × Nat)) (m0 : M) (hS : IsSub S N)
    (hi : i + bytes vs ≤ N) (x : Int) (hx : m0.sp ≤ x) :
    (run ws m0 (rs.map Ins.push ++ S ++ code (vputLines i vs))).mem x = m0.mem x := by
  have hp := pushes ws rs m0
  have hn : (0 : Int) ≤ ws * rs.length := by
    have := Int.natCast_nonneg (ws * rs.length); simpa using this
  let mS : M := { run ws m0 (rs.map Ins.push) with sp := (run ws m0 (rs.map Ins.push)).sp - N }
  have hmS : mS.sp = m0.sp - ws * rs.length - N := by show _ - N = _; rw [hp.2.2.1]
  have hv := vputs ws vs i mS
  rw [run_append, run_append, run_sub ws _ hS, hv.2.2.2.1 x (.inr (by rw [hmS]; omega))]
  exact hp.2.2.2.1 x (.inr hx)

/-- Instructions that only write memory. -/
def OnlyMem : Ins → Prop
  | .put .. => True
  | .vput .. => True
  | _ => False

theorem run_onlyMem (ws : Nat) (l : List Ins) (m : M) (h : ∀ i ∈ l, OnlyMem i) :
    (run ws m l).gpr = m.gpr ∧ (run ws m l).vec = m.vec ∧ (run ws m l).sp = m.sp := by
  induction l generalizing m with
  | nil => exact ⟨rfl, rfl, rfl⟩
  | cons a l ih =>
    have := ih (exec ws m a) (fun i hi => h i (List.mem_cons_of_mem _ hi))
    have ha := h a List.mem_cons_self
    cases a <;> first | exact ha.elim | exact this

end Verif.Frame
