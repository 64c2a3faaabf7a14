import Verif.Frame.ReadBack
import Verif.Frame.EpilogueRsp
/-! # Unwinding a procedure with a generated prologue -/
namespace Verif.Frame


theorem codeLen_append (len : Ins → Nat) (a b : List Line) : codeLen len (a ++ b) = codeLen len a + codeLen len b := by
  simp [codeLen, code_append]

theorem codeLen_ins (len : Ins → Nat) (i : Ins) (l : List Line) : codeLen len (.ins i :: l) = len i + codeLen len l := by
  simp [codeLen, code, Line.ins?]

theorem codeLen_dir (len : Ins → Nat) (d : Dir) (l : List Line) : codeLen len (.dir d :: l) = codeLen len l := rfl

theorem dirsAt_append (len : Ins → Nat) (pos : Nat) (a b : List Line) :
    dirsAt len pos (a ++ b) = dirsAt len pos a ++ dirsAt len (pos + codeLen len a) b := by
  induction a generalizing pos with
  | nil => rfl
  | cons x a ih =>
    cases x with
    | ins i =>
      simp only [List.cons_append, dirsAt, ih, codeLen_ins]
      rw [Nat.add_assoc]
    | dir d => simp only [List.cons_append, dirsAt, ih, codeLen_dir]

theorem dirsAt_le (len : Ins → Nat) (pos : Nat) (a : List Line) : ∀ p ∈ dirsAt len pos a, pos ≤ p.1 ∧ p.1 ≤ pos + codeLen len a := by
  induction a generalizing pos with
  | nil => intro p hp; cases hp
  | cons x a ih =>
    cases x with
    | ins i =>
      intro p hp
      have := ih _ p hp
      rw [codeLen_ins]; omega
    | dir d =>
      intro p hp
      rw [codeLen_dir]
      rcases List.mem_cons.1 hp with rfl | hp
      · simp
      · exact ih _ p hp

/-- The operations of the directives among the lines. -/
def ops (ls : List Line) : List UOp := ls.filterMap (fun l => match l with | .ins _ => none | .dir d => opOf d)

theorem ops_append (a b : List Line) : ops (a ++ b) = ops a ++ ops b := by simp [ops]

theorem opsOf_snd (len : Ins → Nat) (pos : Nat) (a : List Line) : (opsOf (dirsAt len pos a)).map (·.2) = ops a := by
  induction a generalizing pos with
  | nil => rfl
  | cons x a ih =>
    cases x with
    | ins i => exact ih _
    | dir d =>
      have := ih pos
      simp only [dirsAt, opsOf, ops, List.filterMap_cons] at this ⊢
      cases opOf d with
      | none => simpa using this
      | some o => simpa using this


theorem active_eq (len : Ins → Nat) (hl : ∀ i, 0 < len i) (ls1 ls2 : List Line) (pos : Nat) (hb : Boundary len ls1 ls2 pos)
    (i : UInfo) (hc : i.codes = (opsOf (dirsAt len 0 (ls1 ++ ls2))).reverse) : active i pos = (ops ls1).reverse := by
  unfold active
  rw [hc, dirsAt_append]
  simp only [opsOf, List.filterMap_append, List.reverse_append, List.filter_append, List.map_append]
  have h1 : ∀ p ∈ (List.filterMap (fun p : Nat × Dir => (opOf p.2).map (p.1, ·)) (dirsAt len 0 ls1)).reverse, p.1 ≤ pos := by
    intro p hp
    rw [List.mem_reverse, List.mem_filterMap] at hp
    obtain ⟨q, hq, e⟩ := hp
    have := dirsAt_le len 0 ls1 q hq
    have e' : p.1 = q.1 := by
      cases ho : opOf q.2 with
      | none => rw [ho] at e; cases e
      | some o => rw [ho] at e; simp only [Option.map_some, Option.some.injEq] at e; rw [← e]
    rcases hb with ⟨_, hb⟩ | ⟨_, _, _, hb⟩ <;> omega
  have h2 : (List.filterMap (fun p : Nat × Dir => (opOf p.2).map (p.1, ·)) (dirsAt len (0 + codeLen len ls1) ls2)).reverse.filter
      (fun c => decide (c.1 ≤ pos)) = [] := by
    rw [List.filter_eq_nil_iff]
    intro p hp
    rw [List.mem_reverse, List.mem_filterMap] at hp
    obtain ⟨q, hq, e⟩ := hp
    have e' : p.1 = q.1 := by
      cases ho : opOf q.2 with
      | none => rw [ho] at e; cases e
      | some o => rw [ho] at e; simp only [Option.map_some, Option.some.injEq] at e; rw [← e]
    rcases hb with ⟨h, _⟩ | ⟨j, r, h, hb⟩
    · rw [h] at hq; cases hq
    · rw [h] at hq
      have := dirsAt_le len _ r q hq
      have hj := hl j
      simp only [decide_eq_true_eq]
      omega
  rw [h2, List.filter_eq_self.2 (by simpa using h1)]
  have := opsOf_snd len 0 ls1
  simp only [opsOf] at this
  rw [List.map_nil, List.nil_append, List.map_reverse, this]

/-- A prologue that was accepted is at most 255 bytes long. -/
theorem endprolog_pos (len : Ins → Nat) (ls : List Line) (u u' : U) (pos : Nat)
    (h : assembleLines len u pos (ls ++ [.dir .endprolog]) = .ok u') : pos + codeLen len ls ≤ 255 ∧ u'.sizeOfProlog = pos + codeLen len ls
    ∧ u'.done = true := by
  induction ls generalizing pos u with
  | nil =>
    simp only [List.nil_append, assembleLines, excFrame] at h
    cases hd : u.done
    · rw [hd] at h
      simp only [Bool.false_eq_true, if_false] at h
      by_cases hp : pos > 255
      · rw [if_pos hp] at h; cases h
      · rw [if_neg hp] at h
        simp only [Except.ok.injEq] at h
        subst h
        simp [codeLen, code]; omega
    · rw [hd] at h; simp at h
  | cons x ls ih =>
    cases x with
    | ins i =>
      have := ih u (pos + len i) h
      rw [codeLen_ins, ← Nat.add_assoc]
      exact this
    | dir d =>
      simp only [List.cons_append, assembleLines] at h
      rw [codeLen_dir]
      cases he : excFrame u pos d with
      | error e => rw [he] at h; cases h
      | ok u1 => rw [he] at h; exact ih u1 pos h

theorem dirs_small (len : Ins → Nat) (ls : List Line) (u u' : U)
    (h : assembleLines len u 0 (ls ++ [.dir .endprolog]) = .ok u') : ∀ p ∈ dirsAt len 0 (ls ++ [.dir .endprolog]), p.1 < 256 := by
  intro p hp
  have h1 := endprolog_pos len ls u u' 0 h
  have h2 := dirsAt_le len 0 _ p hp
  rw [codeLen_append, codeLen_dir] at h2
  have : codeLen len [] = 0 := rfl
  omega

/-! ## The prologues as a list of steps -/

/-- An instruction with the directive that follows it. -/
abbrev Step := Ins × Option Dir

def stepLines (s : Step) : List Line := .ins s.1 :: (match s.2 with | none => [] | some d => [.dir d])

def toLines (l : List Step) : List Line := l.flatMap stepLines

theorem toLines_append (a b : List Step) : toLines (a ++ b) = toLines a ++ toLines b := by simp [toLines]

theorem code_toLines (l : List Step) : code (toLines l) = l.map (·.1) := by
  induction l with
  | nil => rfl
  | cons s l ih =>
    have : code (stepLines s) = [s.1] := by unfold stepLines; obtain ⟨i, d⟩ := s; cases d <;> rfl
    show code (stepLines s ++ toLines l) = _
    rw [code_append, this, ih]; rfl

theorem ops_toLines (l : List Step) : ops (toLines l) = l.filterMap (fun s => s.2.bind opOf) := by
  induction l with
  | nil => rfl
  | cons s l ih =>
    show ops (stepLines s ++ toLines l) = _
    rw [ops_append, ih]
    obtain ⟨i, d⟩ := s
    cases d with
    | none => rfl
    | some d =>
      simp only [stepLines, ops, List.filterMap_cons, Option.bind_some]
      cases opOf d <;> rfl

/-- A boundary of the prologue is a boundary of its steps. -/
theorem split_steps (st : List Step) (ls1 r : List Line) (i : Ins) (h : toLines st ++ [.dir .endprolog] = ls1 ++ .ins i :: r) :
    ∃ a b, st = a ++ b ∧ ls1 = toLines a := by
  induction st generalizing ls1 with
  | nil =>
    cases ls1 with
    | nil => cases h
    | cons x l =>
      simp only [toLines, List.flatMap_nil, List.nil_append, List.cons_append, List.cons.injEq] at h
      have := h.2
      cases l <;> cases this
  | cons s st ih =>
    cases ls1 with
    | nil => exact ⟨[], s :: st, rfl, rfl⟩
    | cons x l =>
      have e : toLines (s :: st) = stepLines s ++ toLines st := rfl
      rw [e] at h
      obtain ⟨j, d⟩ := s
      cases d with
      | none =>
        simp only [stepLines, List.cons_append, List.nil_append, List.cons.injEq] at h
        obtain ⟨a, b, h1, h2⟩ := ih l h.2
        refine ⟨(j, none) :: a, b, by rw [h1]; rfl, ?_⟩
        rw [← h.1, h2]; rfl
      | some d =>
        simp only [stepLines, List.cons_append, List.nil_append, List.cons.injEq] at h
        cases l with
        | nil => have := h.2; cases this
        | cons y l =>
          simp only [List.cons_append, List.cons.injEq] at h
          obtain ⟨a, b, h1, h2⟩ := ih l h.2.2
          refine ⟨(j, some d) :: a, b, by rw [h1]; rfl, ?_⟩
          rw [← h.1, ← h.2.1, h2]; rfl

/-- A prologue: parameters are saved, registers pushed, the stack extended, vector registers stored, the frame pointer set. -/
structure F where
  pre : List Ins
  rs : List Nat
  N : Nat
  i : Nat
  vs : List (Nat × Nat)
  lea : Option (Nat × Nat)

def pushSteps (rs : List Nat) : List Step := rs.map (fun r => (.push r, some (.pushreg r)))
def subSteps (n : Nat) : List Step := if n > 0 then [(.sub n, some (.alloc n))] else []
def vputSteps : Nat → List (Nat × Nat) → List Step
  | _, [] => []
  | i, (r, n) :: l => (.vput r i n, some (.savexmm r i)) :: vputSteps (i + n) l
def leaSteps : Option (Nat × Nat) → List Step
  | none => []
  | some (b, o) => [(.lea b o, some (.setframe b o))]

def F.steps (f : F) : List Step :=
  f.pre.map (fun i => (i, none)) ++ (pushSteps f.rs ++ (subSteps f.N ++ (vputSteps f.i f.vs ++ leaSteps f.lea)))

def F.lines (f : F) : List Line := toLines f.steps ++ [.dir .endprolog]

/-- Operations of the executed part, in the order of the unwinder. -/
def xmmOps : Nat → List (Nat × Nat) → List UOp
  | _, [] => []
  | i, (r, n) :: l => .saveXmm128 r i :: xmmOps (i + n) l

def allocOps (n : Nat) : List UOp := if n > 0 then [.alloc n] else []
def leaOps : Option (Nat × Nat) → List UOp
  | none => []
  | some _ => [.setFpreg]

theorem ops_lea (l : Option (Nat × Nat)) : ops (toLines (leaSteps l)) = leaOps l := by
  rw [ops_toLines]; cases l <;> rfl

theorem ops_push (rs : List Nat) : ops (toLines (pushSteps rs)) = rs.map UOp.pushNonvol := by
  rw [ops_toLines]; induction rs with
  | nil => rfl
  | cons r l ih => simp only [pushSteps, List.map_cons, List.filterMap_cons, Option.bind_some, opOf] at ih ⊢; rw [ih]

theorem ops_pre (l : List Ins) : ops (toLines (l.map (fun i => (i, none)))) = [] := by
  rw [ops_toLines]; induction l with
  | nil => rfl
  | cons r l ih => simpa using ih

theorem ops_sub (n : Nat) : ops (toLines (subSteps n)) = allocOps n := by
  unfold subSteps allocOps
  split
  · simp [ops_toLines, opOf]
  · rfl

theorem ops_vput (i : Nat) (vs : List (Nat × Nat)) : ops (toLines (vputSteps i vs)) = xmmOps i vs := by
  rw [ops_toLines]; induction vs generalizing i with
  | nil => rfl
  | cons p l ih => obtain ⟨r, n⟩ := p; simp [vputSteps, xmmOps, opOf, ih]

theorem code_push (rs : List Nat) : (pushSteps rs).map (·.1) = rs.map Ins.push := by simp [pushSteps]
theorem code_sub (n : Nat) : IsSub ((subSteps n).map (·.1)) n := by
  unfold subSteps
  split
  · exact .inl rfl
  · exact .inr ⟨rfl, by omega⟩
theorem code_vputS (i : Nat) (vs : List (Nat × Nat)) : (vputSteps i vs).map (·.1) = code (vputLines i vs) := by
  induction vs generalizing i with
  | nil => rfl
  | cons p l ih =>
    obtain ⟨r, n⟩ := p
    rw [code_vput]
    simp only [vputSteps, List.map_cons, ih]
    rw [Int.natCast_add]

theorem load_store_le (mem : Int → Int) (k n : Nat) (a v : Int) (h : k ≤ n) : load (store mem a n v) a k = v % 256 ^ k := by
  rw [← load_store mem k a v]
  induction k generalizing n a v mem with
  | zero => rfl
  | succ k ih =>
    cases n with
    | zero => omega
    | succ n =>
      simp only [load]
      have e1 : store mem a (n + 1) v a = store mem a (k + 1) v a := by simp [store]
      have e2 : load (store mem a (n + 1) v) (a + 1) k = load (store mem (a + 1) n (v / 256)) (a + 1) k :=
        load_congr _ _ _ _ (fun x h1 _ => by simp only [store]; rw [if_neg (by omega)])
      have e3 : load (store mem a (k + 1) v) (a + 1) k = load (store mem (a + 1) k (v / 256)) (a + 1) k :=
        load_congr _ _ _ _ (fun x h1 _ => by simp only [store]; rw [if_neg (by omega)])
      rw [e1, e2, e3, ih _ n _ _ (by omega)]

/-- The saved vector registers are in memory. -/
theorem xmm_saved (ws : Nat) (vs : List (Nat × Nat)) (i : Int) (m0 : M) (mem : Int → Int) (h16 : ∀ p ∈ vs, 16 ≤ p.2)
    (hm : ∀ x, m0.sp + i ≤ x → x < m0.sp + i + bytes vs → mem x = (run ws m0 (code (vputLines i vs))).mem x) :
    ∀ (a b : List (Nat × Nat)) (p : Nat × Nat), vs = a ++ p :: b → load mem (m0.sp + i + bytes a) 16 = m0.vec p.1 % 256 ^ 16 := by
  induction vs generalizing i m0 with
  | nil => intro a b p h; simp at h
  | cons q l ih =>
    obtain ⟨r, n⟩ := q
    intro a b p h
    rw [code_vput] at hm
    simp only [bytes_cons, Int.natCast_add] at hm
    have hv := vputs ws l (i + n) (exec ws m0 (.vput r i n))
    have hsp : (exec ws m0 (.vput r i n)).sp = m0.sp := rfl
    rw [hsp] at hv
    have hn := h16 (r, n) List.mem_cons_self
    cases a with
    | nil =>
      simp only [List.nil_append, List.cons.injEq] at h
      rw [← h.1, ← load_store_le m0.mem 16 n (m0.sp + i) (m0.vec r) hn]
      have : bytes [] = 0 := rfl
      rw [this]
      simp only [Int.natCast_zero, Int.add_zero]
      apply load_congr
      intro x h1 h2
      simp only at hn
      rw [hm x h1 (by omega), run_cons, hv.2.2.2.1 x (.inl (by omega))]
      rfl
    | cons c a =>
      simp only [List.cons_append, List.cons.injEq] at h
      have := ih (i + n) (exec ws m0 (.vput r i n)) (fun p hp => h16 p (List.mem_cons_of_mem _ hp)) (by
        rw [hsp]
        intro x h1 h2
        exact hm x (by omega) (by omega)) a b p h.2
      rw [hsp] at this
      rw [← h.1, bytes_cons, Int.natCast_add]
      have e : m0.sp + i + ((n : Int) + bytes a) = m0.sp + (i + n) + bytes a := by omega
      rw [show (((r, n) : Nat × Nat).2 : Int) = n from rfl, e, this]
      rfl

theorem undo_xmm (fr fo : Nat) (base : Int) (vs : List (Nat × Nat)) (i : Nat) (m : M) (hnd : (vs.map (·.1)).Nodup) :
    let m' := (xmmOps i vs).reverse.foldl (undo fr fo base) m
    m'.sp = m.sp ∧ m'.mem = m.mem ∧ m'.gpr = m.gpr
    ∧ (∀ a b p, vs = a ++ p :: b → m'.vec p.1 = load m.mem (base + i + bytes a) 16)
    ∧ (∀ r, r ∉ vs.map (·.1) → m'.vec r = m.vec r) := by
  intro m'
  induction vs generalizing i with
  | nil => refine ⟨rfl, rfl, rfl, ?_, fun _ _ => rfl⟩; intro a b p h; simp at h
  | cons q l ih =>
    obtain ⟨r, n⟩ := q
    have hnd' := List.nodup_cons.1 hnd
    have h := ih (i + n) hnd'.2
    have e : m' = undo fr fo base ((xmmOps (i + n) l).reverse.foldl (undo fr fo base) m) (.saveXmm128 r i) := by
      simp only [m', xmmOps, List.reverse_cons, List.foldl_append, List.foldl_cons, List.foldl_nil]
    generalize (xmmOps (i + n) l).reverse.foldl (undo fr fo base) m = mm at *
    rw [e]
    refine ⟨h.1, h.2.1, h.2.2.1, ?_, ?_⟩
    · intro a b p hp
      cases a with
      | nil =>
        simp only [List.nil_append, List.cons.injEq] at hp
        rw [← hp.1]
        show setG mm.vec r _ r = _
        unfold setG
        rw [if_pos rfl, h.2.1]
        simp [bytes]
      | cons c a =>
        simp only [List.cons_append, List.cons.injEq] at hp
        have hne : p.1 ≠ r := by
          intro e2
          apply hnd'.1
          rw [hp.2]
          simp [← e2]
        show setG mm.vec r _ p.1 = _
        unfold setG
        rw [if_neg hne, h.2.2.2.1 a b p hp.2, ← hp.1, bytes_cons]
        congr 1
        simp only [Int.natCast_add]
        omega
    · intro q hq
      rw [List.map_cons, List.mem_cons] at hq
      have hq' : q ≠ r ∧ q ∉ l.map (·.1) := ⟨fun e => hq (.inl e), fun e => hq (.inr e)⟩
      show setG mm.vec r _ q = _
      unfold setG
      rw [if_neg hq'.1, h.2.2.2.2 q hq'.2]

theorem undo_pops (fr fo : Nat) (base : Int) (rs : List Nat) (m : M) :
    (rs.map UOp.pushNonvol).reverse.foldl (undo fr fo base) m = run 8 m (popLines rs) := by
  unfold popLines run
  rw [← List.map_reverse, List.foldl_map, List.foldl_map]
  rfl

/-- Undoing an executed part of a prologue. -/
theorem undo_part (pre S : List Ins) (rs : List Nat) (N i : Nat) (vs : List (Nat × Nat)) (lea : Option (Nat × Nat)) (m0 m1 : M)
    (hpre : ∀ x ∈ pre, OnlyMem x) (hf : fits 8 m0) (hS : IsSub S N) (hi : i + bytes vs ≤ N) (hnd : (vs.map (·.1)).Nodup)
    (h16 : ∀ p ∈ vs, 16 ≤ p.2) (fr fo : Nat) (base : Int)
    (hk : ∀ a, written 8 m0 a (pre ++ (rs.map Ins.push ++ S ++ code (vputLines i vs))) →
      m1.mem a = (run 8 m0 (pre ++ (rs.map Ins.push ++ S ++ code (vputLines i vs)))).mem a)
    (hbase : base = m0.sp - 8 * rs.length - N)
    (hsp : lea = none → m1.sp = m0.sp - 8 * rs.length - N)
    (hlea : lea ≠ none → m1.gpr fr - fo * 16 = m0.sp - 8 * rs.length - N) :
    Unwound rs vs m0 m1 (((rs.map UOp.pushNonvol ++ (allocOps N ++ (xmmOps i vs ++ leaOps lea))).reverse).foldl (undo fr fo base) m1) := by
  obtain ⟨p1, p2, p3⟩ := run_onlyMem 8 pre m0 hpre
  let mp := run 8 m0 pre
  have hk' : ∀ a, written 8 mp a (rs.map Ins.push ++ S ++ code (vputLines i vs)) →
      m1.mem a = (run 8 mp (rs.map Ins.push ++ S ++ code (vputLines i vs))).mem a := by
    intro a ha
    have := hk a (by rw [written_append]; exact .inr ha)
    rwa [run_append] at this
  have hmpsp : mp.sp = m0.sp := p3
  have hmpg : mp.gpr = m0.gpr := p1
  have hmpv : mp.vec = m0.vec := p2
  -- frame pointer
  let ma : M := { m1 with sp := m0.sp - 8 * rs.length - N }
  have ea : (leaOps lea).reverse.foldl (undo fr fo base) m1 = ma := by
    cases lea with
    | none =>
      show m1 = ma
      simp only [ma, ← hsp rfl]
    | some q =>
      show { m1 with sp := m1.gpr fr - fo * 16 } = ma
      rw [hlea (by simp)]
  -- vector registers
  have hx := undo_xmm fr fo base vs i ma hnd
  simp only at hx
  let mv := (xmmOps i vs).reverse.foldl (undo fr fo base) ma
  have hmv : (xmmOps i vs).reverse.foldl (undo fr fo base) ma = mv := rfl
  rw [hmv] at hx
  let mS : M := { run 8 mp (rs.map Ins.push) with sp := (run 8 mp (rs.map Ins.push)).sp - N }
  have hp := pushes 8 rs mp
  have hmS : mS.sp = m0.sp - 8 * rs.length - N := by show _ - _ = _; rw [hp.2.2.1, hmpsp]; simp
  have hv := vputs 8 vs i mS
  have hsv := xmm_saved 8 vs i mS m1.mem h16 (by
    intro x h1 h2
    rw [hk' x, run_append, run_append, run_sub 8 _ hS]
    rw [written_append]
    right
    rw [run_append, run_sub 8 _ hS]
    exact hv.2.2.2.2 x h1 h2)
  have hmSv : mS.vec = m0.vec := by show (run 8 mp (rs.map Ins.push)).vec = _; rw [hp.2.1, hmpv]
  -- allocation
  let mb : M := { mv with sp := m0.sp - 8 * rs.length }
  have eb : (allocOps N).reverse.foldl (undo fr fo base) mv = mb := by
    by_cases hN : N > 0
    · unfold allocOps; rw [if_pos hN]
      show { mv with sp := mv.sp + N } = mb
      rw [hx.1]
      simp only [mb, ma]
      congr 1
      omega
    · unfold allocOps; rw [if_neg hN]
      show mv = mb
      have hz : N = 0 := by omega
      have : mv.sp = m0.sp - 8 * rs.length := by rw [hx.1]; simp only [ma]; omega
      simp only [mb, ← this]
  have hpop := core_pop 8 rs S N i vs mp m1 mb (fun r _ => by rw [hmpg]; exact hf.1 r) hS (by exact_mod_cast hi) hk' (by
    show mv.mem = _
    rw [hx.2.1]) (by show m0.sp - 8 * rs.length = mp.sp - (8 : Nat) * rs.length; rw [hmpsp]; simp)
  simp only [List.reverse_append, List.foldl_append]
  rw [ea, hmv, eb, undo_pops]
  refine ⟨hpop.1.trans hmpsp, ?_, ?_, ?_, ?_, hpop.2.1⟩
  · intro r hr
    rw [hpop.2.2.2 r, if_pos hr, hmpg]
  · intro p hp'
    obtain ⟨a, b, hab⟩ := List.append_of_mem hp'
    rw [hpop.2.2.1]
    show mv.vec p.1 = _
    rw [hx.2.2.2.1 a b p hab]
    have := hsv a b p hab
    rw [hmS, hmSv] at this
    rw [hbase]
    exact this
  · intro r hr
    rw [hpop.2.2.2 r, if_neg hr]
    show mv.gpr r = _
    rw [hx.2.2.1]
  · intro r hr
    rw [hpop.2.2.1]
    show mv.vec r = _
    rw [hx.2.2.2.2 r hr]

end Verif.Frame
