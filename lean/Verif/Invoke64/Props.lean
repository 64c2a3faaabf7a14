import Verif.Invoke64.Step
/-! # C66, C67: INVOKE of 64-bit Windows procedures -/
namespace Verif.Invoke64
open Frame (store load)

theorem zipIdx_pairwise (args : List Arg) : args.zipIdx.Pairwise (fun s t => s.2 < t.2) := by
  rw [List.pairwise_iff_getElem]
  intro i j hi hj hij
  simpa using hij

theorem mem_drop_zipIdx {args : List Arg} {n : Nat} {s : Arg × Nat} (h : s ∈ args.zipIdx.drop n) : n ≤ s.2 ∧ args[s.2]? = some s.1 := by
  rw [List.mem_drop_iff_getElem] at h
  rcases h with ⟨i, hi, rfl⟩
  simp

theorem mem_take_zipIdx {args : List Arg} {n : Nat} {s : Arg × Nat} (h : s ∈ args.zipIdx.take n) : s.2 < n ∧ args[s.2]? = some s.1 := by
  rw [List.mem_take_iff_getElem] at h
  rcases h with ⟨i, hi, rfl⟩
  simp at hi
  simp
  omega

theorem vararg_at (pr : Proto) (k : Nat) (h : pr.params.length ≤ k) : (paramAt pr k).vararg = true := by
  unfold paramAt
  rw [List.getElem?_eq_none h]; rfl

theorem order_mem (pr : Proto) (args : List Arg) (s : Arg × Nat) : s ∈ order pr args ↔ args[s.2]? = some s.1 := by
  unfold order
  constructor
  · intro h
    rcases List.mem_append.1 h with h | h
    · exact (mem_drop_zipIdx (List.mem_reverse.1 h)).2
    · exact (mem_take_zipIdx h).2
  · intro h
    have h1 : s ∈ args.zipIdx := by
      rw [List.mem_zipIdx_iff_getElem?]; exact h
    rw [← List.take_append_drop pr.params.length args.zipIdx] at h1
    rcases List.mem_append.1 h1 with h1 | h1
    · exact List.mem_append.2 (Or.inr h1)
    · exact List.mem_append.2 (Or.inl (List.mem_reverse.2 h1))

theorem order_pairwise (pr : Proto) (args : List Arg) :
    (order pr args).Pairwise (fun s t => s.2 ≠ t.2 ∧ ((paramAt pr s.2).vararg = true ∨ s.2 < t.2)) := by
  unfold order
  have hp := zipIdx_pairwise args
  rw [List.pairwise_append]
  refine ⟨?_, ?_, ?_⟩
  · rw [List.pairwise_reverse]
    have := hp.sublist (List.drop_sublist pr.params.length _)
    refine this.imp_of_mem fun {a b} ha hb hab => ⟨by omega, Or.inl (vararg_at pr _ (mem_drop_zipIdx hb).1)⟩
  · exact (hp.sublist (List.take_sublist pr.params.length _)).imp fun hab => ⟨by omega, Or.inr hab⟩
  · intro a ha b hb
    have h1 := mem_drop_zipIdx (List.mem_reverse.1 ha)
    have h2 := mem_take_zipIdx hb
    exact ⟨by omega, Or.inl (vararg_at pr _ h1.1)⟩

/-- RSP when the procedure is called. -/
def callSp (auto : Bool) (pr : Proto) (args : List Arg) (m : M) : Int := m.gpr 4 - (if auto then 0 else 8 * slots pr args : Nat)

theorem slots_ge (pr : Proto) (args : List Arg) : 4 ≤ slots pr args ∧ slots pr args % 2 = 0 := by
  simp only [slots]
  repeat' split
  all_goals omega

theorem invoke_parts {auto : Bool} {pr : Proto} {args : List Arg} {c : Code} (h : invoke auto pr args = some c) :
    pr.params.length ≤ args.length ∧ (pr.vararg = false → args.length = pr.params.length) ∧ args.length ≤ slots pr args ∧
    ∃ l, steps pr (order pr args) [] = some l ∧
      c.before = (if auto then [] else [.addSp (-(8 * slots pr args : Nat))]) ++ l ∧
      c.after = if auto then [] else [.addSp (8 * slots pr args : Nat)] := by
  unfold invoke at h
  split at h
  · cases h
  rename_i hc
  simp only [Option.map_eq_some_iff] at h
  rcases h with ⟨l, hl, rfl⟩
  have hv : pr.vararg = false → args.length = pr.params.length := by grind
  refine ⟨by omega, hv, ?_, l, hl, rfl, rfl⟩
  simp only [slots]
  cases hb : pr.vararg
  · have := hv hb
    simp only [Bool.false_eq_true, if_false]
    repeat' split
    all_goals omega
  · simp only [if_true]
    repeat' split
    all_goals omega

/-- The machine after the stack pointer was lowered. -/
def lowered (auto : Bool) (pr : Proto) (args : List Arg) (m : M) : M :=
  run m (if auto then [] else [.addSp (-(8 * slots pr args : Nat))])

theorem lowered_spec (auto : Bool) (pr : Proto) (args : List Arg) (m : M) :
    (lowered auto pr args m).gpr 4 = callSp auto pr args m ∧ (lowered auto pr args m).xmm = m.xmm ∧
    (lowered auto pr args m).mem = m.mem ∧ (∀ r, auto = true ∨ r ≠ 4 → (lowered auto pr args m).gpr r = m.gpr r) := by
  unfold lowered callSp
  cases auto
  · simp [run_cons, run_nil, exec]
    refine ⟨by omega, fun r hr h => absurd h hr⟩
  · simp [run_nil]

theorem argRead_congr (m m' : M) (p : Param) (a : Arg) (hg : ∀ r ∈ argRegs a, m.gpr r = m'.gpr r) (x : Int) :
    reads m p a x ↔ reads m' p a x := by
  cases a with
  | mem e n s => simp only [reads, eaVal_congr m m' e hg]
  | memU e => simp only [reads, eaVal_congr m m' e hg]
  | _ => rfl

theorem invoke_ok (auto : Bool) (pr : Proto) (hw : WfProto pr) (args : List Arg) (c : Code) (h : invoke auto pr args = some c) (m : M)
    (hok : ∀ k a, args[k]? = some a → Sound (paramAt pr k) k a ∧ (auto = false → 4 ∉ argRegs a) ∧
      ∀ x, reads m (paramAt pr k) a x → x < callSp auto pr args m + 32 ∨ callSp auto pr args m + 8 * slots pr args ≤ x) :
    (∀ k a, args[k]? = some a → found (run m c.before) (paramAt pr k) k (width (paramAt pr k) a) =
      argVal m (paramAt pr k) a % 256 ^ width (paramAt pr k) a) ∧
    (run m c.before).gpr 4 = callSp auto pr args m ∧
    (∀ r, r ≠ 0 → r ≠ 1 → r ≠ 2 → r ≠ 4 → r ≠ 8 → r ≠ 9 → (run m c.before).gpr r = m.gpr r) ∧
    (∀ k, 4 ≤ k → (run m c.before).xmm k = m.xmm k) ∧
    (∀ x, x < callSp auto pr args m + 32 ∨ callSp auto pr args m + 8 * slots pr args ≤ x → (run m c.before).mem x = m.mem x) := by
  rcases invoke_parts h with ⟨hlen, _, hsl, l, hl, hb, _⟩
  rw [hb, run_append]
  rcases lowered_spec auto pr args m with ⟨e4, ex, em, eg⟩
  change (lowered auto pr args m).gpr 4 = _ at e4
  have hregs : ∀ (k : Nat) (a : Arg), args[k]? = some a → ∀ r ∈ argRegs a, (lowered auto pr args m).gpr r = m.gpr r := by
    intro k a ha r hr
    refine eg r ?_
    cases auto
    · right; intro h4; exact (hok k a ha).2.1 rfl (h4 ▸ hr)
    · left; rfl
  have hmain := steps_ok pr hw (lowered auto pr args m) (slots pr args) (order pr args) [] l (lowered auto pr args m) hl
    ⟨by simp [Marks], fun _ _ => rfl, fun _ _ _ _ _ => rfl, fun _ _ => rfl, fun _ _ => rfl⟩ (order_pairwise pr args) (by
      intro s hs
      have hs := (order_mem pr args s).1 hs
      refine ⟨?_, (hok _ _ hs).1, ?_⟩
      · have := (List.getElem?_eq_some_iff.1 hs).1; omega
      · intro x hx
        rw [e4]
        exact (hok _ _ hs).2.2 x ((argRead_congr _ _ _ _ (hregs _ _ hs) x).1 hx))
  obtain ⟨h1, h2, h3, h4⟩ := hmain
  change _ ∧ (run (lowered auto pr args m) l).gpr 4 = _ ∧ _
  refine ⟨?_, ?_, ?_, ?_, ?_⟩
  · intro k a ha
    have := h1 (a, k) ((order_mem pr args (a, k)).2 ha)
    have hv := argVal_congr (lowered auto pr args m) m (paramAt pr k) a (hregs k a ha) (fun n _ => by rw [ex]) (fun x _ => by rw [em])
    rw [hv] at this
    exact this
  · rw [h2 4 (by omega) (by omega) (by omega) (by omega) (by omega), e4]
  · intro r a b c d e f
    exact (h2 r a b c e f).trans (eg r (Or.inr d))
  · intro k hk
    exact (h3 k hk).trans (by rw [ex])
  · intro x hx
    exact (h4 x (by rw [e4]; exact hx)).trans (by rw [em])

/-- C66: when the procedure is called, it finds every argument at its place — RCX, RDX, R8, R9 (XMM0 to XMM3 for REAL4 and REAL8
parameters), the others in the stack above four free slots — with the value that it had before INVOKE; what is called is what was named;
registers other than RAX, RCX, RDX, R8, R9 and RSP, XMM registers from 4 on, and memory outside of the argument slots
are unchanged. For arguments that are `Sound` (see there), that do not read the argument slots themselves, and — without
automatic stack space — that do not use RSP. -/
theorem C66_arguments_partial (auto : Bool) (pr : Proto) (hw : WfProto pr) (args : List Arg) (c : Code)
    (h : invoke auto pr args = some c) (m : M)
    (hok : ∀ k a, args[k]? = some a → Sound (paramAt pr k) k a ∧ (auto = false → 4 ∉ argRegs a) ∧
      ∀ x, reads m (paramAt pr k) a x → x < callSp auto pr args m + 32 ∨ callSp auto pr args m + 8 * slots pr args ≤ x) :
    let m' := run m c.before
    (∀ k a, args[k]? = some a → found m' (paramAt pr k) k (width (paramAt pr k) a) =
      argVal m (paramAt pr k) a % 256 ^ width (paramAt pr k) a) ∧
    (∀ t : Target, (∀ r ∈ targetRegs t, r ≠ 0 ∧ r ≠ 1 ∧ r ≠ 2 ∧ r ≠ 8 ∧ r ≠ 9 ∧ (r = 4 → auto = true)) →
      (∀ x, targetReads m t x → x < callSp auto pr args m + 32 ∨ callSp auto pr args m + 8 * slots pr args ≤ x) →
      targetVal m' t = targetVal m t) ∧
    (∀ r, r ≠ 0 → r ≠ 1 → r ≠ 2 → r ≠ 4 → r ≠ 8 → r ≠ 9 → m'.gpr r = m.gpr r) ∧
    (∀ k, 4 ≤ k → m'.xmm k = m.xmm k) ∧
    (∀ x, x < callSp auto pr args m + 32 ∨ callSp auto pr args m + 8 * slots pr args ≤ x → m'.mem x = m.mem x) := by
  obtain ⟨h1, h2, h3, h4, h5⟩ := invoke_ok auto pr hw args c h m hok
  refine ⟨h1, ?_, h3, h4, h5⟩
  intro t ht hr
  have hg : ∀ r ∈ targetRegs t, (run m c.before).gpr r = m.gpr r := by
    intro r hr
    obtain ⟨a0, a1, a2, a8, a9, a4⟩ := ht r hr
    by_cases e : r = 4
    · subst e
      rw [h2]
      simp [callSp, a4 rfl]
    · exact h3 r a0 a1 a2 e a8 a9
  cases t with
  | label v => rfl
  | reg r => exact hg r (by simp [targetRegs])
  | mem x =>
    have e := eaVal_congr _ m x hg
    simp only [targetVal, e]
    exact Frame.load_congr _ _ _ _ fun y a b => h5 y (hr y ⟨a, b⟩)

/-- C67: when the procedure is called, RSP has been lowered by whole slots (not at all with automatic stack space): an even number of
them — so the alignment by 16 is kept —, at least four, and enough for all arguments but not more than needed; after
the procedure has returned, RSP is what it was. No RSP-independence of the arguments is needed for this. -/
theorem C67_stack (auto : Bool) (pr : Proto) (args : List Arg) (c : Code) (hw : WfProto pr) (h : invoke auto pr args = some c) (m : M) :
    let m' := run m c.before
    let n := slots pr args
    m'.gpr 4 = m.gpr 4 - (if auto then 0 else 8 * n : Nat) ∧
    (m.gpr 4 % 16 = 0 ↔ m'.gpr 4 % 16 = 0) ∧
    4 ≤ n ∧ args.length ≤ n ∧ (n = 4 ∨ n ≤ args.length + 1) ∧
    (∀ m'' : M, m''.gpr 4 = m'.gpr 4 → (run m'' c.after).gpr 4 = m.gpr 4) := by
  rcases invoke_parts h with ⟨hlen, hv, hsl, l, hl, hb, ha⟩
  have hs := slots_ge pr args
  have keep : ∀ (l : List (Arg × Nat)) (used : List Nat) (out : List Ins) (m : M), steps pr l used = some out →
      (run m out).gpr 4 = m.gpr 4 := by
    intro l
    induction l with
    | nil => intro used out m h; simp [steps] at h; subst h; rfl
    | cons s l ih =>
      rcases s with ⟨a, i⟩
      intro used out m h
      rcases steps_cons h with ⟨o, out', h1, h2, rfl⟩
      have f := param_frame i _ (paramAt_wf pr hw i) a used o h1
      rw [run_append, ih _ _ _ h2, f.gpr4]
  have e : (run m c.before).gpr 4 = callSp auto pr args m := by
    rw [hb, run_append, keep _ _ _ _ hl]
    exact (lowered_spec auto pr args m).1
  refine ⟨e, ?_, hs.1, hsl, ?_, ?_⟩
  · rw [e]
    unfold callSp
    split <;> omega
  · simp only [slots]
    cases hb : pr.vararg
    · have := hv hb
      simp only [Bool.false_eq_true, if_false]
      repeat' split
      all_goals omega
    · simp only [if_true]
      repeat' split
      all_goals omega
  · intro m'' hm
    rw [ha]
    rw [e] at hm
    unfold callSp at hm
    cases auto
    · simp [run_cons, run_nil, exec, hm]
    · simpa [run_nil] using hm

/-- C67: the space reserved by a procedure with automatic stack space is enough for every INVOKE in it, and a multiple of 16. -/
theorem C67_reserved (calls : List (Proto × List Arg)) :
    (∀ q ∈ calls, 8 * slots q.1 q.2 ≤ calls.foldl (fun s q => reserve s q.1 q.2) 0) ∧
    calls.foldl (fun s q => reserve s q.1 q.2) 0 % 16 = 0 ∧
    (calls ≠ [] → ∃ q ∈ calls, calls.foldl (fun s q => reserve s q.1 q.2) 0 = 8 * slots q.1 q.2) := by
  have gen : ∀ (calls : List (Proto × List Arg)) (s : Nat), s % 16 = 0 →
      (∀ q ∈ calls, 8 * slots q.1 q.2 ≤ calls.foldl (fun s q => reserve s q.1 q.2) s) ∧
      s ≤ calls.foldl (fun s q => reserve s q.1 q.2) s ∧
      calls.foldl (fun s q => reserve s q.1 q.2) s % 16 = 0 ∧
      (calls.foldl (fun s q => reserve s q.1 q.2) s = s ∨ ∃ q ∈ calls, calls.foldl (fun s q => reserve s q.1 q.2) s = 8 * slots q.1 q.2) := by
    intro calls
    induction calls with
    | nil => intro s h; simp [h]
    | cons q l ih =>
      intro s h
      have hq := slots_ge q.1 q.2
      have hr : reserve s q.1 q.2 % 16 = 0 ∧ s ≤ reserve s q.1 q.2 ∧ 8 * slots q.1 q.2 ≤ reserve s q.1 q.2 ∧
          (reserve s q.1 q.2 = s ∨ reserve s q.1 q.2 = 8 * slots q.1 q.2) := by
        unfold reserve; split <;> omega
      obtain ⟨i1, i2, i3, i4⟩ := ih _ hr.1
      simp only [List.foldl_cons]
      refine ⟨?_, by omega, i3, ?_⟩
      · intro p hp
        rcases List.mem_cons.1 hp with rfl | hp
        · omega
        · exact i1 p hp
      · rcases i4 with h | ⟨p, hp, h⟩
        · rcases hr.2.2.2 with e | e
          · left; omega
          · right; exact ⟨q, by simp, by omega⟩
        · right; exact ⟨p, by simp [hp], h⟩
  have g := gen calls 0 rfl
  refine ⟨g.1, g.2.2.1, fun hne => ?_⟩
  rcases g.2.2.2 with h | h
  · cases calls with
    | nil => exact absurd rfl hne
    | cons q l =>
      have := g.1 q (by simp)
      have := slots_ge q.1 q.2
      omega
  · exact h

end Verif.Invoke64
