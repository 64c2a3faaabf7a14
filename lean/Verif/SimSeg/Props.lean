import Verif.SimSeg.Spec
/-! # Property theorems: simplified segment directives (C82) -/
namespace Verif.SimSeg
open Spec

/-- The invariant: segments whose bit in `simseg_init` is set are defined. -/
def Inv (c : Cfg) (w : World) (init : Sim → Bool) : Prop :=
  ∀ s, init s = true → (w.defined (c.names s)).isSome = true

theorem run_append (w : World) (a b : List Line) : run w (a ++ b) = (run w a).bind (fun w' => run w' b) := by
  induction a generalizing w with
  | nil => rfl
  | cons l r ih =>
    simp only [List.cons_append, run]
    cases step w l with
    | none => rfl
    | some w' => exact ih w'

/-- The segment a SetSimSeg line opens. -/
def target (c : Cfg) (s : Sim) (name : Option Text) : Text := name.getD (c.names s)

theorem setSimSeg_step (c : Cfg) (w : World) (init : Sim → Bool) (s : Sim) (name : Option Text) (isDef : Text → Bool)
    (hd : ∀ n, isDef n = (w.defined n).isSome) (h : Inv c w init) :
    ∃ w', step w (setSimSeg c isDef init s name).1 = some w' ∧
      w'.opens = target c s name :: w.opens ∧ w'.size = w.size ∧ w'.dgroup = w.dgroup ∧ w'.cs = w.cs ∧
      w'.defined = upd w.defined (target c s name)
        (some ((w.defined (target c s name)).getD (attrs c s))) ∧
      Inv c w' (setSimSeg c isDef init s name).2 := by
  have updsame : ∀ n b, w.defined n = some b → upd w.defined n (some b) = w.defined := by
    intro n b hb; funext m; unfold upd; split
    · next e => rw [e, hb]
    · rfl
  have inv1 : ∀ n v, Inv c { w with opens := n :: w.opens, defined := upd w.defined n (some v) } init := by
    intro n v t ht
    show (upd w.defined n (some v) (c.names t)).isSome = true
    unfold upd; split
    · rfl
    · exact h t ht
  cases name with
  | some n =>
    unfold setSimSeg target
    simp only [Option.getD_some, hd]
    cases hn : w.defined n with
    | none =>
      simp only [Option.isSome_none, Bool.false_eq_true, if_false, step, hn, Option.getD_some, Option.getD_none]
      exact ⟨_, rfl, rfl, rfl, rfl, rfl, rfl, inv1 n _⟩
    | some b =>
      simp only [Option.isSome_some, if_true, step, hn, Option.getD_some]
      refine ⟨_, rfl, rfl, rfl, rfl, rfl, (updsame n b hn).symm, fun t ht => h t ht⟩
  | none =>
    unfold setSimSeg target
    simp only [Option.getD_none, hd]
    cases hi : init s with
    | true =>
      have hs := h s hi
      obtain ⟨b, hb⟩ := Option.isSome_iff_exists.1 hs
      simp only [if_true, step, hb, Option.getD_some]
      exact ⟨_, rfl, rfl, rfl, rfl, rfl, (updsame _ b hb).symm, fun t ht => h t ht⟩
    | false =>
      simp only [Bool.false_eq_true, if_false]
      cases hn : w.defined (c.names s) with
      | none =>
        simp only [Option.isSome_none, Bool.false_eq_true, if_false, step, hn, Option.getD_some, Option.getD_none]
        refine ⟨_, rfl, rfl, rfl, rfl, rfl, rfl, ?_⟩
        intro t ht
        simp only at ht
        by_cases e : t = s
        · subst e; show (upd w.defined (c.names t) (some (attrs c t)) (c.names t)).isSome = true; unfold upd; rw [if_pos rfl]; rfl
        · rw [if_neg e] at ht; exact inv1 _ _ t ht
      | some b =>
        simp only [Option.isSome_some, if_true, step, hn, Option.getD_some]
        refine ⟨_, rfl, rfl, rfl, rfl, rfl, (updsame _ b hn).symm, ?_⟩
        intro t ht
        simp only at ht
        by_cases e : t = s
        · subst e; show (w.defined _).isSome = true; rw [hn]; rfl
        · rw [if_neg e] at ht; exact h t ht

/-- Closing the current segment. -/
theorem close_run (w : World) : run w (closeCurr w.opens.head?) = some { w with opens := w.opens.tail } := by
  cases h : w.opens with
  | nil => show some w = _; rw [List.tail_nil, ← h]
  | cons m r => simp [closeCurr, run, step, h]

/-- Lines that only add to DGROUP or set the assumption for CS. -/
def quiet : Line → Bool
  | .group _ => true
  | .assumeCs _ => true
  | _ => false

def groupsOf (l : List Line) : List Text := l.filterMap (fun x => match x with | .group n => some n | _ => none)
def csOf (l : List Line) : Option Text := (l.filterMap (fun x => match x with | .assumeCs n => some n | _ => none)).getLast?

theorem quiet_run : ∀ (l : List Line) (w : World), (∀ x ∈ l, quiet x = true) →
    run w l = some { w with dgroup := (groupsOf l).reverse ++ w.dgroup, cs := (csOf l).getD w.cs } := by
  intro l
  induction l with
  | nil => intro w _; rfl
  | cons x r ih =>
    intro w h
    have hr := fun y hy => h y (List.mem_cons_of_mem _ hy)
    have hx := h x (List.mem_cons_self ..)
    cases x with
    | group n => simp only [run, step]; rw [ih _ hr]; simp [groupsOf, csOf]
    | assumeCs t =>
      simp only [run, step]; rw [ih _ hr]
      have e1 : groupsOf (.assumeCs t :: r) = groupsOf r := by simp [groupsOf]
      have e2 : csOf (.assumeCs t :: r) = some ((csOf r).getD t) := by
        unfold csOf
        simp only [List.filterMap_cons]
        rw [List.getLast?_cons]
      rw [e1, e2]
      rfl
    | segment n a => cases hx
    | ends n => cases hx
    | org n => cases hx

/-- What `.CODE`, `.DATA` and the others emit behind the SEGMENT line. -/
def tailLines (c : Cfg) (init : Sim → Bool) (s : Sim) (name : Option Text) : List Line :=
  match s with
  | .code =>
    (if c.model = .tiny ∧ name.isSome then addToDgroup c .code name else []) ++
    [.assumeCs (if c.model = .tiny then "DGROUP".toList else if c.model = .flat then "FLAT".toList
      else name.getD (c.names .code))]
  | .data | .dataUn | .const =>
    .assumeCs "ERROR".toList :: (if name.isSome || !init s then addToDgroup c s name else [])
  | _ => [.assumeCs "ERROR".toList]

theorem dgroup_quiet (c : Cfg) (s : Sim) (name : Option Text) : ∀ x ∈ addToDgroup c s name, quiet x = true := by
  intro x hx
  unfold addToDgroup at hx
  split at hx
  · cases hx
  · simp only [List.mem_singleton] at hx; subst hx; rfl

theorem tail_quiet (c : Cfg) (init : Sim → Bool) (s : Sim) (name : Option Text) :
    ∀ x ∈ tailLines c init s name, quiet x = true := by
  have hq := dgroup_quiet c
  intro x hx
  unfold tailLines at hx
  cases s <;> simp only [List.mem_append, List.mem_cons, List.not_mem_nil, or_false] at hx
  case code =>
    rcases hx with hx | rfl
    · split at hx
      · exact hq _ _ x hx
      · cases hx
    · rfl
  case data | dataUn | const =>
    rcases hx with rfl | hx
    · rfl
    · split at hx
      · exact hq _ _ x hx
      · cases hx
  all_goals (subst hx; rfl)

theorem addToDgroup_csOf (c : Cfg) (s : Sim) (name : Option Text) (l : List Line) :
    csOf (addToDgroup c s name ++ l) = csOf l ∧ csOf (l ++ addToDgroup c s name) = csOf l := by
  unfold addToDgroup
  split
  · simp
  · constructor
    · simp [csOf]
    · simp [csOf]

theorem tail_cs (c : Cfg) (init : Sim → Bool) (s : Sim) (name : Option Text) :
    csOf (tailLines c init s name) = some (match s with
      | .code => if c.model = .tiny then "DGROUP".toList else if c.model = .flat then "FLAT".toList
          else name.getD (c.names .code)
      | _ => "ERROR".toList) := by
  unfold tailLines
  cases s
  case code =>
    simp only
    split
    · rw [(addToDgroup_csOf c .code name _).1]; simp [csOf]
    · simp [csOf]
  case data | dataUn | const =>
    simp only
    split
    · rw [← List.singleton_append, (addToDgroup_csOf c _ name [_]).2]; simp [csOf]
    · simp [csOf]
  all_goals simp [csOf]

/-- **C82 (one directive).**  In every state in which the segments that were initialised are defined, a directive
generates lines that are accepted.  `.CODE` and the others close the current segment and open theirs; `.STACK` leaves
the current segment open and the assumption for CS alone, and makes the stack segment as large as told (1024 bytes
without an operand).  The segment gets the class and the combine type of its kind if it is new; no attributes of any
segment are changed. -/
theorem C82_directive (c : Cfg) (w : World) (init : Sim → Bool) (h : Inv c w init) (d : Dir) :
    ∃ w' i', opStep c w init (.dir d) = some (w', i') ∧ Inv c w' i' ∧
      (∀ n a, w.defined n = some a → w'.defined n = some a) ∧
      (match d with
      | .seg s name =>
        w'.opens = name.getD (c.names s) :: w.opens.tail ∧ w'.size = w.size ∧
        w'.cs = (match s with
          | .code => if c.model = .tiny then "DGROUP".toList else if c.model = .flat then "FLAT".toList
              else name.getD (c.names .code)
          | _ => "ERROR".toList) ∧
        (w.defined (name.getD (c.names s)) = none → ∃ a, w'.defined (name.getD (c.names s)) = some a ∧
          a.comb = (kind s).2 ∧ a.cls = (if s = .code then c.codeClass else (kind s).1) ∧
          (a.use = "FLAT".toList ↔ c.use32 = true ∧ c.model = .flat) ∧
          (a.use = "USE32".toList ↔ c.use32 = true ∧ c.model ≠ .flat) ∧
          (c.use32 = false → c.segAlign = 4 → s ≠ .stack →
            a.align = if s = .fardata ∨ s = .fardataUn then "PARA".toList else "WORD".toList) ∧
          (c.use32 = true → c.segAlign = 4 → a.align = if c.le386 then "DWORD".toList else "PARA".toList) ∧
          (c.use32 = true → c.segAlign ≠ 4 →
            a.align = "ALIGN(".toList ++ (toString (2 ^ c.segAlign)).toList ++ ")".toList))
      | .stack size =>
        w'.opens = w.opens ∧ w'.cs = w.cs ∧
        w'.size = upd w.size (c.names .stack) (max (w.size (c.names .stack)) (size.getD 1024)) ∧
        (w.defined (c.names .stack) = none → ∃ a, w'.defined (c.names .stack) = some a ∧
          a.comb = "STACK".toList ∧ a.cls = "STACK".toList ∧
          (c.use32 = false → c.segAlign = 4 → a.align = "PARA".toList))) := by
  have mono : ∀ (t : Text) (s : Sim) n a, w.defined n = some a →
      upd w.defined t (some ((w.defined t).getD (attrs c s))) n = some a := by
    intro t s n a ha
    unfold upd
    split
    · next e => subst e; rw [ha]; rfl
    · exact ha
  cases d with
  | seg s name =>
    have hrun : run w (directive c (fun n => (w.defined n).isSome) w.opens.head? init (.seg s name)).1 =
        (run { w with opens := w.opens.tail }
          ((setSimSeg c (fun n => (w.defined n).isSome) init s name).1 :: tailLines c init s name)) := by
      show run w (closeCurr w.opens.head? ++ _) = _
      rw [run_append, close_run]
      rfl
    obtain ⟨w1, h1, o1, z1, g1, c1, d1, i1⟩ := setSimSeg_step c { w with opens := w.opens.tail } init s name
      (fun n => (w.defined n).isSome) (fun _ => rfl) h
    have h2 := quiet_run (tailLines c init s name) w1 (tail_quiet c init s name)
    have h3 : opStep c w init (.dir (.seg s name)) = some
        ({ w1 with dgroup := (groupsOf (tailLines c init s name)).reverse ++ w1.dgroup,
                   cs := (csOf (tailLines c init s name)).getD w1.cs },
          (setSimSeg c (fun n => (w.defined n).isSome) init s name).2) := by
      unfold opStep
      simp only
      rw [hrun]
      simp only [run, h1, h2]
      rfl
    refine ⟨_, _, h3, i1, ?_, ?_, ?_, ?_, ?_⟩
    · intro n a ha
      show w1.defined n = _
      rw [d1]
      exact mono _ s n a ha
    · exact o1
    · exact z1
    · show (csOf _).getD _ = _
      rw [tail_cs]
      rfl
    · intro hn
      refine ⟨attrs c s, ?_, ?_, ?_, ?_, ?_, ?_, ?_, ?_⟩
      · show w1.defined _ = _
        rw [d1]
        unfold upd target
        rw [if_pos rfl]
        simp only [hn]
        rfl
      · cases s <;> rfl
      · cases s <;> rfl
      · unfold attrs; cases c.use32 <;> cases c.model <;> simp
      · unfold attrs; cases c.use32 <;> cases c.model <;> simp
      · intro h1 h2 h3; unfold attrs; simp [h1, h2, h3]
      · intro h1 h2; unfold attrs; simp [h1, h2]
      · intro h1 h2; unfold attrs; simp only [h1, if_true, if_pos h2]; split <;> rfl
  | stack size =>
    obtain ⟨w1, h1, o1, z1, g1, c1, d1, i1⟩ := setSimSeg_step c w init .stack none
      (fun n => (w.defined n).isSome) (fun _ => rfl) h
    have o1' : w1.opens = c.names .stack :: w.opens := o1
    have hq : ∀ x ∈ (if !init .stack && !c.farStack then addToDgroup c .stack none else []), quiet x = true := by
      intro x hx
      split at hx
      · exact dgroup_quiet c _ _ x hx
      · cases hx
    have hcs : csOf (if !init .stack && !c.farStack then addToDgroup c .stack none else []) = none := by
      split
      · have := (addToDgroup_csOf c .stack none []).1
        rw [List.append_nil] at this
        rw [this]; rfl
      · rfl
    let w2 : World := { w1 with opens := w.opens,
                                size := upd w1.size (c.names .stack) (max (w1.size (c.names .stack)) (size.getD 1024)) }
    have h2 := quiet_run (if !init .stack && !c.farStack then addToDgroup c .stack none else []) w2 hq
    have h3 : opStep c w init (.dir (.stack size)) = some
        ({ w2 with dgroup := (groupsOf (if !init .stack && !c.farStack then addToDgroup c .stack none else [])).reverse
                     ++ w2.dgroup,
                   cs := w2.cs },
          (setSimSeg c (fun n => (w.defined n).isSome) init .stack none).2) := by
      unfold opStep directive
      simp only
      rw [hcs] at h2
      rw [List.cons_append, List.cons_append, List.cons_append, List.nil_append]
      have e : run w ((setSimSeg c (fun n => (w.defined n).isSome) init .stack none).1 :: Line.org (size.getD 1024) ::
          Line.ends (c.names .stack) :: (if !init .stack && !c.farStack then addToDgroup c .stack none else [])) =
          run w2 (if !init .stack && !c.farStack then addToDgroup c .stack none else []) := by
        have s1 : step w1 (.org (size.getD 1024)) = some { w1 with
            size := upd w1.size (c.names .stack) (max (w1.size (c.names .stack)) (size.getD 1024)) } := by
          unfold step; simp only [o1']
        have s2 : step { w1 with
            size := upd w1.size (c.names .stack) (max (w1.size (c.names .stack)) (size.getD 1024)) }
            (.ends (c.names .stack)) = some w2 := by
          unfold step; simp only [o1', if_true]; rfl
        simp only [run, h1, s1, s2]
      rw [e, h2]
      rfl
    refine ⟨_, _, h3, i1, ?_, rfl, c1, ?_, ?_⟩
    · intro n a ha
      show w1.defined n = _
      rw [d1]
      exact mono _ _ n a ha
    · show upd w1.size _ _ = _
      rw [z1]
    · intro hn
      refine ⟨attrs c .stack, ?_, rfl, rfl, fun h1 h2 => by unfold attrs; simp [h1, h2]⟩
      show w1.defined _ = _
      rw [d1]
      unfold upd target
      simp only [Option.getD_none, if_true, hn]

/-! ## The whole program -/

theorem step_mono {w w' : World} {l : Line} (h : step w l = some w') :
    (∀ n a, w.defined n = some a → w'.defined n = some a) ∧ (∀ n ∈ w.dgroup, n ∈ w'.dgroup) := by
  cases l with
  | segment n a =>
    unfold step at h
    simp only at h
    split at h
    · next hn =>
      cases h
      refine ⟨?_, fun _ h => h⟩
      intro m b hb
      show upd w.defined n _ m = _
      unfold upd
      split
      · next e => subst e; rw [hn] at hb; cases hb
      · exact hb
    · cases h; exact ⟨fun _ _ h => h, fun _ h => h⟩
    · split at h
      · cases h; exact ⟨fun _ _ h => h, fun _ h => h⟩
      · cases h
  | ends n =>
    unfold step at h
    simp only at h
    split at h
    · cases h
    · split at h
      · cases h; exact ⟨fun _ _ h => h, fun _ h => h⟩
      · cases h
  | group n =>
    cases h
    exact ⟨fun _ _ h => h, fun m hm => List.mem_cons_of_mem _ hm⟩
  | assumeCs t => cases h; exact ⟨fun _ _ h => h, fun _ h => h⟩
  | org n =>
    unfold step at h
    simp only at h
    split at h
    · cases h
    · cases h; exact ⟨fun _ _ h => h, fun _ h => h⟩

theorem run_mono : ∀ (l : List Line) {w w' : World}, run w l = some w' →
    (∀ n a, w.defined n = some a → w'.defined n = some a) ∧ (∀ n ∈ w.dgroup, n ∈ w'.dgroup) := by
  intro l
  induction l with
  | nil => intro w w' h; cases h; exact ⟨fun _ _ h => h, fun _ h => h⟩
  | cons x r ih =>
    intro w w' h
    simp only [run] at h
    split at h
    · cases h
    · next w1 h1 =>
      have a := step_mono h1
      have b := ih h
      exact ⟨fun n v hv => b.1 n v (a.1 n v hv), fun n hn => b.2 n (a.2 n hn)⟩

theorem run_group : ∀ (l : List Line) {w w' : World} {n : Text}, run w l = some w' → Line.group n ∈ l → n ∈ w'.dgroup := by
  intro l
  induction l with
  | nil => intro w w' n _ h; cases h
  | cons x r ih =>
    intro w w' n h hn
    simp only [run] at h
    split at h
    · cases h
    · next w1 h1 =>
      rcases List.mem_cons.1 hn with e | e
      · subst e
        cases h1
        exact (run_mono r h).2 n (List.mem_cons_self ..)
      · exact ih h e

theorem run_group_only : ∀ (l : List Line) {w w' : World} {n : Text}, run w l = some w' → n ∈ w'.dgroup →
    n ∈ w.dgroup ∨ Line.group n ∈ l := by
  intro l
  induction l with
  | nil => intro w w' n h hn; cases h; exact .inl hn
  | cons x r ih =>
    intro w w' n h hn
    simp only [run] at h
    split at h
    · cases h
    · next w1 h1 =>
      rcases ih h hn with e | e
      · cases x with
        | group m =>
          cases h1
          rcases List.mem_cons.1 e with e | e
          · subst e; exact .inr (List.mem_cons_self ..)
          · exact .inl e
        | assumeCs t => cases h1; exact .inl e
        | segment m a =>
          unfold step at h1; simp only at h1
          split at h1
          · cases h1; exact .inl e
          · cases h1; exact .inl e
          · split at h1
            · cases h1; exact .inl e
            · cases h1
        | ends m =>
          unfold step at h1; simp only at h1
          split at h1
          · cases h1
          · split at h1
            · cases h1; exact .inl e
            · cases h1
        | org m =>
          unfold step at h1; simp only at h1
          split at h1
          · cases h1
          · cases h1; exact .inl e
      · exact .inr (List.mem_cons_of_mem _ e)

/-- A program in which each line of the program itself is accepted where it stands. -/
def Own (c : Cfg) : World → (Sim → Bool) → List Op → Prop
  | _, _, [] => True
  | w, init, o :: r =>
    (∀ l, o = .line l → (step w l).isSome = true) ∧ ∀ w' i', opStep c w init o = some (w', i') → Own c w' i' r

/-- **C82 (programs).**  Behind `.MODEL`, no simplified directive of a program ever causes an error, in whatever order
they come and whatever segments the program opens and closes itself between them; no attributes of a segment change. -/
theorem C82_program (c : Cfg) : ∀ (l : List Op) (w : World) (init : Sim → Bool), Inv c w init → Own c w init l →
    ∃ w' i', ops c w init l = some (w', i') ∧ Inv c w' i' ∧ ∀ n a, w.defined n = some a → w'.defined n = some a := by
  intro l
  induction l with
  | nil => intro w init h _; exact ⟨w, init, rfl, h, fun _ _ h => h⟩
  | cons o r ih =>
    intro w init h ho
    have hstep : ∃ w1 i1, opStep c w init o = some (w1, i1) ∧ Inv c w1 i1 ∧
        ∀ n a, w.defined n = some a → w1.defined n = some a := by
      cases o with
      | dir d =>
        obtain ⟨w1, i1, h1, h2, h3, _⟩ := C82_directive c w init h d
        exact ⟨w1, i1, h1, h2, h3⟩
      | line l =>
        obtain ⟨w1, h1⟩ := Option.isSome_iff_exists.1 (ho.1 l rfl)
        have hm := (step_mono h1).1
        refine ⟨w1, init, by unfold opStep; simp only [h1, Option.map_some], ?_, hm⟩
        intro s hs
        obtain ⟨a, ha⟩ := Option.isSome_iff_exists.1 (h s hs)
        rw [hm _ _ ha]; rfl
    obtain ⟨w1, i1, h1, h2, h3⟩ := hstep
    obtain ⟨w2, i2, g1, g2, g3⟩ := ih w1 i1 h2 (ho.2 w1 i1 h1)
    refine ⟨w2, i2, ?_, g2, fun n a ha => g3 n a (h3 n a ha)⟩
    unfold ops
    rw [h1]
    exact g1

/-- **C82 (.MODEL).**  In a program without open segments, `.MODEL` defines the code and the data segment, without an
error unless both have the same name, leaves no segment open, and puts the data segment into DGROUP, for the model
TINY the code segment also (BIN and OMF, not FLAT). -/
theorem C82_model (c : Cfg) (w : World) (hn : c.names .code ≠ c.names .data) :
    ∃ w', run w (modelInit c (fun n => (w.defined n).isSome)).1 = some w' ∧
      Inv c w' (modelInit c (fun n => (w.defined n).isSome)).2 ∧ w'.opens = w.opens ∧
      (c.model ≠ .flat → c.fmt = .omf ∨ c.fmt = .bin → c.names .data ∈ w'.dgroup ∧
        (c.model = .tiny → c.names .code ∈ w'.dgroup)) ∧
      (∀ n a, w.defined n = some a → w'.defined n = some a) := by
  obtain ⟨w1, h1, o1, z1, g1, c1, d1, i1⟩ := setSimSeg_step c w (fun _ => false) .code none
    (fun n => (w.defined n).isSome) (fun _ => rfl) (fun s hs => by cases hs)
  let w1c : World := { w1 with opens := w.opens }
  have s1 : step w1 (.ends (c.names .code)) = some w1c := by
    unfold step; rw [o1]; simp only [target, Option.getD_none, if_true]; rfl
  let isd : Text → Bool := fun n => (w.defined n).isSome
  have hsame : setSimSeg c isd (setSimSeg c isd (fun _ => false) .code none).2 .data none =
      setSimSeg c (fun n => (w1c.defined n).isSome) (setSimSeg c isd (fun _ => false) .code none).2 .data none := by
    have e : (w1c.defined (c.names .data)).isSome = isd (c.names .data) := by
      show (w1.defined _).isSome = _
      rw [d1]
      unfold upd target
      rw [if_neg (fun e => hn e.symm)]
    unfold setSimSeg
    simp only [e]
  obtain ⟨w2, h2, o2, z2, g2, c2, d2, i2⟩ := setSimSeg_step c w1c (setSimSeg c isd (fun _ => false) .code none).2 .data none
    (fun n => (w1c.defined n).isSome) (fun _ => rfl) i1
  rw [← hsame] at h2 i2
  let w2c : World := { w2 with opens := w.opens }
  have s2 : step w2 (.ends (c.names .data)) = some w2c := by
    unfold step; rw [o2]; simp only [target, Option.getD_none, if_true]; rfl
  let gl : List Line := if c.model ≠ .flat ∧ (c.fmt = .omf ∨ c.fmt = .bin) then
      (if c.model = .tiny then [.group (c.names .code)] else []) ++ [.group (c.names .data)] else []
  have hq : ∀ x ∈ gl, quiet x = true := by
    intro x hx
    simp only [gl] at hx
    split at hx
    · split at hx
      · simp only [List.cons_append, List.nil_append, List.mem_cons, List.not_mem_nil, or_false] at hx
        rcases hx with rfl | rfl <;> rfl
      · simp only [List.nil_append, List.mem_cons, List.not_mem_nil, or_false] at hx
        subst hx; rfl
    · cases hx
  have hrun : run w (modelInit c isd).1 = some { w2c with
      dgroup := (groupsOf gl).reverse ++ w2c.dgroup, cs := (csOf gl).getD w2c.cs } := by
    rw [← quiet_run gl w2c hq]
    show run w ([_, _, _, _] ++ gl) = _
    simp only [List.cons_append, List.nil_append, run]
    have h1' : step w (setSimSeg c isd (fun _ => false) .code none).1 = some w1 := h1
    rw [h1']
    simp only [s1, h2, s2]
  refine ⟨_, hrun, i2, rfl, ?_, (run_mono _ hrun).1⟩
  intro hm hf
  have hg : gl = (if c.model = .tiny then [.group (c.names .code)] else []) ++ [.group (c.names .data)] := by
    simp only [gl]; rw [if_pos ⟨hm, hf⟩]
  constructor
  · show _ ∈ (groupsOf gl).reverse ++ _
    rw [hg]
    split <;> simp [groupsOf]
  · intro ht
    show _ ∈ (groupsOf gl).reverse ++ _
    rw [hg, if_pos ht]
    simp [groupsOf]

/-- The segments of near data (and a near stack, and with TINY the code) whose bit is set are in DGROUP. -/
def Grouped (c : Cfg) (w : World) (init : Sim → Bool) : Prop :=
  ∀ s, init s = true → (s = .data ∨ s = .dataUn ∨ s = .const ∨ (s = .stack ∧ c.farStack = false)) →
    c.names s ∈ w.dgroup

/-- **C82 (DGROUP).**  With a segmented model in BIN and OMF files, `.DATA`, `.DATA?` and `.CONST` put the segment
into DGROUP, `.STACK` also unless the stack is far, and `.CODE` with a name in the model TINY; once there it stays.
Nothing else is put there. -/
theorem C82_dgroup (c : Cfg) (hm : c.model ≠ .flat) (hf : c.fmt = .omf ∨ c.fmt = .bin) (w : World)
    (init : Sim → Bool) (h : Inv c w init) (hg : Grouped c w init) (d : Dir) (w' : World) (i' : Sim → Bool)
    (hs : opStep c w init (.dir d) = some (w', i')) (hd : ∀ name, d ≠ .seg .stack name) :
    Grouped c w' i' ∧ (∀ n ∈ w.dgroup, n ∈ w'.dgroup) ∧
    (match d with
    | .seg s name => (s = .data ∨ s = .dataUn ∨ s = .const ∨ (s = .code ∧ c.model = .tiny ∧ name.isSome)) →
        name.getD (c.names s) ∈ w'.dgroup
    | .stack _ => c.farStack = false → c.names .stack ∈ w'.dgroup) ∧
    (∀ n ∈ w'.dgroup, n ∈ w.dgroup ∨ (match d with
      | .seg s name => n = name.getD (c.names s) ∧
          (s = .data ∨ s = .dataUn ∨ s = .const ∨ (s = .code ∧ c.model = .tiny))
      | .stack _ => n = c.names .stack ∧ c.farStack = false)) := by
  have hstep : run w (directive c (fun n => (w.defined n).isSome) w.opens.head? init d).1 = some w' ∧
      (directive c (fun n => (w.defined n).isSome) w.opens.head? init d).2 = i' := by
    unfold opStep at hs
    simp only at hs
    cases hr : run w (directive c (fun n => (w.defined n).isSome) w.opens.head? init d).1 with
    | none => rw [hr] at hs; cases hs
    | some w1 => rw [hr] at hs; cases hs; exact ⟨rfl, rfl⟩
  obtain ⟨hr, hi⟩ := hstep
  have hmono := (run_mono _ hr).2
  have hadd : ∀ s name, addToDgroup c s name = [.group (name.getD (c.names s))] := by
    intro s name
    unfold addToDgroup
    rw [if_neg]
    rintro (e | e | e)
    · exact hm e
    · rcases hf with f | f <;> rw [f] at e <;> cases e
    · rcases hf with f | f <;> rw [f] at e <;> cases e
  have hbits : ∀ s name, (∀ t, (setSimSeg c (fun n => (w.defined n).isSome) init s name).2 t = true →
      init t = true ∨ (t = s ∧ name = none)) := by
    intro s name t ht
    unfold setSimSeg at ht
    cases name with
    | some n => exact .inl ht
    | none =>
      simp only at ht
      split at ht
      · exact .inl ht
      · simp only at ht
        by_cases e : t = s
        · exact .inr ⟨e, rfl⟩
        · rw [if_neg e] at ht; exact .inl ht
  cases d with
  | stack size =>
    have hthird : c.farStack = false → c.names .stack ∈ w'.dgroup := by
      intro hfar
      cases his : init .stack with
      | true => exact hmono _ (hg .stack his (.inr (.inr (.inr ⟨rfl, hfar⟩))))
      | false =>
        refine run_group _ hr ?_
        unfold directive
        simp only [his, hfar, hadd]
        simp
    refine ⟨?_, hmono, hthird, ?_⟩
    rotate_left
    · intro n hn
      rcases run_group_only _ hr hn with e | e
      · exact .inl e
      · right
        unfold directive at e
        have hseg : ∀ s nm, (setSimSeg c (fun n => (w.defined n).isSome) init s nm).1 ≠ .group n := by
          intro s nm
          unfold setSimSeg
          cases nm <;> simp only
          · split <;> simp
          · simp
        simp only [hadd, List.mem_append, List.mem_cons, List.not_mem_nil, or_false] at e
        rcases e with (e | e | e) | e
        · exact absurd e.symm (hseg _ _)
        · cases e
        · cases e
        · split at e
          · next hc =>
            simp only [List.mem_singleton, Line.group.injEq, Option.getD_none] at e
            refine ⟨e, ?_⟩
            cases hfar : c.farStack
            · rfl
            · rw [hfar] at hc; simp at hc
          · cases e
    intro t ht hk
    rw [← hi] at ht
    rcases hbits .stack none t ht with h1 | ⟨rfl, _⟩
    · exact hmono _ (hg t h1 hk)
    · rcases hk with e | e | e | ⟨_, e⟩
      · cases e
      · cases e
      · cases e
      · exact hthird e
  | seg s name =>
    have hthird : (s = .data ∨ s = .dataUn ∨ s = .const ∨ (s = .code ∧ c.model = .tiny ∧ name.isSome)) →
        name.getD (c.names s) ∈ w'.dgroup := by
      intro hk
      by_cases hini : name = none ∧ init s = true
      · obtain ⟨rfl, his⟩ := hini
        refine hmono _ (hg s his ?_)
        rcases hk with e | e | e | ⟨_, _, e⟩
        · exact .inl e
        · exact .inr (.inl e)
        · exact .inr (.inr (.inl e))
        · cases e
      · have hcond : (name.isSome || !init s) = true := by
          cases name with
          | some n => rfl
          | none =>
            cases his : init s with
            | false => rfl
            | true => exact absurd ⟨rfl, his⟩ hini
        refine run_group _ hr ?_
        unfold directive
        rcases hk with rfl | rfl | rfl | ⟨rfl, ht, hn⟩
        · simp only [hcond, hadd, if_true]; simp
        · simp only [hcond, hadd, if_true]; simp
        · simp only [hcond, hadd, if_true]; simp
        · simp only [ht, hn, hadd, and_self, if_true]; simp
    refine ⟨?_, hmono, hthird, ?_⟩
    rotate_left
    · intro n hn
      rcases run_group_only _ hr hn with e | e
      · exact .inl e
      · right
        unfold directive at e
        have hseg : ∀ s nm, (setSimSeg c (fun n => (w.defined n).isSome) init s nm).1 ≠ .group n := by
          intro s nm
          unfold setSimSeg
          cases nm <;> simp only
          · split <;> simp
          · simp
        have hcl : ∀ x, Line.group n ∉ closeCurr x := by
          intro x hx
          cases x <;> simp [closeCurr] at hx
        simp only [List.mem_append, List.mem_cons] at e
        rcases e with e | e | e
        · exact absurd e (hcl _)
        · exact absurd e.symm (hseg _ _)
        · cases s with
          | stack => simp at e
          | fardata => simp at e
          | fardataUn => simp at e
          | code =>
            simp only [hadd, List.mem_append] at e
            rcases e with e | e
            · split at e
              · next hc => simp only [List.mem_singleton, Line.group.injEq] at e; exact ⟨e, .inr (.inr (.inr ⟨rfl, hc.1⟩))⟩
              · cases e
            · simp at e
          | data =>
            simp only [hadd, List.mem_cons] at e
            rcases e with e | e
            · cases e
            · split at e
              · simp only [List.mem_singleton, Line.group.injEq] at e; exact ⟨e, .inl rfl⟩
              · cases e
          | dataUn =>
            simp only [hadd, List.mem_cons] at e
            rcases e with e | e
            · cases e
            · split at e
              · simp only [List.mem_singleton, Line.group.injEq] at e; exact ⟨e, .inr (.inl rfl)⟩
              · cases e
          | const =>
            simp only [hadd, List.mem_cons] at e
            rcases e with e | e
            · cases e
            · split at e
              · simp only [List.mem_singleton, Line.group.injEq] at e; exact ⟨e, .inr (.inr (.inl rfl))⟩
              · cases e
    intro t ht hk
    rw [← hi] at ht
    rcases hbits s name t ht with h1 | ⟨rfl, rfl⟩
    · exact hmono _ (hg t h1 hk)
    · rcases hk with e | e | e | ⟨e, e2⟩
      · exact hthird (.inl e)
      · exact hthird (.inr (.inl e))
      · exact hthird (.inr (.inr (.inl e)))
      · subst e; exact absurd rfl (hd none)

theorem ops_grouped (c : Cfg) (hm : c.model ≠ .flat) (hf : c.fmt = .omf ∨ c.fmt = .bin) : ∀ (l : List Op) (w : World)
    (init : Sim → Bool) (w' : World) (i' : Sim → Bool), Inv c w init → Grouped c w init →
    (∀ name, Op.dir (.seg .stack name) ∉ l) → Own c w init l → ops c w init l = some (w', i') → Grouped c w' i' := by
  intro l
  induction l with
  | nil => intro w init w' i' _ hg _ _ h; cases h; exact hg
  | cons o r ih =>
    intro w init w' i' hi hg hl ho h
    unfold ops at h
    split at h
    · cases h
    · next w1 i1 h1 =>
      have hstep : Inv c w1 i1 ∧ Grouped c w1 i1 := by
        cases o with
        | dir d =>
          obtain ⟨w2, i2, g1, g2, _⟩ := C82_directive c w init hi d
          rw [h1] at g1; cases g1
          exact ⟨g2, (C82_dgroup c hm hf w init hi hg d w1 i1 h1
            (fun name e => hl name (by subst e; exact List.mem_cons_self ..))).1⟩
        | line x =>
          unfold opStep at h1
          simp only at h1
          cases hx : step w x with
          | none => rw [hx] at h1; cases h1
          | some w2 =>
            rw [hx] at h1; cases h1
            have hmo := step_mono hx
            refine ⟨?_, fun s hs hk => hmo.2 _ (hg s hs hk)⟩
            intro s hs
            obtain ⟨a, ha⟩ := Option.isSome_iff_exists.1 (hi s hs)
            rw [hmo.1 _ _ ha]; rfl
      exact ih w1 i1 w' i' hstep.1 hstep.2 (fun name e => hl name (List.mem_cons_of_mem _ e)) (ho.2 w1 i1 h1) h

/-- **C82 (whole programs).**  A program from `.MODEL` on, in a segmented model, for BIN or OMF: no simplified directive
causes an error, and at the end each segment of near data that was used is in DGROUP, and the stack unless far. -/
theorem C82_whole (c : Cfg) (hn : c.names .code ≠ c.names .data) (hm : c.model ≠ .flat)
    (hf : c.fmt = .omf ∨ c.fmt = .bin) (w : World) (l : List Op) (hl : ∀ name, Op.dir (.seg .stack name) ∉ l)
    (hown : ∀ w1, run w (modelInit c (fun n => (w.defined n).isSome)).1 = some w1 →
      Own c w1 (modelInit c (fun n => (w.defined n).isSome)).2 l) :
    ∃ w' i', program c w l = some (w', i') ∧ Grouped c w' i' ∧ c.names .data ∈ w'.dgroup ∧
      ∀ n a, w.defined n = some a → w'.defined n = some a := by
  obtain ⟨w1, h1, h2, _, h4, h5⟩ := C82_model c w hn
  have h4 := h4 hm hf
  have hbit : ∀ s, (modelInit c (fun n => (w.defined n).isSome)).2 s = true → s = .code ∨ s = .data := by
    intro s hs
    simp only [modelInit, setSimSeg] at hs
    cases s <;> simp at hs ⊢
  have hg : Grouped c w1 (modelInit c (fun n => (w.defined n).isSome)).2 := by
    intro s hs hk
    rcases hbit s hs with rfl | rfl
    · rcases hk with e | e | e | ⟨e, _⟩ <;> cases e
    · exact h4.1
  obtain ⟨w', i', g1, g2, g3⟩ := C82_program c l w1 _ h2 (hown w1 h1)
  have gg := ops_grouped c hm hf l w1 _ w' i' h2 hg hl (hown w1 h1) g1
  have hbd : (modelInit c (fun n => (w.defined n).isSome)).2 .data = true := by
    simp [modelInit, setSimSeg]
  have mono : ∀ (l : List Op) (a : World) (i : Sim → Bool) (b : World) (j : Sim → Bool),
      ops c a i l = some (b, j) → ∀ n ∈ a.dgroup, n ∈ b.dgroup := by
    intro l
    induction l with
    | nil => intro a i b j h n hn; cases h; exact hn
    | cons o r ih =>
      intro a i b j h n hn
      unfold ops at h
      split at h
      · cases h
      · next a1 i1 h1 =>
        refine ih a1 i1 b j h n ?_
        unfold opStep at h1
        cases o with
        | line x =>
          simp only at h1
          cases hx : step a x with
          | none => rw [hx] at h1; cases h1
          | some w2 => rw [hx] at h1; cases h1; exact (step_mono hx).2 n hn
        | dir d =>
          simp only at h1
          cases hx : run a (directive c (fun n => (a.defined n).isSome) a.opens.head? i d).1 with
          | none => rw [hx] at h1; cases h1
          | some w2 => rw [hx] at h1; cases h1; exact (run_mono _ hx).2 n hn
  refine ⟨w', i', ?_, gg, mono l _ _ _ _ g1 _ h4.1, fun n a ha => g3 n a (h5 n a ha)⟩
  unfold program
  simp only [h1]
  exact g1

/-! ## A program -/

def sampleCfg : Cfg where
  model := .small
  use32 := false
  le386 := true
  segAlign := 4
  fmt := .omf
  names := fun s => match s with
    | .code => "_TEXT".toList | .stack => "STACK".toList | .data => "_DATA".toList | .dataUn => "_BSS".toList
    | .fardata => "FAR_DATA".toList | .fardataUn => "FAR_BSS".toList | .const => "CONST".toList
  codeClass := "CODE".toList
  farStack := false

def start : World := ⟨[], fun _ => none, fun _ => 0, [], []⟩

def sampleOps : List Op :=
  [.dir (.stack (some 512)), .dir (.seg .data none), .line (.segment "MINE".toList none), .dir (.seg .dataUn none),
   .dir (.stack none), .dir (.seg .code none)]

/-- `.STACK 512`, `.DATA`, a segment of the program inside of it, `.DATA?` (which closes that one), `.STACK`, `.CODE`. -/
example : (program sampleCfg start sampleOps).map (fun r => (r.1.opens.map String.ofList, r.1.dgroup.map String.ofList,
      String.ofList r.1.cs, r.1.size "STACK".toList)) =
    some (["_TEXT", "_DATA"], ["_BSS", "STACK", "_DATA"], "_TEXT", 1024) := by decide +kernel

example : (program sampleCfg start sampleOps).bind (fun r => r.1.defined "_BSS".toList) =
    some ⟨"WORD".toList, [], "PUBLIC".toList, "BSS".toList⟩ := by decide +kernel

theorem own_open (c : Cfg) : ∀ (l : List Op) (w : World) (init : Sim → Bool),
    (∀ x, Op.line x ∈ l → ∃ n, x = .segment n none) → Own c w init l := by
  intro l
  induction l with
  | nil => intro _ _ _; trivial
  | cons o r ih =>
    intro w init h
    refine ⟨?_, fun w' i' _ => ih w' i' (fun x hx => h x (List.mem_cons_of_mem _ hx))⟩
    intro x hx
    subst hx
    obtain ⟨n, rfl⟩ := h x (List.mem_cons_self ..)
    unfold step
    simp only
    cases w.defined n <;> rfl

/-- C82_whole applies to the program above. -/
example : ∃ w' i', program sampleCfg start sampleOps = some (w', i') ∧ Grouped sampleCfg w' i' := by
  have hl : ∀ name, Op.dir (.seg .stack name) ∉ sampleOps := by
    intro name h
    simp [sampleOps] at h
  have hown : ∀ x, Op.line x ∈ sampleOps → ∃ n, x = .segment n none := by
    intro x h
    simp [sampleOps] at h
    exact ⟨_, h⟩
  obtain ⟨w', i', h1, h2, _⟩ := C82_whole sampleCfg (by decide) (by decide) (.inl rfl) start sampleOps hl
    (fun w1 _ => own_open _ _ _ _ hown)
  exact ⟨w', i', h1, h2⟩

end Verif.SimSeg
