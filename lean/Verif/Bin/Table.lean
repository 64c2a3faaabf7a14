import Verif.Bin.Pe
/-! # Proofs: the PE section table -/
namespace Verif.Bin
open Spec

theorem rawSum_cons (s : Seg) (ss : List Seg) :
    rawSum (s :: ss) = (if s.segtype ≠ .bss then s.maxOffset else 0) + rawSum ss := rfl

/-- The header after all segments of the section, `sec` being the header so far with its name and
addresses set. -/
def closed (rps : W) (sec : SecHdr) (s : Seg) (mem : List Seg) : SecHdr :=
  let last := (s :: mem).getLast (by simp)
  { sec with virtualSize := last.maxOffset + (last.startOffset - sec.virtualAddress)
             sizeOfRawData := alignUp (sec.sizeOfRawData + rawSum (s :: mem)) rps }

/-- How the table goes on after a section. -/
def cont (rps : W) (hdr : SecHdr) (done : List SecHdr) (L : Nat) : List Seg → List SecHdr
  | [] => (hdr :: done).reverse
  | t :: ts => fillTable rps (hdr :: done) emptyHdr (some L) (t :: ts)

theorem fill_run (rps : W) (rest : List Seg) (L : Nat) (hrest : ∀ t ∈ rest.head?, t.lname ≠ L) :
    ∀ (mem : List Seg) (s : Seg) (done : List SecHdr) (sec : SecHdr),
    (∀ x ∈ s :: mem, x.lname = L ∧ x.maxOffset ≠ 0 ∧ x.segtype ≠ .hdr) →
    fillTable rps done sec (some L) (s :: mem ++ rest) =
      cont rps (closed rps sec s mem) done L rest
  | [], s, done, sec, h => by
    obtain ⟨h1, h2, h3⟩ := h s List.mem_cons_self
    have hraw : (if s.segtype ≠ .bss then sec.sizeOfRawData + s.maxOffset else sec.sizeOfRawData)
        = sec.sizeOfRawData + rawSum [s] := by
      rw [rawSum_cons]; simp only [rawSum, List.map_nil, List.foldr_nil]
      split <;> simp
    cases rest with
    | nil =>
      simp only [List.cons_append, List.nil_append]
      rw [fillTable, if_neg h3, if_neg h2]
      simp only [h1, ne_eq, not_true_eq_false, if_false, if_true]
      rw [fillTable]
      simp only [ne_eq] at hraw
      rw [hraw, roundUp_eq]; rfl
    | cons t ts =>
      have ht := hrest t rfl
      simp only [List.cons_append, List.nil_append]
      rw [fillTable, if_neg h3, if_neg h2]
      simp only [h1, ne_eq, not_true_eq_false, if_false, if_true, ht, not_false_eq_true, decide_true]
      simp only [ne_eq] at hraw
      rw [hraw, roundUp_eq]; rfl
  | s' :: mem, s, done, sec, h => by
    obtain ⟨h1, h2, h3⟩ := h s List.mem_cons_self
    obtain ⟨h1', _, _⟩ := h s' (List.mem_cons_of_mem _ List.mem_cons_self)
    have ih := fill_run rps rest L hrest mem s' done
      { sec with sizeOfRawData := if s.segtype ≠ .bss then sec.sizeOfRawData + s.maxOffset
                                  else sec.sizeOfRawData
                 virtualSize := s.maxOffset + (s.startOffset - sec.virtualAddress) }
      (fun x hx => h x (List.mem_cons_of_mem _ hx))
    simp only [List.cons_append]
    rw [fillTable, if_neg h3, if_neg h2]
    simp only [h1, h1', ne_eq, not_true_eq_false, if_false, decide_false, Bool.false_eq_true]
    simp only [List.cons_append, ne_eq] at ih
    rw [ih]
    have hc : closed rps { sec with
          sizeOfRawData := if ¬ s.segtype = .bss then sec.sizeOfRawData + s.maxOffset
                           else sec.sizeOfRawData
          virtualSize := s.maxOffset + (s.startOffset - sec.virtualAddress) } s' mem
        = closed rps sec s (s' :: mem) := by
      unfold closed
      have hl : (s :: s' :: mem).getLast (by simp) = (s' :: mem).getLast (by simp) :=
        List.getLast_cons (by simp)
      rw [rawSum_cons s]
      simp only [ne_eq, hl]
      by_cases hb : s.segtype = .bss
      · simp [hb]
      · simp [hb, BitVec.add_assoc]
    rw [hc]

theorem fill_first (rps : W) (rest : List Seg) (a : Seg) (mem : List Seg) (i : Option Nat)
    (hrest : ∀ t ∈ rest.head?, t.lname ≠ a.lname) (hi : i ≠ some a.lname) (done : List SecHdr)
    (h : ∀ x ∈ a :: mem, x.lname = a.lname ∧ x.maxOffset ≠ 0 ∧ x.segtype ≠ .hdr) :
    fillTable rps done emptyHdr i (a :: mem ++ rest) =
      cont rps (header rps a mem) done a.lname rest := by
  have key : fillTable rps done emptyHdr i (a :: mem ++ rest) =
      fillTable rps done { emptyHdr with
          name := a.name
          pointerToRawData := if a.segtype ≠ .bss then a.fileOffset else 0
          virtualAddress := a.startOffset } (some a.lname) (a :: mem ++ rest) := by
    obtain ⟨_, h2, h3⟩ := h a List.mem_cons_self
    simp only [List.cons_append]
    conv => lhs; rw [fillTable.eq_def]
    conv => rhs; rw [fillTable.eq_def]
    simp only [h3, h2, hi, ne_eq, not_false_eq_true, if_true, not_true_eq_false, if_false]
    rfl
  rw [key, fill_run rps rest a.lname hrest mem a done _ h]
  have hc : closed rps { emptyHdr with
          name := a.name
          pointerToRawData := if a.segtype ≠ .bss then a.fileOffset else 0
          virtualAddress := a.startOffset } a mem = header rps a mem := by
    unfold closed header; simp [emptyHdr]
  rw [hc]

theorem fill_sections (rps : W) : ∀ (secs : List (Seg × List Seg)) (a : Seg) (mem : List Seg)
    (i : Option Nat) (done : List SecHdr), Sections ((a, mem) :: secs) → i ≠ some a.lname →
    fillTable rps done emptyHdr i (((a, mem) :: secs).flatMap (fun p => p.1 :: p.2)) =
      done.reverse ++ ((a, mem) :: secs).map (fun p => header rps p.1 p.2)
  | [], a, mem, i, done, hs, hi => by
    obtain ⟨h1, _, _⟩ := hs
    simp only [List.flatMap_cons, List.flatMap_nil]
    rw [fill_first rps [] a mem i (by simp) hi done h1]
    simp [cont]
  | (b, mem') :: secs, a, mem, i, done, hs, hi => by
    obtain ⟨h1, h2, h3⟩ := hs
    have hne : b.lname ≠ a.lname := h2 (b, mem') rfl
    rw [List.flatMap_cons]
    have hf : ((b, mem') :: secs).flatMap (fun p => p.1 :: p.2)
        = b :: (mem' ++ secs.flatMap (fun p => p.1 :: p.2)) := by simp
    rw [fill_first rps (((b, mem') :: secs).flatMap (fun p => p.1 :: p.2)) a mem i
      (by rw [hf]; simpa using hne) hi done h1]
    rw [hf, cont, ← hf, fill_sections rps secs b mem' (some a.lname) _ h3 (by simpa using hne.symm)]
    simp

theorem fill_hdrs (rps : W) (done : List SecHdr) (sec : SecHdr) (i : Option Nat) (rest : List Seg) :
    ∀ hdrs : List Seg, (∀ s ∈ hdrs, s.segtype = .hdr) →
    fillTable rps done sec i (hdrs ++ rest) = fillTable rps done sec i rest
  | [], _ => rfl
  | s :: ss, h => by
    rw [List.cons_append]
    conv => lhs; rw [fillTable.eq_def]
    simp only [h s List.mem_cons_self, if_true]
    exact fill_hdrs rps done sec i rest ss (fun x hx => h x (List.mem_cons_of_mem _ hx))

end Verif.Bin
