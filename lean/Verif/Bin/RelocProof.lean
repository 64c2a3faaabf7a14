import Verif.Bin.RelocSpec
namespace Verif.Bin
open Spec

/-- The addresses of the pages of all relocated fixups satisfy `P` and are not 0xFFFFFFFF. -/
def PagesOk (P : W → Prop) (segs : List RSeg) : Prop :=
  ∀ s ∈ segs, s.hdr = false → ∀ f ∈ s.fixups, relType f.type ≠ 0 →
    pageOf s.startOffset f.locofs ≠ -1 ∧ P (pageOf s.startOffset f.locofs)

theorem kind_rel (start : W) (f : RFix) :
    ((kind f.type).map (fun t => (start + f.locofs, t)) : Option Reloc) =
      if relType f.type = 0 then none else some (start + f.locofs, relType f.type) := by
  cases hf : f.type <;> rfl

theorem put16_same (mem : Nat → BitVec 16) (i : Nat) (v : BitVec 16) : put16 mem i v i = v := by
  simp [put16]

theorem put16_ne (mem : Nat → BitVec 16) {i j : Nat} (v : BitVec 16) (h : j ≠ i) :
    put16 mem i v j = mem j := by simp [put16, h]

theorem put32_ne (mem : Nat → BitVec 16) {i j : Nat} (v : W) (h : j ≠ i) (h' : j ≠ i + 1) :
    put32 mem i v j = mem j := by
  unfold put32; rw [put16_ne _ _ h', put16_ne _ _ h]

theorem get32_put32 (mem : Nat → BitVec 16) (i : Nat) (v : W) : get32 (put32 mem i v) i = v := by
  unfold get32 put32
  rw [put16_same, put16_ne _ _ (by omega), put16_same]
  ext k hk
  simp only [BitVec.getElem_append, BitVec.getElem_setWidth, BitVec.getLsbD_ushiftRight]
  split
  · simp [BitVec.getLsbD_eq_getElem hk]
  · rename_i h
    rw [BitVec.getElem_eq_testBit_toNat, BitVec.getLsbD, show 16 + (k - 16) = k by omega]

theorem get32_congr {m m' : Nat → BitVec 16} {i : Nat} (h1 : m i = m' i) (h2 : m (i + 1) = m' (i + 1)) :
    get32 m i = get32 m' i := by
  unfold get32; rw [h1, h2]

theorem table_append {mem P b e} : ∀ {p l1 l2}, Table mem P b p l1 → Table mem P e b l2 →
    Table mem P e p (l1 ++ l2) := by
  intro p l1 l2 h1 h2
  induction h1 with
  | done => simpa using h2
  | block pos n rest a1 a2 a3 a4 _ ih =>
    rw [List.append_assoc]
    exact .block pos n _ a1 a2 a3 a4 ih

theorem table_le {mem P e p l} (h : Table mem P e p l) : p ≤ e := by
  induction h with
  | done => exact Nat.le_refl _
  | block pos n rest _ _ _ _ _ ih => omega

theorem table_congr {m m' : Nat → BitVec 16} {P b} (hm : ∀ i < b, m' i = m i) :
    ∀ {p l}, Table m P b p l → Table m' P b p l := by
  intro p l h
  induction h with
  | done => exact .done
  | block pos n rest a1 a2 a3 a4 h ih =>
    have hle := table_le h
    have e1 : get32 m pos = get32 m' pos := get32_congr (hm _ (by omega)).symm (hm _ (by omega)).symm
    have e2 : get32 m (pos + 2) = get32 m' (pos + 2) :=
      get32_congr (hm _ (by omega)).symm (hm _ (by omega)).symm
    have e3 : (List.range n).map (fun i => m (pos + 4 + i)) = (List.range n).map (fun i => m' (pos + 4 + i)) := by
      apply List.map_congr_left
      intro i hi
      rw [List.mem_range] at hi
      exact (hm _ (by omega)).symm
    rw [e1, e3]
    exact .block pos n rest a1 (by rw [← e2]; exact a2) a3 (by rw [← e1]; exact a4) ih

theorem and1 (x : W) : (x &&& 1 ≠ 0) ↔ x.toNat % 2 = 1 := by
  have : x &&& 1 = BitVec.ofNat 32 (x.toNat % 2) := by
    apply BitVec.eq_of_toNat_eq
    rw [BitVec.toNat_and, BitVec.toNat_ofNat]
    show x.toNat &&& 1 = _
    rw [Nat.and_one_is_mod]; omega
  rw [this]
  constructor
  · intro h
    rcases Nat.mod_two_eq_zero_or_one x.toNat with h0 | h0
    · rw [h0] at h; exact absurd rfl h
    · exact h0
  · intro h; rw [h]; decide

theorem and2_size {n : Nat} (h : 8 + 2 * n < 2 ^ 32) :
    (BitVec.ofNat 32 (8 + 2 * n) &&& 2 ≠ 0) ↔ n % 2 = 1 := by
  have : BitVec.ofNat 32 (8 + 2 * n) &&& 2 = BitVec.ofNat 32 (2 * (n % 2)) := by
    apply BitVec.eq_of_toNat_eq
    rw [BitVec.toNat_and, BitVec.toNat_ofNat, BitVec.toNat_ofNat, Nat.mod_eq_of_lt h]
    show (8 + 2 * n) &&& 2 = _
    have e1 : 8 + 2 * n = 2 * (4 + n) := by omega
    have e2 : (2 : Nat) = 2 * 1 := rfl
    rw [e1, show (2 * (4 + n)) &&& 2 = 2 * ((4 + n) &&& 1) from by
      apply Nat.eq_of_testBit_eq
      intro i
      cases i with
      | zero => simp [Nat.testBit_and, Nat.testBit_zero]
      | succ i =>
        rw [Nat.testBit_and, Nat.testBit_succ, Nat.testBit_succ, Nat.testBit_succ, Nat.mul_div_cancel_left _ (by omega),
          Nat.mul_div_cancel_left _ (by omega), Nat.testBit_and], Nat.and_one_is_mod]
    omega
  rw [this]
  rcases Nat.mod_two_eq_zero_or_one n with h0 | h0
  · rw [h0]; simp
  · rw [h0]; simp

/-- The writing pass has written at least one relocation; `es` are the words of the open block. -/
structure Opn (mem0 : Nat → BitVec 16) (P : W → Prop) (st : WSt) (c : Cnt) (n : Nat)
    (done : List Reloc) (es : List (BitVec 16)) : Prop where
  even : st.base % 2 = 0
  tab : Table st.mem P st.base 0 done
  va : get32 st.mem st.base = c.page
  vaOk : c.page ≠ -1
  vaP : P c.page
  size : get32 st.mem (st.base + 2) = BitVec.ofNat 32 (8 + 2 * es.length)
  ents : (List.range es.length).map (fun i => st.mem (st.base + 4 + i)) = es
  prel : st.prel = st.base + 4 + es.length
  par : (c.cnt1.toNat + es.length) % 2 = 0
  le : es.length ≤ c.cnt1.toNat
  pos : st.prel = 4 * c.cnt2.toNat + c.cnt1.toNat
  b1 : c.cnt1.toNat ≤ 2 * n
  b2 : c.cnt2.toNat ≤ n
  frame : ∀ i, st.prel ≤ i → st.mem i = mem0 i

theorem opn_table {mem0 P st c n done es} (h : Opn mem0 P st c n done es) (hn : n ≤ 2 ^ 27) :
    Table st.mem P st.prel 0 (done ++ es.filterMap (entry c.page)) := by
  have hl := h.le
  have hb := h.b1
  have hblk : Table st.mem P st.prel st.base (es.filterMap (entry c.page)) := by
    have := Table.block (mem := st.mem) (P := P) (e := st.prel) st.base es.length [] h.even h.size (by omega)
      (by rw [h.va]; exact h.vaP) (by rw [h.prel, Nat.add_assoc]; exact .done)
    rw [h.ents, h.va, List.append_nil] at this
    exact this
  exact table_append h.tab hblk

/-- The word written for a fixup. -/
def word (f : RFix) : BitVec 16 := (f.locofs &&& 0xfff).setWidth 16 ||| (relType f.type <<< 12)

theorem word_entry {start : W} {f : RFix} (h : relType f.type ≠ 0) :
    entry (pageOf start f.locofs) (word f) = some (start + f.locofs, relType f.type) := by
  have e1 : word f >>> 12 = relType f.type := by
    unfold word
    have ha : ((f.locofs &&& 0xfff).setWidth 16 : BitVec 16) >>> 12 = 0 := by
      ext i hi; simp
      intro h1 h2
      have : BitVec.getLsbD (0xfff#32) (12 + i) = false := by
        have : ∀ j : Fin 4, BitVec.getLsbD (0xfff#32) (12 + j.1) = false := by decide
        exact this ⟨i, by omega⟩
      exact this
    rw [BitVec.ushiftRight_or_distrib, ha]
    cases f.type <;> first | rfl | (exfalso; exact h rfl)
  have e2 : (word f &&& 0xfff).setWidth 32 = f.locofs &&& 0xfff := by
    unfold word
    ext i hi
    simp only [BitVec.getElem_setWidth, BitVec.getLsbD_and, BitVec.getLsbD_or, BitVec.getLsbD_setWidth,
      BitVec.getLsbD_shiftLeft]
    rw [← BitVec.getLsbD_eq_getElem hi, BitVec.getLsbD_and]
    by_cases h12 : i < 12
    · have d1 : decide (i < 16) = true := by simp; omega
      have d2 : decide (i < 12) = true := by simp; omega
      have m1 : BitVec.getLsbD (0xfff#16) i = true := by
        have : ∀ j : Fin 12, BitVec.getLsbD (0xfff#16) j.1 = true := by decide
        exact this ⟨i, h12⟩
      simp [d1, d2, m1]
    · have m1 : BitVec.getLsbD (0xfff#16) i = false := by
        by_cases h16 : i < 16
        · have : ∀ j : Fin 16, 12 ≤ j.1 → BitVec.getLsbD (0xfff#16) j.1 = false := by decide
          exact this ⟨i, h16⟩ (by show 12 ≤ i; omega)
        · exact BitVec.getLsbD_of_ge _ _ (by omega)
      have m2 : BitVec.getLsbD (0xfff#32) i = false := by
        have : ∀ j : Fin 32, 12 ≤ j.1 → BitVec.getLsbD (0xfff#32) j.1 = false := by decide
        exact this ⟨i, hi⟩ (by show 12 ≤ i; omega)
      simp [m1, m2]
  unfold entry
  rw [e1, if_neg h, e2]
  have : (f.locofs &&& 0xFFFFF000) + (f.locofs &&& 0xfff) = f.locofs := by
    have hh : (0xfff : W) = ~~~(0xFFFFF000 : W) := by decide
    rw [hh]
    rw [BitVec.add_eq_or_of_and_eq_zero]
    · ext i hi; rw [BitVec.getElem_or, BitVec.getElem_and, BitVec.getElem_and, BitVec.getElem_not]
      cases f.locofs[i] <;> cases (0xFFFFF000 : W)[i] <;> rfl
    · ext i hi; rw [BitVec.getElem_and, BitVec.getElem_and, BitVec.getElem_and, BitVec.getElem_not]
      cases f.locofs[i] <;> cases (0xFFFFF000 : W)[i] <;> simp
  unfold pageOf
  rw [BitVec.add_assoc, this]

theorem count_skip {start : W} {c : Cnt} {f : RFix} (h : relType f.type = 0) : countFix start c f = c := by
  unfold countFix
  cases hf : f.type <;> rw [hf] at h <;> first | rfl | (exfalso; revert h; decide)

theorem count_take {start : W} {c : Cnt} {f : RFix} (h : relType f.type ≠ 0) :
    countFix start c f =
      if pageOf start f.locofs ≠ c.page then
        ⟨pageOf start f.locofs, (if c.cnt1 &&& 1 ≠ 0 then c.cnt1 + 1 else c.cnt1) + 1, c.cnt2 + 1⟩
      else ⟨c.page, c.cnt1 + 1, c.cnt2⟩ := by
  unfold countFix
  cases hf : f.type <;> rw [hf] at h <;>
    first
    | (exfalso; exact h rfl)
    | (simp only; by_cases hp : pageOf start f.locofs = c.page <;> simp [hp])

/-- Writing one entry into the open block. -/
theorem push_entry {mem : Nat → BitVec 16} {base k : Nat} {es : List (BitVec 16)} {va : W} (w : BitVec 16)
    (hva : get32 mem base = va)
    (hsz : get32 mem (base + 2) = BitVec.ofNat 32 (8 + 2 * es.length))
    (hents : (List.range es.length).map (fun i => mem (base + 4 + i)) = es)
    (hk : k = base + 4 + es.length) :
    let m1 := put16 mem k w
    let m2 := put32 m1 (base + 2) (get32 m1 (base + 2) + 2)
    get32 m2 base = va ∧ get32 m2 (base + 2) = BitVec.ofNat 32 (8 + 2 * (es ++ [w]).length) ∧
    (List.range (es ++ [w]).length).map (fun i => m2 (base + 4 + i)) = es ++ [w] ∧
    (∀ i < base, m2 i = mem i) ∧ (∀ i, k + 1 ≤ i → m2 i = mem i) := by
  subst hk
  intro m1 m2
  have hm1 : ∀ j, j ≠ base + 4 + es.length → m1 j = mem j := fun j hj => put16_ne mem w hj
  have hm2 : ∀ j, j ≠ base + 2 → j ≠ base + 2 + 1 → m2 j = m1 j := fun j h1 h2 => put32_ne m1 _ h1 h2
  have g1 : get32 m1 (base + 2) = BitVec.ofNat 32 (8 + 2 * es.length) := by
    rw [get32_congr (hm1 _ (by omega)) (hm1 _ (by omega))]; exact hsz
  refine ⟨?_, ?_, ?_, ?_, ?_⟩
  · rw [get32_congr (m' := mem) (by rw [hm2 _ (by omega) (by omega), hm1 _ (by omega)])
      (by rw [hm2 _ (by omega) (by omega), hm1 _ (by omega)])]
    exact hva
  · show get32 (put32 _ _ _) _ = _
    rw [get32_put32, g1]
    apply BitVec.eq_of_toNat_eq
    have h2 : (2 : W).toNat = 2 := rfl
    simp only [BitVec.toNat_add, BitVec.toNat_ofNat, h2, List.length_append, List.length_cons, List.length_nil]
    omega
  · rw [List.length_append, List.length_singleton, List.range_succ, List.map_append]
    congr 1
    · rw [← hents]
      simp only [List.length_map, List.length_range]
      apply List.map_congr_left
      intro i hi
      rw [List.mem_range] at hi
      rw [hm2 _ (by omega) (by omega), hm1 _ (by omega)]
    · simp only [List.map_cons, List.map_nil]
      rw [hm2 _ (by omega) (by omega)]
      show [put16 mem _ w _] = _
      rw [put16_same]
  · intro i hi
    rw [hm2 _ (by omega) (by omega), hm1 _ (by omega)]
  · intro i hi
    rw [hm2 _ (by omega) (by omega), hm1 _ (by omega)]

theorem cnt_succ {x : W} {n : Nat} (h : x.toNat ≤ n) (hn : n < 2 ^ 31) : (x + 1).toNat = x.toNat + 1 := by
  have h1 : (1 : W).toNat = 1 := rfl
  rw [BitVec.toNat_add, h1]; omega

theorem opn_same {mem0 P st c n done es} {start : W} {f : RFix} (h : Opn mem0 P st c n done es)
    (hn : n < 2 ^ 27) (hr : relType f.type ≠ 0) (hp : pageOf start f.locofs = c.page) :
    Opn mem0 P (writeFix start st f) (countFix start c f) (n + 1) done (es ++ [word f]) := by
  have hc := count_take (start := start) (c := c) hr
  rw [if_neg (by simpa using hp)] at hc
  have hw : writeFix start st f =
      ⟨put32 (put16 st.mem st.prel (word f)) (st.base + 2)
        (get32 (put16 st.mem st.prel (word f)) (st.base + 2) + 2), st.base, st.prel + 1⟩ := by
    unfold writeFix
    simp only [if_neg hr, hp, h.va, ne_eq, not_true_eq_false, if_false]
    rfl
  obtain ⟨p1, p2, p3, p4, p5⟩ := push_entry (word f) h.va h.size h.ents h.prel
  have hb1 := h.b1
  have hb2 := h.b2
  have hc1 : (c.cnt1 + 1).toNat = c.cnt1.toNat + 1 := cnt_succ (n := 2 * n) hb1 (by omega)
  have hlen : (es ++ [word f]).length = es.length + 1 := by simp
  rw [hc, hw]
  refine ⟨h.even, table_congr p4 h.tab, p1, h.vaOk, h.vaP, p2, p3, ?_, ?_, ?_, ?_, ?_, ?_, ?_⟩
  · have := h.prel; simp only [hlen]; omega
  · have := h.par; simp only [hlen, hc1]; omega
  · have := h.le; simp only [hlen, hc1]; omega
  · have := h.pos; simp only [hc1]; omega
  · simp only [hc1]; omega
  · simp only; omega
  · intro i hi
    simp only at hi ⊢
    rw [p5 i hi]; exact h.frame i (by omega)

/-- A new block at `b`, with its first entry. -/
theorem new_block {mem : Nat → BitVec 16} {b : Nat} (va : W) (w : BitVec 16) :
    let m := put32 (put32 mem b va) (b + 2) 8
    let m1 := put16 m (b + 4) w
    let m2 := put32 m1 (b + 2) (get32 m1 (b + 2) + 2)
    get32 m2 b = va ∧ get32 m2 (b + 2) = BitVec.ofNat 32 (8 + 2 * [w].length) ∧
    (List.range [w].length).map (fun i => m2 (b + 4 + i)) = [w] ∧
    (∀ i < b, m2 i = mem i) ∧ (∀ i, b + 5 ≤ i → m2 i = mem i) := by
  intro m m1 m2
  have hva : get32 m b = va := by
    rw [get32_congr (m' := put32 mem b va) (put32_ne _ _ (by omega) (by omega))
      (put32_ne _ _ (by omega) (by omega)), get32_put32]
  have hsz : get32 m (b + 2) = BitVec.ofNat 32 (8 + 2 * ([] : List (BitVec 16)).length) := by
    show get32 (put32 _ _ _) _ = _
    rw [get32_put32]; rfl
  obtain ⟨p1, p2, p3, p4, p5⟩ := push_entry (es := []) (k := b + 4) w hva hsz rfl rfl
  refine ⟨p1, p2, p3, ?_, ?_⟩
  · intro i hi
    refine (p4 i hi).trans ?_
    show put32 _ _ _ _ = _
    rw [put32_ne _ _ (by omega) (by omega), put32_ne _ _ (by omega) (by omega)]
  · intro i hi
    refine (p5 i (by omega)).trans ?_
    show put32 _ _ _ _ = _
    rw [put32_ne _ _ (by omega) (by omega), put32_ne _ _ (by omega) (by omega)]

theorem entry_zero (va : W) : entry va 0 = none := by simp [entry]

/-- Closing the open block with or without a padding word. -/
theorem opn_close {mem0 P st c n done es} (h : Opn mem0 P st c n done es) (hn : n < 2 ^ 27) :
    let p : WSt := if get32 st.mem (st.base + 2) &&& 2 ≠ 0 then
        ⟨put32 (put16 st.mem st.prel 0) (st.base + 2)
          (get32 (put16 st.mem st.prel 0) (st.base + 2) + 2), st.base, st.prel + 1⟩
      else st
    let k : W := if c.cnt1 &&& 1 ≠ 0 then c.cnt1 + 1 else c.cnt1
    p.prel % 2 = 0 ∧ Table p.mem P p.prel 0 (done ++ es.filterMap (entry c.page)) ∧
    p.prel = 4 * c.cnt2.toNat + k.toNat ∧ k.toNat % 2 = 0 ∧ k.toNat ≤ c.cnt1.toNat + 1 ∧
    (∀ i, p.prel ≤ i → p.mem i = mem0 i) := by
  intro p k
  have hl := h.le
  have hb1 := h.b1
  have hb2 := h.b2
  have hpar := h.par
  have hpos := h.pos
  have hprel := h.prel
  have heven := h.even
  have hsz : (get32 st.mem (st.base + 2) &&& 2 ≠ 0) ↔ es.length % 2 = 1 := by
    rw [h.size]; exact and2_size (by omega)
  have hc1 := and1 c.cnt1
  by_cases ho : es.length % 2 = 1
  · have hp : p = ⟨put32 (put16 st.mem st.prel 0) (st.base + 2)
          (get32 (put16 st.mem st.prel 0) (st.base + 2) + 2), st.base, st.prel + 1⟩ := if_pos (hsz.2 ho)
    have hk : k = c.cnt1 + 1 := if_pos (hc1.2 (by omega))
    have hk' : k.toNat = c.cnt1.toNat + 1 := by
      rw [hk]; exact cnt_succ (n := 2 * n) hb1 (by omega)
    obtain ⟨p1, p2, p3, p4, p5⟩ := push_entry 0 h.va h.size h.ents h.prel
    have hlen : (es ++ [(0 : BitVec 16)]).length = es.length + 1 := by simp
    rw [hp]
    refine ⟨by simp only; omega, ?_, by simp only; omega, by omega, by omega, ?_⟩
    · refine table_append (table_congr p4 h.tab) ?_
      have := Table.block (mem := put32 (put16 st.mem st.prel 0) (st.base + 2)
          (get32 (put16 st.mem st.prel 0) (st.base + 2) + 2)) (P := P) (e := st.prel + 1)
        st.base (es ++ [0]).length [] h.even p2 (by omega) (by rw [p1]; exact h.vaP)
        (by have : st.base + (4 + (es ++ [(0 : BitVec 16)]).length) = st.prel + 1 := by omega
            rw [this]; exact .done)
      rw [p3, p1, List.append_nil, List.filterMap_append, List.filterMap_cons_none (entry_zero _),
        List.filterMap_nil, List.append_nil] at this
      exact this
    · intro i hi
      simp only at hi ⊢
      rw [p5 i hi]; exact h.frame i (by omega)
  · have hp : p = st := if_neg (fun e => ho (hsz.1 e))
    have hk : k = c.cnt1 := if_neg (fun e => ho (by have := hc1.1 e; omega))
    rw [hp]
    refine ⟨by omega, opn_table h (by omega), by rw [hk]; exact h.pos, by rw [hk]; omega, by rw [hk]; omega,
      h.frame⟩

theorem opn_new {mem0 P st c n done es} {start : W} {f : RFix} (h : Opn mem0 P st c n done es)
    (hn : n < 2 ^ 27) (hr : relType f.type ≠ 0) (hp : pageOf start f.locofs ≠ c.page)
    (hne : pageOf start f.locofs ≠ -1) (hP : P (pageOf start f.locofs)) :
    Opn mem0 P (writeFix start st f) (countFix start c f) (n + 1)
      (done ++ es.filterMap (entry c.page)) [word f] := by
  have hc := count_take (start := start) (c := c) hr
  rw [if_pos hp] at hc
  obtain ⟨q1, q2, q3, q4, q5, q6⟩ := opn_close h hn
  have hw : writeFix start st f =
      let p : WSt := if get32 st.mem (st.base + 2) &&& 2 ≠ 0 then
          ⟨put32 (put16 st.mem st.prel 0) (st.base + 2)
            (get32 (put16 st.mem st.prel 0) (st.base + 2) + 2), st.base, st.prel + 1⟩
        else st
      let m := put32 (put32 p.mem p.prel (pageOf start f.locofs)) (p.prel + 2) 8
      let m1 := put16 m (p.prel + 4) (word f)
      ⟨put32 m1 (p.prel + 2) (get32 m1 (p.prel + 2) + 2), p.prel, p.prel + 4 + 1⟩ := by
    unfold writeFix
    simp only [if_neg hr]
    rw [if_pos (by rw [h.va]; exact hp), if_pos (by rw [h.va]; exact h.vaOk)]
    rfl
  generalize hpp : (if get32 st.mem (st.base + 2) &&& 2 ≠ 0 then
          (⟨put32 (put16 st.mem st.prel 0) (st.base + 2)
            (get32 (put16 st.mem st.prel 0) (st.base + 2) + 2), st.base, st.prel + 1⟩ : WSt)
        else st) = p at q1 q2 q3 q4 q5 q6 hw
  generalize hkk : (if c.cnt1 &&& 1 ≠ 0 then c.cnt1 + 1 else c.cnt1) = k at q3 q4 q5 hc
  obtain ⟨p1, p2, p3, p4, p5⟩ := new_block (mem := p.mem) (b := p.prel) (pageOf start f.locofs) (word f)
  have hb1 := h.b1
  have hb2 := h.b2
  have hk1 : (k + 1).toNat = k.toNat + 1 := cnt_succ (n := 2 * n + 1) (by omega) (by omega)
  have hk2 : (c.cnt2 + 1).toNat = c.cnt2.toNat + 1 := cnt_succ (n := n) hb2 (by omega)
  rw [hc, hw]
  refine ⟨q1, table_congr p4 q2, p1, hne, hP, p2, p3, ?_, ?_, ?_, ?_, ?_, ?_, ?_⟩
  · simp
  · simp only [hk1, List.length_singleton]; omega
  · simp only [hk1, List.length_singleton]; omega
  · simp only [hk1, hk2]; omega
  · simp only [hk1]; omega
  · simp only [hk2]; omega
  · intro i hi
    simp only at hi ⊢
    rw [p5 i (by omega)]; exact q6 i (by omega)

theorem opn_first {mem0 : Nat → BitVec 16} {P : W → Prop} {start : W} {f : RFix}
    (hr : relType f.type ≠ 0)
    (hne : pageOf start f.locofs ≠ -1) (hP : P (pageOf start f.locofs)) :
    Opn mem0 P (writeFix start ⟨put32 mem0 0 (-1), 0, 4⟩ f) (countFix start ⟨-1, 0, 0⟩ f) 1
      [] [word f] := by
  have hc := count_take (start := start) (c := ⟨-1, 0, 0⟩) hr
  rw [if_pos hne] at hc
  have hw : writeFix start ⟨put32 mem0 0 (-1), 0, 4⟩ f =
      let m := put32 (put32 (put32 mem0 0 (-1)) 0 (pageOf start f.locofs)) (0 + 2) 8
      let m1 := put16 m (0 + 4) (word f)
      ⟨put32 m1 (0 + 2) (get32 m1 (0 + 2) + 2), 0, 4 + 1⟩ := by
    unfold writeFix
    simp only [if_neg hr, get32_put32]
    rw [if_pos hne, if_neg (by simp)]
    rfl
  obtain ⟨p1, p2, p3, p4, p5⟩ := new_block (mem := put32 mem0 0 (-1)) (b := 0) (pageOf start f.locofs) (word f)
  rw [hc, hw]
  refine ⟨rfl, .done, p1, hne, hP, p2, p3, rfl, ?_, ?_, ?_, ?_, ?_, ?_⟩
  · have : ((if (0 : W) &&& 1 ≠ 0 then (0 : W) + 1 else 0) + 1).toNat = 1 := by decide
    show (((if (0 : W) &&& 1 ≠ 0 then (0 : W) + 1 else 0) + 1).toNat + 1) % 2 = 0
    rw [this]
  · show 1 ≤ ((if (0 : W) &&& 1 ≠ 0 then (0 : W) + 1 else 0) + 1).toNat
    decide
  · show 4 + 1 = 4 * ((0 : W) + 1).toNat + ((if (0 : W) &&& 1 ≠ 0 then (0 : W) + 1 else 0) + 1).toNat
    decide
  · show ((if (0 : W) &&& 1 ≠ 0 then (0 : W) + 1 else 0) + 1).toNat ≤ 2 * 1
    decide
  · show ((0 : W) + 1).toNat ≤ 1
    decide
  · intro i hi
    simp only at hi ⊢
    exact (p5 i (by omega)).trans (put32_ne _ _ (by omega) (by omega))

/-- The relocations listed so far, with the open block. -/
def listed (done : List Reloc) (page : W) (es : List (BitVec 16)) : List Reloc :=
  done ++ es.filterMap (entry page)

/-- State of both passes after some fixups: nothing relocated yet, or an open block. -/
def Inv (mem0 : Nat → BitVec 16) (P : W → Prop) (st : WSt) (c : Cnt) (l : List Reloc) : Prop :=
  (l = [] ∧ st = ⟨put32 mem0 0 (-1), 0, 4⟩ ∧ c = ⟨-1, 0, 0⟩) ∨
  ∃ done es, Opn mem0 P st c l.length done es ∧ l = done ++ es.filterMap (entry c.page)

theorem inv_step {mem0 P st c l} {start : W} {f : RFix} (h : Inv mem0 P st c l) (hn : l.length < 2 ^ 27)
    (hok : relType f.type ≠ 0 → pageOf start f.locofs ≠ -1 ∧ P (pageOf start f.locofs)) :
    Inv mem0 P (writeFix start st f) (countFix start c f)
      (l ++ (if relType f.type = 0 then none else some (start + f.locofs, relType f.type) : Option Reloc).toList) := by
  by_cases hr : relType f.type = 0
  · rw [if_pos hr, count_skip hr]
    have : writeFix start st f = st := by unfold writeFix; simp only [if_pos hr]
    rw [this]; simpa using h
  · rw [if_neg hr]
    obtain ⟨h1, h2⟩ := hok hr
    have hwe := word_entry (start := start) hr
    right
    rcases h with ⟨rfl, rfl, rfl⟩ | ⟨done, es, ho, rfl⟩
    · have ho := opn_first (mem0 := mem0) (P := P) hr h1 h2
      refine ⟨_, _, ho, ?_⟩
      have : (countFix start ⟨-1, 0, 0⟩ f).page = pageOf start f.locofs := by
        rw [count_take hr, if_pos h1]
      rw [this]; simp [hwe]
    · by_cases hp : pageOf start f.locofs = c.page
      · have ho' := opn_same ho hn hr hp
        have hpg : (countFix start c f).page = c.page := by
          rw [count_take hr, if_neg (by simpa using hp)]
        refine ⟨done, es ++ [word f], ?_, ?_⟩
        · have : (done ++ es.filterMap (entry c.page) ++
              (some (start + f.locofs, relType f.type) : Option Reloc).toList).length
              = (done ++ es.filterMap (entry c.page)).length + 1 := by simp; omega
          rw [this]; exact ho'
        · rw [hpg, List.filterMap_append, ← hp]
          simp [hwe]
      · have ho' := opn_new ho hn hr hp h1 h2
        have hpg : (countFix start c f).page = pageOf start f.locofs := by
          rw [count_take hr, if_pos hp]
        refine ⟨done ++ es.filterMap (entry c.page), [word f], ?_, ?_⟩
        · have : (done ++ es.filterMap (entry c.page) ++
              (some (start + f.locofs, relType f.type) : Option Reloc).toList).length
              = (done ++ es.filterMap (entry c.page)).length + 1 := by simp; omega
          rw [this]; exact ho'
        · rw [hpg]; simp [hwe]

theorem inv_fixups {mem0 P} {start : W} : ∀ (fs : List RFix) (st : WSt) (c : Cnt) (l : List Reloc),
    Inv mem0 P st c l →
    l.length + (fs.filterMap (fun f => if relType f.type = 0 then none
      else (some (start + f.locofs, relType f.type) : Option Reloc))).length ≤ 2 ^ 27 →
    (∀ f ∈ fs, relType f.type ≠ 0 → pageOf start f.locofs ≠ -1 ∧ P (pageOf start f.locofs)) →
    Inv mem0 P (fs.foldl (writeFix start) st) (fs.foldl (countFix start) c)
      (l ++ fs.filterMap (fun f => if relType f.type = 0 then none
        else some (start + f.locofs, relType f.type)))
  | [], st, c, l, h, _, _ => by simpa using h
  | f :: fs, st, c, l, h, hn, hok => by
    have hok' := hok f List.mem_cons_self
    simp only [List.foldl_cons]
    by_cases hr : relType f.type = 0
    · have hs := count_skip (start := start) (c := c) hr
      have hw : writeFix start st f = st := by unfold writeFix; simp only [if_pos hr]
      rw [hs, hw, List.filterMap_cons_none (by exact if_pos hr)]
      rw [List.filterMap_cons_none (by exact if_pos hr)] at hn
      exact inv_fixups fs st c l h hn (fun g hg => hok g (List.mem_cons_of_mem _ hg))
    · rw [List.filterMap_cons_some (b := (start + f.locofs, relType f.type)) (by exact if_neg hr)] at hn ⊢
      simp only [List.length_cons] at hn
      have h' := inv_step h (by omega) hok'
      rw [if_neg hr] at h'
      have := inv_fixups fs _ _ _ h' (by rw [List.length_append]; simp only [Option.toList_some, List.length_singleton]; omega) (fun g hg => hok g (List.mem_cons_of_mem _ hg))
      simpa using this

theorem inv_segs {mem0 P} : ∀ (segs : List RSeg) (st : WSt) (c : Cnt) (l : List Reloc),
    Inv mem0 P st c l → l.length + (allNeeded segs).length ≤ 2 ^ 27 → PagesOk P segs →
    Inv mem0 P
      (segs.foldl (fun c s => if s.hdr then c else s.fixups.foldl (writeFix s.startOffset) c) st)
      (segs.foldl (fun c s => if s.hdr then c else s.fixups.foldl (countFix s.startOffset) c) c)
      (l ++ allNeeded segs)
  | [], st, c, l, h, _, _ => by simpa [allNeeded] using h
  | s :: ss, st, c, l, h, hn, hok => by
    have hok' : PagesOk P ss := fun x hx => hok x (List.mem_cons_of_mem _ hx)
    have e : allNeeded (s :: ss) = needed s ++ allNeeded ss := rfl
    rw [e] at hn ⊢
    rw [List.length_append] at hn
    simp only [List.foldl_cons]
    cases hh : s.hdr with
    | true =>
      have : needed s = [] := by simp [needed, hh]
      rw [this, List.nil_append]
      exact inv_segs ss st c l h (by omega) hok'
    | false =>
      have hne : needed s = s.fixups.filterMap (fun f => if relType f.type = 0 then none
          else some (s.startOffset + f.locofs, relType f.type)) := by
        simp only [needed, hh, kind_rel]; rfl
      have h' := inv_fixups (start := s.startOffset) s.fixups st c l h (by rw [← hne]; omega)
        (fun f hf => hok s List.mem_cons_self hh f hf)
      rw [← hne] at h'
      rw [← List.append_assoc]
      exact inv_segs ss _ _ _ h' (by rw [List.length_append]; omega) hok'

end Verif.Bin
