import Verif.Struct.Lemmas
namespace Verif.Struct
open Spec

/-- What is shown of every closed (or nested) type. -/
def PP (na : Bool) (h : Hdr) (es : List Entry) : Prop :=
  LayoutOf h es ∧ (na = true → TightOf h es)

/-- Invariant of an open structure. -/
structure Inv (na : Bool) (o : Open) : Prop where
  org : o.org = false
  al : GoodAlign o.align
  lt : o.total.toNat < 2 ^ 31
  nest : Nested (PP na) o.fields
  aligned : ∀ e ∈ entries o.fields, Pow2 e.size → min e.size o.align.toNat ∣ e.off
  largest : (∀ e ∈ entries o.fields, e.size ≤ o.maxMbr.toNat) ∧
    (o.maxMbr.toNat = 0 ∨ ∃ e ∈ entries o.fields, e.size = o.maxMbr.toNat)
  onUnion : o.isUnion = true → o.offset = 0 ∧
    (∀ e ∈ entries o.fields, e.off = 0 ∧ e.bytes ≤ o.total.toNat) ∧
    (o.total.toNat = 0 ∨ ∃ e ∈ entries o.fields, e.bytes = o.total.toNat)
  onStruct : o.isUnion = false → o.total = o.offset ∧
    ((entries o.fields).Pairwise fun x y => x.off + x.bytes ≤ y.off) ∧
    (∀ e ∈ entries o.fields, e.off + e.bytes ≤ o.offset.toNat) ∧
    (na = true → Gaps o.align.toNat 0 (entries o.fields) ∧
      endOf 0 (entries o.fields) = o.offset.toNat)
  names : ((visible o.fields).map Prod.fst).Nodup

/-- Invariant of a closed type. -/
structure CInv (na : Bool) (c : Closed) : Prop where
  layout : PP na c.hd (entries c.fields)
  nest : Nested (PP na) c.fields
  names : ((visible c.fields).map Prod.fst).Nodup

theorem inv_new {na u n a} (ha : GoodAlign a) : Inv na ⟨u, n, a, 0, 0, 0, false, .nil⟩ where
  org := rfl
  al := ha
  lt := by simp
  nest := trivial
  aligned := by simp [entries]
  largest := by simp [entries]
  onUnion := by simp [entries]
  onStruct := by simp [entries, Gaps, endOf]
  names := by simp [visible]

theorem alignUp_zero (s : W) : alignUp 0 s = 0 := by
  unfold alignUp; rw [neg_eq_not]
  ext i hi; simp

theorem lt_iff {a b : W} : a < b ↔ a.toNat < b.toNat := BitVec.lt_def

theorem fieldOffset_spec {o : Open} {size : W} (ha : GoodAlign o.align)
    (hx : o.offset.toNat + 32 ≤ 2 ^ 32) :
    o.offset.toNat ≤ (fieldOffset o size).toNat ∧
    (fieldOffset o size).toNat < o.offset.toNat + max 1 (min size.toNat o.align.toNat) ∧
    (Pow2 size.toNat → min size.toNat o.align.toNat ∣ (fieldOffset o size).toNat) ∧
    (o.offset = 0 → fieldOffset o size = 0) := by
  have hpos := goodAlign_pos ha
  have hp2 := ha.1
  have h32 := ha.2
  have h11 : (1 : W).toNat = 1 := rfl
  unfold fieldOffset
  split
  · rename_i h1
    split
    · rename_i h2
      rw [lt_iff] at h2
      obtain ⟨a, b, c⟩ := alignUp_spec (x := o.offset) (s := o.align) hpos (by omega)
      have hm : min size.toNat o.align.toNat = o.align.toNat := by omega
      rw [hm]
      refine ⟨a, by omega, fun _ => c hp2, fun h => ?_⟩
      rw [h]; exact alignUp_zero _
    · rename_i h2
      rw [lt_iff] at h2
      split
      · rename_i h3
        have h4 : 0 < size.toNat := by
          rcases Nat.eq_zero_or_pos size.toNat with h | h
          · exact absurd (BitVec.eq_of_toNat_eq (by simpa using h)) h3
          · exact h
        obtain ⟨a, b, c⟩ := alignUp_spec (x := o.offset) (s := size) h4 (by omega)
        have hm : min size.toNat o.align.toNat = size.toNat := by omega
        rw [hm]
        refine ⟨a, by omega, c, fun h => ?_⟩
        rw [h]; exact alignUp_zero _
      · rename_i h3
        have h3 : size = 0 := Decidable.not_not.mp h3
        subst h3
        refine ⟨by omega, by omega, ?_, id⟩
        rintro ⟨k, hk⟩
        have := Nat.two_pow_pos k
        simp at hk
        omega
  · rename_i h1
    rw [lt_iff, h11] at h1
    have h1' : o.align.toNat = 1 := by omega
    refine ⟨by omega, by omega, ?_, id⟩
    rintro ⟨k, hk⟩
    have := Nat.two_pow_pos k
    have hm : min size.toNat o.align.toNat = 1 := by omega
    rw [hm]; exact Nat.one_dvd _

theorem max_eq (a b : W) : (if a < b then b else a).toNat = max a.toNat b.toNat := by
  split
  · rename_i h; rw [lt_iff] at h; omega
  · rename_i h; rw [lt_iff] at h; omega

/-- Adding a member keeps the invariant. -/
theorem inv_add {na : Bool} {o : Open} {size tot : W} {f : W → Flds} (hi : Inv na o)
    (hs : max o.offset.toNat o.total.toNat + tot.toNat + 32 < 2 ^ 31)
    (he : ∀ off, entries (f off) = [⟨size.toNat, off.toNat, tot.toNat⟩])
    (hn : ∀ off, Nested (PP na) (f off))
    (hv : ∀ off, ((visible (f off)).map Prod.fst).Nodup ∧
      ∀ n ∈ (visible (f off)).map Prod.fst, n ∉ (visible o.fields).map Prod.fst) :
    Inv na (updateSize (place o size f) tot) := by
  obtain ⟨f1, f2, f3, f4⟩ := fieldOffset_spec (o := o) (size := size) hi.al (by omega)
  have h32 := hi.al.2
  have hent : ∀ off, entries (o.fields.append (f off)) =
      entries o.fields ++ [⟨size.toNat, off.toNat, tot.toNat⟩] := fun off => by
    rw [entries_append, he]
  have hmax : ((∀ e ∈ entries o.fields ++ [⟨size.toNat, (fieldOffset o size).toNat, tot.toNat⟩],
      e.size ≤ (if o.maxMbr < size then size else o.maxMbr).toNat) ∧
    ((if o.maxMbr < size then size else o.maxMbr).toNat = 0 ∨
      ∃ e ∈ entries o.fields ++ [⟨size.toNat, (fieldOffset o size).toNat, tot.toNat⟩],
        e.size = (if o.maxMbr < size then size else o.maxMbr).toNat)) := by
    rw [max_eq]
    constructor
    · intro e hm
      simp only [List.mem_append, List.mem_singleton] at hm
      rcases hm with hm | rfl
      · have := hi.largest.1 e hm; omega
      · show size.toNat ≤ _; omega
    · by_cases hlt : o.maxMbr.toNat < size.toNat
      · right
        refine ⟨_, List.mem_append_right _ (List.mem_singleton_self _), ?_⟩
        show size.toNat = _; omega
      · have hm : max o.maxMbr.toNat size.toNat = o.maxMbr.toNat := by omega
        rw [hm]
        rcases hi.largest.2 with h | ⟨e, h1, h2⟩
        · exact Or.inl h
        · exact Or.inr ⟨e, List.mem_append_left _ h1, h2⟩
  have hal : ∀ e ∈ entries o.fields ++ [⟨size.toNat, (fieldOffset o size).toNat, tot.toNat⟩],
      Pow2 e.size → min e.size o.align.toNat ∣ e.off := by
    intro e hm hp
    simp only [List.mem_append, List.mem_singleton] at hm
    rcases hm with hm | rfl
    · exact hi.aligned e hm hp
    · exact f3 hp
  have hnames : ∀ off, ((visible (o.fields.append (f off))).map Prod.fst).Nodup := by
    intro off
    rw [visible_append, List.map_append, List.nodup_append]
    refine ⟨hi.names, (hv off).1, ?_⟩
    intro a ha b hb hab
    subst hab
    exact (hv off).2 _ hb ha
  have hnest : ∀ off, Nested (PP na) (o.fields.append (f off)) := fun off =>
    (nested_append _ _ _).2 ⟨hi.nest, hn off⟩
  cases hu : o.isUnion with
  | true =>
    obtain ⟨u1, u2, u3⟩ := hi.onUnion hu
    have hf0 := f4 u1
    have hpl : updateSize (place o size f) tot = ({ o with
        total := if o.total < tot then tot else o.total
        maxMbr := if o.maxMbr < size then size else o.maxMbr
        fields := o.fields.append (f (fieldOffset o size)) } : Open) := by
      simp [updateSize, place, hu]
    rw [hpl]
    refine ⟨hi.org, hi.al, ?_, hnest _, ?_, ?_, ?_, ?_, hnames _⟩
    · show (if o.total < tot then tot else o.total).toNat < _
      rw [max_eq]; clear u3 hmax; omega
    · show ∀ e ∈ entries (o.fields.append _), _
      rw [hent]; exact hal
    · show (∀ e ∈ entries (o.fields.append _), _) ∧ (_ ∨ ∃ e ∈ entries (o.fields.append _), _)
      rw [hent]; exact hmax
    · intro _
      show o.offset = 0 ∧ (∀ e ∈ entries (o.fields.append _), e.off = 0 ∧
        e.bytes ≤ (if o.total < tot then tot else o.total).toNat) ∧
        ((if o.total < tot then tot else o.total).toNat = 0 ∨ ∃ e ∈ entries (o.fields.append _),
          e.bytes = (if o.total < tot then tot else o.total).toNat)
      rw [hent, max_eq, hf0]
      refine ⟨u1, ?_, ?_⟩
      · intro e hm
        simp only [List.mem_append, List.mem_singleton] at hm
        rcases hm with hm | rfl
        · have := u2 e hm; exact ⟨this.1, by omega⟩
        · exact ⟨rfl, by show tot.toNat ≤ _; omega⟩
      · by_cases hlt : o.total.toNat < tot.toNat
        · right
          refine ⟨_, List.mem_append_right _ (List.mem_singleton_self _), ?_⟩
          show tot.toNat = _; omega
        · have hm : max o.total.toNat tot.toNat = o.total.toNat := by omega
          rw [hm]
          rcases u3 with h | ⟨e, h1, h2⟩
          · exact Or.inl h
          · exact Or.inr ⟨e, List.mem_append_left _ h1, h2⟩
    · intro h
      change o.isUnion = false at h
      rw [hu] at h; exact absurd h (by simp)
  | false =>
    obtain ⟨s1, s2, s3, s4⟩ := hi.onStruct hu
    rw [s1] at hs
    have hlt := hi.lt
    rw [s1] at hlt
    have hoff : (if 1 < o.align ∧ o.isUnion = false then fieldOffset o size else o.offset)
        = fieldOffset o size := by
      by_cases h1 : 1 < o.align
      · rw [if_pos ⟨h1, hu⟩]
      · rw [if_neg (fun h => h1 h.1)]
        unfold fieldOffset; rw [if_neg h1]
    have htot : (if 1 < o.align ∧ o.isUnion = false ∧ o.total < fieldOffset o size
        then fieldOffset o size else o.total) = fieldOffset o size := by
      by_cases h1 : 1 < o.align
      · simp only [h1, hu, true_and]
        split
        · rfl
        · rename_i h2
          rw [lt_iff, s1] at h2
          rw [s1]
          exact BitVec.eq_of_toNat_eq (by omega)
      · rw [if_neg (fun h => h1 h.1), s1]
        unfold fieldOffset; rw [if_neg h1]
    have hsum : (fieldOffset o size + tot).toNat = (fieldOffset o size).toNat + tot.toNat := by
      rw [BitVec.toNat_add]; omega
    have hpl : updateSize (place o size f) tot = ({ o with
        offset := fieldOffset o size + tot
        total := fieldOffset o size + tot
        maxMbr := if o.maxMbr < size then size else o.maxMbr
        fields := o.fields.append (f (fieldOffset o size)) } : Open) := by
      have hmono : (if (fieldOffset o size).slt (fieldOffset o size + tot) = true
          then fieldOffset o size + tot else fieldOffset o size) = fieldOffset o size + tot := by
        split
        · rfl
        · rename_i h
          rw [Bool.not_eq_true, BitVec.slt_eq_decide, decide_eq_false_iff_not,
            BitVec.toInt_eq_toNat_of_lt (by omega), BitVec.toInt_eq_toNat_of_lt (by omega)] at h
          exact BitVec.eq_of_toNat_eq (by omega)
      simp only [updateSize, place, hoff, htot, hmono]
      simp [hu]
    rw [hpl]
    refine ⟨hi.org, hi.al, ?_, hnest _, ?_, ?_, ?_, ?_, hnames _⟩
    · show (fieldOffset o size + tot).toNat < _
      omega
    · show ∀ e ∈ entries (o.fields.append _), _
      rw [hent]; exact hal
    · show (∀ e ∈ entries (o.fields.append _), _) ∧ (_ ∨ ∃ e ∈ entries (o.fields.append _), _)
      rw [hent]; exact hmax
    · intro h
      change o.isUnion = true at h
      rw [hu] at h; exact absurd h (by simp)
    · intro _
      refine ⟨rfl, ?_, ?_, ?_⟩
      · show (entries (o.fields.append _)).Pairwise _
        rw [hent, List.pairwise_append]
        refine ⟨s2, List.pairwise_singleton _ _, ?_⟩
        intro a ha b hb
        rw [List.mem_singleton] at hb; subst hb
        have := s3 a ha
        show _ ≤ (fieldOffset o size).toNat
        omega
      · show ∀ e ∈ entries (o.fields.append _), _ ≤ (fieldOffset o size + tot).toNat
        rw [hent, hsum]
        intro e hm
        simp only [List.mem_append, List.mem_singleton] at hm
        rcases hm with hm | rfl
        · have := s3 e hm; omega
        · exact Nat.le_refl _
      · intro hna
        obtain ⟨g1, g2⟩ := s4 hna
        show Gaps o.align.toNat 0 (entries (o.fields.append _)) ∧
          endOf 0 (entries (o.fields.append _)) = (fieldOffset o size + tot).toNat
        rw [hent, gaps_append, endOf_append, g2, hsum]
        exact ⟨⟨g1, f2⟩, rfl⟩

/-- Closing a structure gives a sound type. -/
theorem inv_close {na : Bool} {o : Open} (hi : Inv na o) (hs : o.total.toNat + 32 < 2 ^ 31) :
    PP na (closeHdr o) (entries o.fields) ∧ (closeHdr o).total.toNat < o.total.toNat + 32 := by
  have hpos := goodAlign_pos hi.al
  have hp2 := hi.al.1
  have h32 := hi.al.2
  have h11 : (1 : W).toNat = 1 := rfl
  have h10 : (0 : W).toNat = 0 := rfl
  have key : o.total.toNat ≤ (closeHdr o).total.toNat ∧
      (closeHdr o).total.toNat < o.total.toNat + max 1 (min o.maxMbr.toNat o.align.toNat) ∧
      (Pow2 o.maxMbr.toNat → min o.maxMbr.toNat o.align.toNat ∣ (closeHdr o).total.toNat) := by
    simp only [closeHdr, hi.org]
    simp only [Bool.false_eq_true, if_false]
    split
    · rename_i h1
      rw [lt_iff, h11] at h1
      by_cases hm0 : o.maxMbr = 0
      · rw [if_pos hm0]
        have hs1 : (if o.align < (1 : W) then o.align else 1) = (1 : W) := by
          rw [if_neg]; rw [lt_iff]; omega
        rw [hs1]
        obtain ⟨a, b, c⟩ := alignUp_spec (x := o.total) (s := 1) (by decide) (by omega)
        rw [h11] at b
        refine ⟨a, by omega, ?_⟩
        rintro ⟨k, hk⟩
        have := Nat.two_pow_pos k
        rw [hm0, h10] at hk; omega
      · rw [if_neg hm0]
        have hmpos : 0 < o.maxMbr.toNat := by
          rcases Nat.eq_zero_or_pos o.maxMbr.toNat with h | h
          · exact absurd (BitVec.eq_of_toNat_eq h) hm0
          · exact h
        by_cases hlt : o.align < o.maxMbr
        · rw [if_pos hlt]
          rw [lt_iff] at hlt
          obtain ⟨a, b, c⟩ := alignUp_spec (x := o.total) (s := o.align) hpos (by omega)
          have hm : min o.maxMbr.toNat o.align.toNat = o.align.toNat := by omega
          rw [hm]
          exact ⟨a, by omega, fun _ => c hp2⟩
        · rw [if_neg hlt]
          rw [lt_iff] at hlt
          obtain ⟨a, b, c⟩ := alignUp_spec (x := o.total) (s := o.maxMbr) hmpos (by omega)
          have hm : min o.maxMbr.toNat o.align.toNat = o.maxMbr.toNat := by omega
          rw [hm]
          exact ⟨a, by omega, c⟩
    · rename_i h1
      rw [lt_iff, h11] at h1
      refine ⟨by omega, by omega, ?_⟩
      rintro ⟨k, hk⟩
      have := Nat.two_pow_pos k
      have hm : min o.maxMbr.toNat o.align.toNat = 1 := by omega
      rw [hm]; exact Nat.one_dvd _
  obtain ⟨k1, k2, k3⟩ := key
  have e1 : (closeHdr o).isUnion = o.isUnion := rfl
  have e2 : (closeHdr o).align = o.align := rfl
  have e3 : (closeHdr o).maxMbr = o.maxMbr := rfl
  refine ⟨⟨⟨?_, ?_, ?_, hi.aligned, hi.largest, k3, ?_⟩, ?_⟩, by omega⟩
  · intro e he
    cases hu : o.isUnion with
    | true => have := (hi.onUnion hu).2.1 e he; omega
    | false =>
      obtain ⟨s1, _, s3, _⟩ := hi.onStruct hu
      have := s3 e he
      rw [s1] at k1; omega
  · intro hu; exact (hi.onStruct hu).2.1
  · intro hu e he; exact ((hi.onUnion hu).2.1 e he).1
  · intro hu
    rw [e2, e3]
    obtain ⟨_, u2, u3⟩ := hi.onUnion hu
    rcases u3 with h | ⟨e, h1, h2⟩
    · by_cases h0 : (closeHdr o).total.toNat = 0
      · exact Or.inl h0
      · right
        by_cases hmz : o.maxMbr.toNat = 0
        · omega
        · rcases hi.largest.2 with h' | ⟨e, he, hs'⟩
          · exact absurd h' hmz
          · exact ⟨e, he, by omega⟩
    · exact Or.inr ⟨e, h1, by omega⟩
  · intro hna hu
    rw [e2, e3]
    obtain ⟨s1, _, _, s4⟩ := hi.onStruct hu
    obtain ⟨g1, g2⟩ := s4 hna
    rw [s1] at k2
    exact ⟨g1, by omega⟩

theorem inv_align {o : Open} {k : Fin 31} (hi : Inv false o)
    (hs : max o.offset.toNat o.total.toNat + 2 ^ k.val + 32 < 2 ^ 31) :
    Inv false (alignIn o ((1 : W) <<< k.val)) := by
  cases hu : o.isUnion with
  | true => simp only [alignIn, hu]; simpa using hi
  | false =>
    obtain ⟨s1, s2, s3, s4⟩ := hi.onStruct hu
    have hk := k.isLt
    have hpk : 2 ^ k.val < 2 ^ 32 := Nat.pow_lt_pow_right (by omega) (by omega)
    have hv : ((1 : W) <<< k.val).toNat = 2 ^ k.val := by
      have h11 : (1 : W).toNat = 1 := rfl
      rw [BitVec.toNat_shiftLeft, h11, Nat.one_shiftLeft, Nat.mod_eq_of_lt hpk]
    have hp := Nat.two_pow_pos k.val
    obtain ⟨a, b, c⟩ := alignUp_spec (x := o.offset) (s := (1 : W) <<< k.val)
      (by omega) (by omega)
    have ht : (if o.total < alignUp o.offset ((1 : W) <<< k.val)
        then alignUp o.offset ((1 : W) <<< k.val) else o.total)
        = alignUp o.offset ((1 : W) <<< k.val) := by
      split
      · rfl
      · rename_i h
        rw [lt_iff, s1] at h
        rw [s1]; exact BitVec.eq_of_toNat_eq (by omega)
    have hpl : alignIn o ((1 : W) <<< k.val) = ({ o with
        offset := alignUp o.offset ((1 : W) <<< k.val)
        total := alignUp o.offset ((1 : W) <<< k.val) } : Open) := by
      simp only [alignIn, hu, ht]; simp [hu]
    rw [hpl]
    refine ⟨hi.org, hi.al, ?_, hi.nest, hi.aligned, hi.largest, ?_, ?_, hi.names⟩
    · show (alignUp _ _).toNat < _; omega
    · intro h
      change o.isUnion = true at h
      rw [hu] at h; exact absurd h (by simp)
    · intro _
      refine ⟨rfl, s2, ?_, fun h => absurd h (by simp)⟩
      intro e he
      have := s3 e he
      show _ ≤ (alignUp _ _).toNat
      omega

end Verif.Struct
