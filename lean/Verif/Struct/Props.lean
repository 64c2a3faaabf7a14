import Verif.Struct.Invariant
namespace Verif.Struct
open Spec

/-- All open structures and all defined types are sound. -/
def SInv (na : Bool) (st : St) : Prop :=
  (∀ o ∈ st.opens, Inv na o) ∧ ∀ c ∈ st.types, CInv na c

theorem nameOk_disjoint {o : Open} {n : Name} {sub : Flds} {off tot : W} {h : Hdr}
    (hk : nameOk o n sub = true) (hs : ((visible sub).map Prod.fst).Nodup) :
    ((visible (.node n off tot h sub .nil)).map Prod.fst).Nodup ∧
    ∀ m ∈ (visible (.node n off tot h sub .nil)).map Prod.fst, m ∉ (visible o.fields).map Prod.fst := by
  unfold nameOk at hk
  by_cases h0 : n = []
  · rw [if_pos h0] at hk
    have hm : (visible (.node n off tot h sub .nil)).map Prod.fst = (visible sub).map Prod.fst := by
      simp only [visible, if_pos h0, List.append_nil, List.map_map]
      rfl
    rw [hm]
    exact ⟨hs, checkAnon_disjoint _ _ hk⟩
  · rw [if_neg h0] at hk
    have hm : (visible (.node n off tot h sub .nil)).map Prod.fst = [n] := by
      simp [visible, if_neg h0]
    rw [hm]
    refine ⟨by simp, ?_⟩
    intro m hmem
    rw [List.mem_singleton] at hmem; subst hmem
    exact search_none h0 _ 0 (by simpa using hk)

theorem nameOk_leaf {o : Open} {n : Name} {size off tot : W}
    (hk : nameOk o n .nil = true) :
    ((visible (.leaf n size off tot .nil)).map Prod.fst).Nodup ∧
    ∀ m ∈ (visible (.leaf n size off tot .nil)).map Prod.fst, m ∉ (visible o.fields).map Prod.fst := by
  unfold nameOk at hk
  by_cases h0 : n = []
  · simp [visible, h0]
  · rw [if_neg h0] at hk
    have hm : (visible (.leaf n size off tot .nil)).map Prod.fst = [n] := by
      simp [visible, if_neg h0]
    rw [hm]
    refine ⟨by simp, ?_⟩
    intro m hmem
    rw [List.mem_singleton] at hmem; subst hmem
    exact search_none h0 _ 0 (by simpa using hk)

theorem step_inv {na : Bool} {st st' : St} {op : Op} (hi : SInv na st)
    (hs : step st op = some st') (horg : ∀ x, op ≠ .org x)
    (hal : na = true → ∀ k, op ≠ .align k)
    (hsm : position st op + declared st op + 64 < 2 ^ 31) : SInv na st' := by
  obtain ⟨hio, hit⟩ := hi
  cases op with
  | «begin» u n arg fa =>
    simp only [step, beginStruct] at hs
    split at hs
    · simp only [Option.map_eq_some_iff] at hs
      obtain ⟨a, ha, rfl⟩ := hs
      refine ⟨?_, hit⟩
      intro o ho
      simp only [List.mem_singleton] at ho
      subst ho
      exact inv_new (topAlign_good ha)
    · rename_i o os heq
      split at hs
      · exact absurd hs (by simp)
      · split at hs
        · exact absurd hs (by simp)
        · injection hs with hs; subst hs
          have hoo := hio o (by rw [heq]; exact List.mem_cons_self)
          refine ⟨?_, hit⟩
          intro x hx
          rcases List.mem_cons.1 hx with rfl | hx
          · exact inv_new hoo.al
          · exact hio x (by rw [heq]; exact hx)
  | field n size tot =>
    simp only [step] at hs
    split at hs
    · exact absurd hs (by simp)
    · rename_i o os heq
      split at hs
      · rename_i hk
        injection hs with hs; subst hs
        have hoo := hio o (by rw [heq]; exact List.mem_cons_self)
        simp only [position, declared, heq, List.head?_cons, Option.elim_some] at hsm
        refine ⟨?_, hit⟩
        intro x hx
        rcases List.mem_cons.1 hx with rfl | hx
        · exact inv_add hoo (by omega) (fun _ => rfl) (fun _ => trivial)
            (fun _ => nameOk_leaf hk)
        · exact hio x (by rw [heq]; exact List.mem_cons_of_mem _ hx)
      · exact absurd hs (by simp)
  | typed n k count =>
    simp only [step] at hs
    split at hs
    · rename_i o os c heq hc
      split at hs
      · rename_i hk
        injection hs with hs; subst hs
        have hoo := hio o (by rw [heq]; exact List.mem_cons_self)
        have hcc := hit c (List.mem_of_getElem? hc)
        simp only [position, declared, heq, hc, List.head?_cons, Option.elim_some] at hsm
        have hmul : (count * c.hd.total).toNat = count.toNat * c.hd.total.toNat := by
          rw [BitVec.toNat_mul, Nat.mod_eq_of_lt (by omega)]
        refine ⟨?_, hit⟩
        intro x hx
        rcases List.mem_cons.1 hx with rfl | hx
        · exact inv_add hoo (by rw [hmul]; omega) (fun _ => rfl)
            (fun _ => ⟨⟨hcc.layout, hcc.nest⟩, trivial⟩)
            (fun _ => nameOk_disjoint hk hcc.names)
        · exact hio x (by rw [heq]; exact List.mem_cons_of_mem _ hx)
      · exact absurd hs (by simp)
    · exact absurd hs (by simp)
  | align k =>
    cases na with
    | true => exact absurd rfl (hal rfl k)
    | false =>
      simp only [step] at hs
      split at hs
      · exact absurd hs (by simp)
      · rename_i o os heq
        injection hs with hs; subst hs
        have hoo := hio o (by rw [heq]; exact List.mem_cons_self)
        simp only [position, declared, heq, List.head?_cons, Option.elim_some] at hsm
        refine ⟨?_, hit⟩
        intro x hx
        rcases List.mem_cons.1 hx with rfl | hx
        · exact inv_align hoo (by omega)
        · exact hio x (by rw [heq]; exact List.mem_cons_of_mem _ hx)
  | org x => exact absurd rfl (horg x)
  | ends =>
    simp only [step] at hs
    split at hs
    · exact absurd hs (by simp)
    · rename_i o heq
      injection hs with hs; subst hs
      have hoo := hio o (by rw [heq]; exact List.mem_cons_self)
      simp only [position, declared, heq, List.head?_cons, Option.elim_some] at hsm
      refine ⟨by simp, ?_⟩
      intro c hc
      rcases List.mem_append.1 hc with hc | hc
      · exact hit c hc
      · rw [List.mem_singleton] at hc; subst hc
        exact ⟨(inv_close hoo (by omega)).1, hoo.nest, hoo.names⟩
    · rename_i o p os heq
      split at hs
      · rename_i hk
        have hoo := hio o (by rw [heq]; exact List.mem_cons_self)
        have hpp := hio p (by rw [heq]; exact List.mem_cons_of_mem _ List.mem_cons_self)
        simp only [position, declared, heq, List.drop_one, List.tail_cons, List.head?_cons,
          Option.elim_some] at hsm
        obtain ⟨hc1, hc2⟩ := inv_close hoo (by omega)
        have hq : ∀ f : W → Flds, ({ place p (closeHdr o).maxMbr f with
            maxMbr := if (place p (closeHdr o).maxMbr f).maxMbr < (closeHdr o).maxMbr
              then (closeHdr o).maxMbr else (place p (closeHdr o).maxMbr f).maxMbr } : Open)
            = place p (closeHdr o).maxMbr f := by
          intro f
          rw [if_neg]
          rw [lt_iff]
          show ¬ (if p.maxMbr < (closeHdr o).maxMbr then (closeHdr o).maxMbr else p.maxMbr).toNat < _
          rw [max_eq]; omega
        rw [hq] at hs
        injection hs with hs; subst hs
        refine ⟨?_, hit⟩
        intro x hx
        rcases List.mem_cons.1 hx with rfl | hx
        · exact inv_add hpp (by omega) (fun _ => rfl)
            (fun _ => ⟨⟨hc1, hoo.nest⟩, trivial⟩)
            (fun _ => nameOk_disjoint hk hoo.names)
        · exact hio x (by
            rw [heq]; exact List.mem_cons_of_mem _ (List.mem_cons_of_mem _ hx))
      · exact absurd hs (by simp)

theorem run_inv {na : Bool} : ∀ (ops : List Op) (st st' : St), SInv na st →
    run st ops = some st' → NoOrg ops → (na = true → NoAlign ops) → Small st ops → SInv na st' := by
  intro ops
  induction ops with
  | nil => intro st st' hi hr _ _ _; simp only [run] at hr; injection hr with hr; subst hr; exact hi
  | cons op ops ih =>
    intro st st' hi hr hno hna hsm
    simp only [run, Option.bind_eq_some_iff] at hr
    obtain ⟨s1, h1, h2⟩ := hr
    have hstep := step_inv hi h1 (hno op List.mem_cons_self)
      (fun h => hna h op List.mem_cons_self) hsm.1
    exact ih s1 st' hstep h2 (fun o ho => hno o (List.mem_cons_of_mem _ ho))
      (fun h o ho => hna h o (List.mem_cons_of_mem _ ho)) (hsm.2 s1 h1)

theorem init_inv (na : Bool) : SInv na init := ⟨by simp [init], by simp [init]⟩

/-- **C21.**  For every sequence of STRUCT/UNION/field/typed field/ALIGN/ENDS lines
that is accepted (any nesting, any number of members, any alignment) and stays below
2 GB, every type so defined, and every type nested in it, has the required layout.
Missing (hence `_partial`): ORG inside a structure, and alignment of members whose
natural size is not a power of two — see the findings below. -/
theorem C21_layout_partial {ops : List Op} {st : St} {c : Closed}
    (hrun : run init ops = some st) (hno : NoOrg ops) (hsm : Small init ops)
    (hc : c ∈ st.types) :
    LayoutOf c.hd (entries c.fields) ∧ Nested LayoutOf c.fields := by
  have h := (run_inv (na := false) ops init st (init_inv _) hrun hno (by simp) hsm).2 c hc
  exact ⟨h.layout.1, nested_mono (fun _ _ x => x.1) _ h.nest⟩

/-- **C21**, no wasted bytes: without explicit ALIGN lines, members follow each other
with less than one alignment unit in between, and the size ends less than one unit
after the last member. -/
theorem C21_tight {ops : List Op} {st : St} {c : Closed}
    (hrun : run init ops = some st) (hno : NoOrg ops) (hna : NoAlign ops) (hsm : Small init ops)
    (hc : c ∈ st.types) :
    TightOf c.hd (entries c.fields) ∧ Nested TightOf c.fields := by
  have h := (run_inv (na := true) ops init st (init_inv _) hrun hno (fun _ => hna) hsm).2 c hc
  exact ⟨h.layout.2 rfl, nested_mono (fun _ _ x => x.2 rfl) _ h.nest⟩

/-- **C21**, names: the names visible in a structure — including those of anonymous
members — are distinct. -/
theorem C21_names_unique {ops : List Op} {st : St} {c : Closed}
    (hrun : run init ops = some st) (hno : NoOrg ops) (hsm : Small init ops)
    (hc : c ∈ st.types) : ((visible c.fields).map Prod.fst).Nodup :=
  ((run_inv (na := false) ops init st (init_inv _) hrun hno (by simp) hsm).2 c hc).names

/-! ### Exact offsets -/

/-- Least multiple of `m` that is at least `x`. -/
def IsLeastMultiple (m x y : Nat) : Prop := m ∣ y ∧ x ≤ y ∧ ∀ z, m ∣ z → x ≤ z → y ≤ z

theorem least_of {m x y : Nat} (hm : m ∣ y) (hx : x ≤ y) (hy : y < x + m) :
    IsLeastMultiple m x y := by
  refine ⟨hm, hx, ?_⟩
  rintro z ⟨q, rfl⟩ hz
  obtain ⟨p, rfl⟩ := hm
  by_cases hpq : p ≤ q
  · exact Nat.mul_le_mul_left m hpq
  · exfalso
    have : m * (q + 1) ≤ m * p := Nat.mul_le_mul_left m (by omega)
    rw [Nat.mul_succ] at this
    omega

theorem gaps_consec {a : Nat} : ∀ (l : List Entry) (p : Nat) (x y : Entry) (r : List Entry),
    Gaps a p (l ++ x :: y :: r) → y.off < x.off + x.bytes + max 1 (min y.size a) := by
  intro l
  induction l with
  | nil => intro p x y r h; exact h.2.1
  | cons e es ih => intro p x y r h; exact ih _ x y r h.2

theorem pow2_pos {n : Nat} (h : Pow2 n) : 0 < n := by
  obtain ⟨k, rfl⟩ := h; exact Nat.two_pow_pos k

/-- **C21**, exact offsets: in an accepted STRUCT without ALIGN/ORG, a member whose
natural size is a power of two starts at the least multiple of min(size, alignment)
not below the end of the member before it, and the first member is at 0. -/
theorem C21_offsets_exact {ops : List Op} {st : St} {c : Closed}
    (hrun : run init ops = some st) (hno : NoOrg ops) (hna : NoAlign ops) (hsm : Small init ops)
    (hc : c ∈ st.types) (hst : c.hd.isUnion = false) (ha : 0 < c.hd.align.toNat) :
    (∀ l x y r, entries c.fields = l ++ x :: y :: r → Pow2 y.size →
      IsLeastMultiple (min y.size c.hd.align.toNat) (x.off + x.bytes) y.off) ∧
    (∀ x r, entries c.fields = x :: r → Pow2 x.size → x.off = 0) := by
  obtain ⟨hl, _⟩ := C21_layout_partial hrun hno hsm hc
  obtain ⟨ht, _⟩ := C21_tight hrun hno hna hsm hc
  obtain ⟨hg, _⟩ := ht hst
  constructor
  · intro l x y r he hp
    have hy : y ∈ entries c.fields := by rw [he]; simp
    have h1 := hl.aligned y hy hp
    have h2 := hl.ordered hst
    rw [he] at hg h2
    have h3 := gaps_consec _ _ _ _ _ hg
    have h4 : x.off + x.bytes ≤ y.off := by
      have := (List.pairwise_append.1 h2).2.1
      exact (List.pairwise_cons.1 this).1 y List.mem_cons_self
    have := pow2_pos hp
    exact least_of h1 h4 (by omega)
  · intro x r he hp
    have h1 := hl.aligned x (by rw [he]; simp) hp
    rw [he] at hg
    have h2 := hg.1
    have := pow2_pos hp
    exact Nat.eq_zero_of_dvd_of_lt h1 (by omega)

/-! ### Lookup of member names -/

/-- Anonymous structured members occupy at least one instance of their type. -/
def Covers : Flds → Prop
  | .nil => True
  | .leaf _ _ _ _ r => Covers r
  | .node _ _ t h s r => (h.total.toNat ≤ t.toNat ∧ Covers s) ∧ Covers r

theorem covers_append (a b : Flds) : Covers (a.append b) ↔ Covers a ∧ Covers b := by
  induction a with
  | nil => simp [Flds.append, Covers]
  | leaf n s o t r ih => simp [Flds.append, Covers, ih]
  | node n o t h s r _ ih => simp [Flds.append, Covers, ih, and_assoc]

/-- No structured field with a zero repeat count (`0 DUP`). -/
def NoZeroDup (ops : List Op) : Prop := ∀ op ∈ ops, ∀ n k, op ≠ .typed n k 0

/-- All member lists of the state satisfy `Covers`. -/
def SCov (st : St) : Prop := (∀ o ∈ st.opens, Covers o.fields) ∧ ∀ c ∈ st.types, Covers c.fields

theorem upd_place_fields (o : Open) (s t : W) (f : W → Flds) :
    (updateSize (place o s f) t).fields = o.fields.append (f (fieldOffset o s)) := by
  have h : ∀ (q : Open), (updateSize q t).fields = q.fields := by
    intro q; unfold updateSize; split <;> rfl
  rw [h]; rfl

theorem step_cov {st st' : St} {op : Op} (hi : SCov st)
    (hs : step st op = some st') (hz : ∀ n k, op ≠ .typed n k 0)
    (hsm : position st op + declared st op + 64 < 2 ^ 31) : SCov st' := by
  obtain ⟨hio, hit⟩ := hi
  cases op with
  | «begin» u n arg fa =>
    simp only [step, beginStruct] at hs
    split at hs
    · simp only [Option.map_eq_some_iff] at hs
      obtain ⟨a, ha, rfl⟩ := hs
      refine ⟨?_, hit⟩
      intro o ho
      simp only [List.mem_singleton] at ho
      subst ho; trivial
    · rename_i o os heq
      split at hs
      · exact absurd hs (by simp)
      · split at hs
        · exact absurd hs (by simp)
        · injection hs with hs; subst hs
          refine ⟨?_, hit⟩
          intro x hx
          rcases List.mem_cons.1 hx with rfl | hx
          · trivial
          · exact hio x (by rw [heq]; exact hx)
  | field n size tot =>
    simp only [step] at hs
    split at hs
    · exact absurd hs (by simp)
    · rename_i o os heq
      split at hs
      · injection hs with hs; subst hs
        have hoo := hio o (by rw [heq]; exact List.mem_cons_self)
        refine ⟨?_, hit⟩
        intro x hx
        rcases List.mem_cons.1 hx with rfl | hx
        · rw [upd_place_fields, covers_append]; exact ⟨hoo, trivial⟩
        · exact hio x (by rw [heq]; exact List.mem_cons_of_mem _ hx)
      · exact absurd hs (by simp)
  | typed n k count =>
    simp only [step] at hs
    split at hs
    · rename_i o os c heq hc
      split at hs
      · injection hs with hs; subst hs
        have hoo := hio o (by rw [heq]; exact List.mem_cons_self)
        have hcc := hit c (List.mem_of_getElem? hc)
        simp only [position, declared, heq, hc, List.head?_cons, Option.elim_some] at hsm
        have hmul : (count * c.hd.total).toNat = count.toNat * c.hd.total.toNat := by
          rw [BitVec.toNat_mul, Nat.mod_eq_of_lt (by omega)]
        have hpos : 1 ≤ count.toNat := by
          rcases Nat.eq_zero_or_pos count.toNat with h | h
          · have : count = 0 := BitVec.eq_of_toNat_eq (by simpa using h)
            subst this; exact absurd rfl (hz n k)
          · exact h
        refine ⟨?_, hit⟩
        intro x hx
        rcases List.mem_cons.1 hx with rfl | hx
        · rw [upd_place_fields, covers_append]
          refine ⟨hoo, ⟨?_, hcc⟩, trivial⟩
          rw [hmul]; exact Nat.le_mul_of_pos_left _ hpos
        · exact hio x (by rw [heq]; exact List.mem_cons_of_mem _ hx)
      · exact absurd hs (by simp)
    · exact absurd hs (by simp)
  | align k =>
    simp only [step] at hs
    split at hs
    · exact absurd hs (by simp)
    · rename_i o os heq
      injection hs with hs; subst hs
      have hoo := hio o (by rw [heq]; exact List.mem_cons_self)
      refine ⟨?_, hit⟩
      intro x hx
      rcases List.mem_cons.1 hx with rfl | hx
      · have : (alignIn o ((1 : W) <<< k.val)).fields = o.fields := by unfold alignIn; split <;> rfl
        rw [this]; exact hoo
      · exact hio x (by rw [heq]; exact List.mem_cons_of_mem _ hx)
  | org y =>
    simp only [step] at hs
    split at hs
    · exact absurd hs (by simp)
    · rename_i o os heq
      split at hs
      · exact absurd hs (by simp)
      · injection hs with hs; subst hs
        have hoo := hio o (by rw [heq]; exact List.mem_cons_self)
        refine ⟨?_, hit⟩
        intro x hx
        rcases List.mem_cons.1 hx with rfl | hx
        · exact hoo
        · exact hio x (by rw [heq]; exact List.mem_cons_of_mem _ hx)
  | ends =>
    simp only [step] at hs
    split at hs
    · exact absurd hs (by simp)
    · rename_i o heq
      injection hs with hs; subst hs
      have hoo := hio o (by rw [heq]; exact List.mem_cons_self)
      refine ⟨by simp, ?_⟩
      intro c hc
      rcases List.mem_append.1 hc with hc | hc
      · exact hit c hc
      · rw [List.mem_singleton] at hc; subst hc; exact hoo
    · rename_i o p os heq
      split at hs
      · have hoo := hio o (by rw [heq]; exact List.mem_cons_self)
        have hpp := hio p (by rw [heq]; exact List.mem_cons_of_mem _ List.mem_cons_self)
        injection hs with hs; subst hs
        refine ⟨?_, hit⟩
        intro x hx
        rcases List.mem_cons.1 hx with rfl | hx
        · have : ∀ (q : Open) (m t : W), (updateSize { q with maxMbr := m } t).fields = q.fields := by
            intro q m t; unfold updateSize; split <;> rfl
          rw [this]
          show Covers (p.fields.append _)
          rw [covers_append]
          exact ⟨hpp, ⟨Nat.le_refl _, hoo⟩, trivial⟩
        · exact hio x (by
            rw [heq]; exact List.mem_cons_of_mem _ (List.mem_cons_of_mem _ hx))
      · exact absurd hs (by simp)

theorem run_cov : ∀ (ops : List Op) (st st' : St), SCov st →
    run st ops = some st' → NoZeroDup ops → Small st ops → SCov st' := by
  intro ops
  induction ops with
  | nil => intro st st' hi hr _ _; simp only [run] at hr; injection hr with hr; subst hr; exact hi
  | cons op ops ih =>
    intro st st' hi hr hz hsm
    simp only [run, Option.bind_eq_some_iff] at hr
    obtain ⟨s1, h1, h2⟩ := hr
    exact ih s1 st' (step_cov hi h1 (hz op List.mem_cons_self) hsm.1) h2
      (fun o ho => hz o (List.mem_cons_of_mem _ ho)) (hsm.2 s1 h1)

theorem visible_inside : ∀ (fs : Flds) (T : Nat), (∀ e ∈ entries fs, e.off + e.bytes ≤ T) →
    Nested LayoutOf fs → Covers fs → ∀ v ∈ visible fs, v.2.1 + v.2.2 ≤ T := by
  intro fs
  induction fs with
  | nil => intro T _ _ _ v hv; simp [visible] at hv
  | leaf n s o t r ih =>
    intro T he hn hc v hv
    simp only [entries, List.mem_cons, forall_eq_or_imp] at he
    simp only [visible, List.mem_append] at hv
    rcases hv with hv | hv
    · by_cases h0 : n = []
      · simp [h0] at hv
      · simp [h0] at hv; subst hv; exact he.1
    · exact ih T he.2 hn hc v hv
  | node n o t h s r ih1 ih2 =>
    intro T he hn hc v hv
    simp only [entries, List.mem_cons, forall_eq_or_imp] at he
    simp only [visible, List.mem_append] at hv
    obtain ⟨⟨hl, hns⟩, hnr⟩ := hn
    obtain ⟨⟨hct, hcs⟩, hcr⟩ := hc
    rcases hv with hv | hv
    · by_cases h0 : n = []
      · rw [if_pos h0, List.mem_map] at hv
        obtain ⟨w, hw, rfl⟩ := hv
        have := ih1 _ hl.inside hns hcs w hw
        have h2 : o.toNat + t.toNat ≤ T := he.1
        show w.2.1 + o.toNat + w.2.2 ≤ T
        omega
      · rw [if_neg h0, List.mem_singleton] at hv; subst hv; exact he.1
    · exact ih2 T he.2 hnr hcr v hv

theorem search_found : ∀ (fs : Flds) (lvl : Nat) (T : Nat) (n : Name) (o t : W), T < 2 ^ 32 →
    (∀ e ∈ entries fs, e.off + e.bytes ≤ T) → Nested LayoutOf fs → Covers fs →
    search lvl n fs = some (some (o, t)) → (n, o.toNat, t.toNat) ∈ visible fs := by
  intro fs
  induction fs with
  | nil => intro lvl T n o t _ _ _ _ h; simp [search] at h
  | leaf nm s off tot r ih =>
    intro lvl T n o t hT he hn hc h
    simp only [entries, List.mem_cons, forall_eq_or_imp] at he
    unfold search at h
    split at h
    · rename_i h0
      simp only [Option.some.injEq, Prod.mk.injEq] at h
      obtain ⟨rfl, rfl⟩ := h
      simp [visible, h0.1, h0.2]
    · simp only [visible, List.mem_append]
      exact Or.inr (ih lvl T n o t hT he.2 hn hc h)
  | node nm off tot hd s r ih1 ih2 =>
    intro lvl T n o t hT he hn hc h
    simp only [entries, List.mem_cons, forall_eq_or_imp] at he
    obtain ⟨⟨hl, hns⟩, hnr⟩ := hn
    obtain ⟨⟨hct, hcs⟩, hcr⟩ := hc
    have he1 := he.1
    unfold search at h
    simp only [visible, List.mem_append]
    split at h
    · rename_i h0
      split at h
      · exact absurd h (by simp)
      · split at h
        · exact absurd h (by simp)
        · rename_i o' t' hs
          simp only [Option.some.injEq, Prod.mk.injEq] at h
          obtain ⟨rfl, rfl⟩ := h
          left
          rw [if_pos h0, List.mem_map]
          have hmem := ih1 _ _ n o' t' hd.total.isLt hl.inside hns hcs hs
          refine ⟨_, hmem, ?_⟩
          have hin := visible_inside s _ hl.inside hns hcs _ hmem
          simp only at hin
          have : (o' + off).toNat = o'.toNat + off.toNat := by
            rw [BitVec.toNat_add]; omega
          rw [this]
        · exact Or.inr (ih2 lvl T n o t hT he.2 hnr hcr h)
    · rename_i h0
      split at h
      · rename_i h1
        simp only [Option.some.injEq, Prod.mk.injEq] at h
        obtain ⟨rfl, rfl⟩ := h
        left; rw [if_neg h0, h1]; exact List.mem_singleton_self _
      · exact Or.inr (ih2 lvl T n o t hT he.2 hnr hcr h)

/-- **C21**, lookup: looking a member name up in an accepted type (also through
anonymous members, at any depth) yields exactly the byte range that the name denotes,
that range lies inside the type, and a visible name is never reported as missing. -/
theorem C21_lookup {ops : List Op} {st : St} {c : Closed} {n : Name}
    (hrun : run init ops = some st) (hno : NoOrg ops) (hz : NoZeroDup ops)
    (hsm : Small init ops) (hc : c ∈ st.types) (hn : n ≠ []) :
    (∀ o t, search 0 n c.fields = some (some (o, t)) →
      (∀ v ∈ visible c.fields, v.1 = n ↔ v = (n, o.toNat, t.toNat)) ∧
      (n, o.toNat, t.toNat) ∈ visible c.fields ∧
      o.toNat + t.toNat ≤ c.hd.total.toNat) ∧
    (search 0 n c.fields = some none → n ∉ (visible c.fields).map Prod.fst) := by
  obtain ⟨hl, hne⟩ := C21_layout_partial hrun hno hsm hc
  have hcov := (run_cov ops init st ⟨by simp [init], by simp [init]⟩ hrun hz hsm).2 c hc
  have hnd := C21_names_unique hrun hno hsm hc
  refine ⟨?_, search_none hn _ 0⟩
  intro o t hs
  have hmem := search_found _ 0 _ n o t c.hd.total.isLt hl.inside hne hcov hs
  refine ⟨?_, hmem, visible_inside _ _ hl.inside hne hcov _ hmem⟩
  intro v hv
  constructor
  · intro h
    have key : ∀ (l : List (Name × Nat × Nat)), (l.map Prod.fst).Nodup → ∀ a ∈ l, ∀ b ∈ l,
        a.1 = b.1 → a = b := by
      intro l
      induction l with
      | nil => intro _ a ha; simp at ha
      | cons x xs ih =>
        intro hd a ha b hb hab
        simp only [List.map_cons, List.nodup_cons] at hd
        rcases List.mem_cons.1 ha with h1 | h1 <;> rcases List.mem_cons.1 hb with h2 | h2
        · rw [h1, h2]
        · subst h1
          have : a.1 ∈ xs.map Prod.fst := by rw [hab]; exact List.mem_map_of_mem h2
          exact absurd this hd.1
        · subst h2
          have : b.1 ∈ xs.map Prod.fst := by rw [← hab]; exact List.mem_map_of_mem h1
          exact absurd this hd.1
        · exact ih hd.2 a h1 b h2 hab
    exact key _ hnd v hv _ hmem h
  · rintro rfl; rfl

/-! ### A concrete, non-trivial definition meeting the hypotheses -/

/-- `Size` STRUCT 8 with BYTE `a`, an embedded UNION with WORD `w` and 3 DWORDs `d`,
QWORD `q`; then a second type with two anonymous `Size`s. -/
def exOps : List Op :=
  [.begin false ['S'] (some 8) 0,
     .field ['a'] 1 1,
     .begin true [] none 0,
       .field ['w'] 2 2,
       .field ['d'] 4 12,
     .ends,
     .field ['q'] 8 8,
     .field ['b'] 1 1,
   .ends,
   .begin false ['T'] none 2,
     .field ['x'] 1 1,
     .typed [] 0 1,
   .ends]

/-- Sizes, offsets and visible names of all defined types. -/
def exShow : List (Nat × List Nat × List (Name × Nat × Nat)) :=
  (run init exOps).elim [] fun s => s.types.map fun c =>
      (c.hd.total.toNat, (entries c.fields).map (·.off), visible c.fields)

theorem exOps_run : exShow =
    [(32, [0, 4, 16, 24], [(['a'], 0, 1), (['w'], 4, 2), (['d'], 4, 12), (['q'], 16, 8), (['b'], 24, 1)]),
          (36, [0, 4], [(['x'], 0, 1), (['a'], 4, 1), (['w'], 8, 2), (['d'], 8, 12), (['q'], 20, 8), (['b'], 28, 1)])] := by
  decide +kernel

/-- Decidable form of `Small` for the example. -/
def smallB (st : St) : List Op → Bool
  | [] => true
  | op :: ops => decide (position st op + declared st op + 64 < 2 ^ 31) &&
      match step st op with
      | some st' => smallB st' ops
      | none => true

theorem small_of_B : ∀ ops st, smallB st ops = true → Small st ops := by
  intro ops
  induction ops with
  | nil => intro _ _; trivial
  | cons op ops ih =>
    intro st h
    simp only [smallB, Bool.and_eq_true, decide_eq_true_eq] at h
    refine ⟨h.1, ?_⟩
    intro st' hs
    have h2 := h.2
    rw [hs] at h2
    exact ih st' h2

example : ∃ st, run init exOps = some st ∧ NoOrg exOps ∧ NoAlign exOps ∧ NoZeroDup exOps ∧
    Small init exOps ∧ st.types.length = 2 := by
  have h : ((run init exOps).elim 0 fun s => s.types.length) = 2 := by decide +kernel
  cases hr : run init exOps with
  | none => rw [hr] at h; simp at h
  | some st =>
    rw [hr] at h
    refine ⟨st, rfl, ?_, ?_, ?_, small_of_B _ _ (by decide +kernel), h⟩
    · intro op hop x hx; subst hx; simp [exOps] at hop
    · intro op hop x hx; subst hx; simp [exOps] at hop
    · intro op hop n k hx; subst hx; simp [exOps] at hop

/-! ### Findings -/

/-- Summary of the first type defined: size and member offsets. -/
def summary (ops : List Op) : Option (List (Nat × List Int)) :=
  (run init ops).map fun s => s.types.map fun c =>
    (c.hd.total.toNat, (entries c.fields).map fun e => (BitVec.ofNat 32 e.off).toInt)

/-- Finding 1: a size that is not a power of two is used as an alignment mask.  In a
`STRUCT 8` an FWORD (6 bytes) after a BYTE goes to offset 2, not to a multiple of 6 or
of 8; a struct consisting of one FWORD has 10 bytes, not 6 or 8. -/
theorem finding_fword : summary
    [.begin false ['S'] (some 8) 0, .field ['a'] 1 1, .field ['f'] 6 6, .ends,
     .begin false ['R'] (some 8) 0, .field ['f'] 6 6, .ends] = some [(8, [0, 2]), (10, [0])] := by
  decide +kernel

/-- Finding 2: with ORG to a negative offset, the unsigned comparison in the alignment
path discards the size reached before: the structure covers offsets -8..3 (12 bytes),
but its size is 4 when fields are aligned (and 12 when the alignment is 1). -/
theorem finding_org_unsigned : summary
    [.begin false ['S'] (some 4) 0, .field ['d'] 4 4, .org (-8), .field ['b'] 1 1, .ends,
     .begin false ['R'] (some 1) 0, .field ['d'] 4 4, .org (-8), .field ['b'] 1 1, .ends]
    = some [(4, [0, -8]), (12, [0, -8])] := by
  decide +kernel

/-- Finding 3: `ORG` makes members overlap silently. -/
theorem finding_org_overlap : summary
    [.begin false ['S'] (some 1) 0, .field ['d'] 4 4, .org 2, .field ['e'] 4 4, .ends]
    = some [(6, [0, 2])] := by
  decide +kernel

/-- Finding 4: an anonymous structured field with repeat count 0 makes names visible
that lie outside the structure. -/
theorem finding_zero_dup : (run init
    [.begin false ['P'] (some 1) 0, .field ['x'] 4 4, .ends,
     .begin false ['S'] (some 1) 0, .typed [] 0 0, .ends]).map (fun s => s.types.map fun c =>
      (c.hd.total.toNat, visible c.fields)) = some [(4, [(['x'], 0, 4)]), (0, [(['x'], 0, 4)])] := by
  decide +kernel

/-- Finding 5: names that become visible through an anonymous member hide nothing but
are only compared with what is already there; a later *named* member is compared too,
so accepted types have unique names (`C21_names_unique`); a 32-deep chain of anonymous
members is refused. -/
theorem finding_nested_named : (run init
    [.begin false ['S'] (some 1) 0, .begin true [] none 0, .field ['x'] 4 4, .ends,
     .field ['x'] 1 1, .ends]) = none := by
  decide +kernel

end Verif.Struct
