import Verif.Data.Num
/-
  `data_item` against the specification.
-/
namespace Verif.Data

/-- what follows label `item_done`, as a function of its own -/
def loopEnd (c : Cfg) (start : List Tok) (dup : Nat) (total : BitVec 32) (first : Bool) (s : St) (rest : List Tok) : R :=
  if dup ≤ 1 then some (.ok (finish c total s, rest)) else items c start start (dup - 1) total first s

def itemDone (c : Cfg) (start : List Tok) (st : Step) : R :=
  let s := markFirst c st.total st.first st.s
  match st.rest with
  | .comma :: rest =>
    match rest with
    | [] | .cl :: _ =>
      if st.dup ≤ 1 then some (.ok (finish c st.total s, rest))
      else items c start start (st.dup - 1) st.total st.first s
    | _ =>
      items c start rest st.dup st.total false (if c.label then { s with isarray := true } else s)
  | rest =>
    if st.dup ≤ 1 then some (.ok (finish c st.total s, rest))
    else items c start start (st.dup - 1) st.total st.first s

def dupPart (c : Cfg) (start : List Tok) (v : BitVec 32) (dup : Nat) (total : BitVec 32) (first : Bool) :
    Except Err (St × List Tok) → R
  | .error e => some (.error e)
  | .ok (s, rest) =>
    match rest with
    | .cl :: rest => itemDone c start ⟨(dupFirst c v first s).1, rest, dup, total, (dupFirst c v first s).2⟩
    | _ => some (.error .expectedCl)

theorem items_nil (c : Cfg) (start : List Tok) (dup : Nat) (total : BitVec 32) (first : Bool) (s : St) :
    items c start [] dup total first s = some (.error .syntaxErr) := by
  rw [items.eq_def]

theorem items_question (c : Cfg) (start rest : List Tok) (dup : Nat) (total : BitVec 32) (first : Bool) (s : St) :
    items c start (.question :: rest) dup total first s =
      itemDone c start (question c (decide ((Tok.question :: rest).length = start.length)) rest dup total first s) := by
  rw [items.eq_def]
  rfl

theorem items_plain (c : Cfg) (start : List Tok) (t : Tok) (rest : List Tok) (dup : Nat) (total : BitVec 32)
    (first : Bool) (s : St) (ht : t ≠ .question) (hr : rest.head? ≠ some .dup) :
    items c start (t :: rest) dup total first s =
      match plain c (decide ((t :: rest).length = start.length)) t rest dup total first s with
      | .error e => some (.error e)
      | .ok st => itemDone c start st := by
  rw [items.eq_def]
  cases rest with
  | nil => cases t <;> first | rfl | exact absurd rfl ht
  | cons x r => cases x <;> first | (exact absurd rfl hr) | (cases t <;> first | rfl | exact absurd rfl ht)

theorem items_dup_none (c : Cfg) (start : List Tok) (t : Tok) (rest : List Tok) (dup : Nat) (total : BitVec 32)
    (first : Bool) (s : St) (ht : t ≠ .question) (hc : countOf t = none) :
    items c start (t :: .dup :: rest) dup total first s = some (.error .constantExpected) := by
  rw [items.eq_def]
  cases t <;> first | rfl | exact absurd rfl ht | simp [countOf] at hc

theorem items_dup (c : Cfg) (start : List Tok) (k : Const) (rest : List Tok) (dup : Nat) (total : BitVec 32)
    (first : Bool) (s : St) :
    items c start (.const k :: .dup :: rest) dup total first s =
      if (k.ll.extractLsb' 0 32).msb then some (.error .negCount) else
      match rest with
      | .op :: rest =>
        if k.ll.extractLsb' 0 32 = 0#32 then
          dupPart c start 0#32 dup total first (.ok (if c.label then { s with isarray := true } else s, skip 1 rest))
        else
          items c rest rest (k.ll.extractLsb' 0 32).toNat 0#32 first (if c.label then { s with isarray := true } else s)
            >>= dupPart c start (k.ll.extractLsb' 0 32) dup total first
      | _ => some (.error .expectedOp) := by
  rw [items.eq_def]
  simp only [countOf]
  split
  · rfl
  · cases rest with
    | nil => rfl
    | cons x r =>
      cases x <;> try rfl
      simp only
      by_cases h : k.ll.extractLsb' 0 32 = 0#32
      · simp only [h, if_true]; rfl
      · simp only [h, if_false]
        congr 1

theorem itemDone_last (c : Cfg) (start : List Tok) (st : Step) (h : st.rest.head? ≠ some .comma) :
    itemDone c start st = loopEnd c start st.dup st.total st.first (markFirst c st.total st.first st.s) st.rest := by
  obtain ⟨s, rest, dup, total, first⟩ := st
  rcases rest with _ | ⟨x, r⟩
  · rfl
  · cases x <;> first | rfl | exact absurd rfl h

theorem itemDone_trail (c : Cfg) (start : List Tok) (s : St) (r : List Tok) (dup : Nat) (total : BitVec 32) (first : Bool)
    (h : r = [] ∨ r.head? = some .cl) :
    itemDone c start ⟨s, .comma :: r, dup, total, first⟩ =
      loopEnd c start dup total first (markFirst c total first s) r := by
  rcases r with _ | ⟨x, r⟩
  · rfl
  · cases x <;> first | rfl | simp at h

theorem itemDone_more (c : Cfg) (start : List Tok) (s : St) (r : List Tok) (dup : Nat) (total : BitVec 32) (first : Bool)
    (h : ¬ (r = [] ∨ r.head? = some .cl)) :
    itemDone c start ⟨s, .comma :: r, dup, total, first⟩ =
      items c start r dup total false
        (if c.label then { markFirst c total first s with isarray := true } else markFirst c total first s) := by
  rcases r with _ | ⟨x, r⟩
  · simp at h
  · cases x <;> first | rfl | simp at h

/-- what initializers do: emit `out`, count `cnt` elements (`cond`: the counting is as it should be) -/
def Eff (cond : Prop) (s : St) (total : BitVec 32) (s' : St) (total' : BitVec 32) (out : List Chunk) (cnt : Nat)
    (n : Nat) : Prop :=
  s'.out = s.out ++ out ∧
  (cond → s'.totLen + total' = s.totLen + total + BitVec.ofNat 32 cnt ∧
    s'.totSize + total' * BitVec.ofNat 32 n =
      s.totSize + total * BitVec.ofNat 32 n + BitVec.ofNat 32 cnt * BitVec.ofNat 32 n)

/-- no string of several characters in words: those are counted twice -/
def NoPairs (n : Nat) (l : List Tok) : Prop := n = 2 → ∀ b, Tok.str b ∈ l → b.length ≤ 1

def Cond (c : Cfg) (l : List Tok) : Prop := c.label = true ∧ c.pass1 = true ∧ NoPairs c.n l

theorem markFirst_same (c : Cfg) (total : BitVec 32) (first : Bool) (s : St) :
    (markFirst c total first s).out = s.out ∧ (markFirst c total first s).totLen = s.totLen ∧
    (markFirst c total first s).totSize = s.totSize := by
  unfold markFirst; split <;> simp

theorem isarray_same (b : Bool) (s : St) :
    (if b = true then { s with isarray := true } else s).out = s.out ∧
    (if b = true then { s with isarray := true } else s).totLen = s.totLen ∧
    (if b = true then { s with isarray := true } else s).totSize = s.totSize := by
  split <;> simp

theorem dupFirst_same (c : Cfg) (v : BitVec 32) (first : Bool) (s : St) :
    (dupFirst c v first s).1.out = s.out ∧ (dupFirst c v first s).1.totLen = s.totLen ∧
    (dupFirst c v first s).1.totSize = s.totSize := by
  unfold dupFirst; split <;> simp

theorem Eff.congr {cond : Prop} {s s1 s2 s' : St} {t t' : BitVec 32} {o n cnt}
    (h : Eff cond s1 t s2 t' o cnt n)
    (h1 : s1.out = s.out ∧ s1.totLen = s.totLen ∧ s1.totSize = s.totSize)
    (h2 : s'.out = s2.out ∧ s'.totLen = s2.totLen ∧ s'.totSize = s2.totSize) : Eff cond s t s' t' o cnt n := by
  obtain ⟨a, b, d⟩ := h1
  obtain ⟨a', b', d'⟩ := h2
  unfold Eff at *
  rw [a', b', d', ← a, ← b, ← d]
  exact h

theorem Eff.trans {cond cond' : Prop} {s s1 s2 : St} {t t1 t2 : BitVec 32} {o o' n cnt cnt'}
    (h : Eff cond s t s1 t1 o cnt n) (h' : Eff cond' s1 t1 s2 t2 o' cnt' n) (hc : cond → cond') :
    Eff cond s t s2 t2 (o ++ o') (cnt + cnt') n := by
  refine ⟨by rw [h'.1, h.1, List.append_assoc], fun hh => ?_⟩
  obtain ⟨a, b⟩ := h.2 hh
  obtain ⟨a', b'⟩ := h'.2 (hc hh)
  rw [a', b', a, b, BitVec.ofNat_add]
  constructor
  · ac_rfl
  · rw [BitVec.add_mul]; ac_rfl

/-- `?` alone in its list: the loop is left at once -/
def Special (start l : List Tok) : Prop :=
  l.length = start.length ∧ ∃ r, l = .question :: r ∧ r.head? ≠ some .comma

/-- address operands: what the program emits for them -/
def AddrOut (c : Cfg) (a : Addr) (out : List Chunk) : Prop := ∃ t, address c a 0#32 {} = .ok ({ out := out }, t)

def InitGood (c : Cfg) (l rest : List Tok) (out : List Chunk) (cnt : Nat) : Prop :=
  Init c.n (AddrOut c) l rest out cnt ∧
  (∀ rest' out' cnt', Init c.n (AddrOut c) l rest' out' cnt' → rest' = rest ∧ out' = out ∧ cnt' = cnt) ∧
  rest <:+ l ∧ rest.length < l.length ∧
  ∀ start dup total first s, 1 ≤ dup → l.length ≤ start.length → ¬ Special start l → ∃ total' first' s',
    items c start l dup total first s = itemDone c start ⟨s', rest, dup, total', first'⟩ ∧
    Eff (Cond c l) s total s' total' out cnt c.n

def InitBad (c : Cfg) (l : List Tok) : Prop :=
  (∀ rest out cnt, ¬ Init c.n (AddrOut c) l rest out cnt) ∧
  ∀ start dup total first s, 1 ≤ dup → l.length ≤ start.length → ∃ e, items c start l dup total first s = some (.error e)

def InitsGood (c : Cfg) (l rest : List Tok) (out : List Chunk) (cnt : Nat) : Prop :=
  Inits c.n (AddrOut c) l rest out cnt ∧
  (∀ rest' out' cnt', Inits c.n (AddrOut c) l rest' out' cnt' → rest' = rest ∧ out' = out ∧ cnt' = cnt) ∧
  rest <:+ l ∧ rest.length < l.length ∧
  ∀ start dup total first s, 1 ≤ dup → l.length ≤ start.length → ¬ Special start l → ∃ total' first' s',
    items c start l dup total first s = loopEnd c start dup total' first' s' rest ∧
    Eff (Cond c l) s total s' total' out cnt c.n

def InitsBad (c : Cfg) (l : List Tok) : Prop :=
  (∀ rest out cnt, ¬ Inits c.n (AddrOut c) l rest out cnt) ∧
  ∀ start dup total first s, 1 ≤ dup → l.length ≤ start.length → ∃ e, items c start l dup total first s = some (.error e)

theorem Cond.suffix {c : Cfg} {l r : List Tok} (h : r <:+ l) (hc : Cond c l) : Cond c r :=
  ⟨hc.1, hc.2.1, fun hn b hb => hc.2.2 hn b (h.subset hb)⟩

theorem LineOk.suffix {n : Nat} {l r : List Tok} (h : r <:+ l) (hl : LineOk n l) : LineOk n r := by
  obtain ⟨p, rfl⟩ := h
  refine ⟨fun hn k hk => hl.1 hn k (by simp [hk]), fun pre t r' e => ?_⟩
  exact hl.2 (p ++ pre) t r' (by rw [e]; simp)

/-- from one initializer to the list -/
theorem inits_of_init (c : Cfg) (l : List Tok)
    (hi : (∃ r o k, InitGood c l r o k) ∨ InitBad c l)
    (ih : ∀ l', l' <:+ l → l'.length < l.length → (∃ r o k, InitsGood c l' r o k) ∨ InitsBad c l') :
    (∃ r o k, InitsGood c l r o k) ∨ InitsBad c l := by
  rcases hi with ⟨r, o, k, hI, hu, hs, hlt, hrun⟩ | ⟨hno, hrun⟩
  · by_cases hcom : r.head? = some .comma
    · obtain ⟨r1, rfl⟩ : ∃ r1, r = .comma :: r1 := by
        cases r with
        | nil => simp at hcom
        | cons x r1 => simp at hcom; exact ⟨r1, by rw [hcom]⟩
      have hs1 : r1 <:+ l := List.IsSuffix.trans ⟨[.comma], rfl⟩ hs
      have hlt1 : r1.length < l.length := by simp at hlt; omega
      by_cases htr : r1 = [] ∨ r1.head? = some .cl
      · refine Or.inl ⟨r1, o, k, .trail hI htr, ?_, hs1, hlt1, ?_⟩
        · intro rest' out' cnt' h
          cases h with
          | last h1 h2 =>
            obtain ⟨rfl, -, -⟩ := hu _ _ _ h1
            simp at h2
          | trail h1 h2 =>
            obtain ⟨e, rfl, rfl⟩ := hu _ _ _ h1
            simp at e; exact ⟨e, rfl, rfl⟩
          | cons h1 h2 h3 =>
            obtain ⟨e, rfl, rfl⟩ := hu _ _ _ h1
            simp at e; rw [e] at h2; exact absurd htr h2
        · intro start dup total first s hd hl hsp
          obtain ⟨t', f', s', e, hE⟩ := hrun start dup total first s hd hl hsp
          refine ⟨t', f', _, by rw [e, itemDone_trail _ _ _ _ _ _ _ htr], ?_⟩
          exact hE.congr ⟨rfl, rfl, rfl⟩ (markFirst_same _ _ _ _)
      · rcases ih r1 hs1 hlt1 with ⟨r2, o2, k2, hI2, hu2, hs2, hlt2, hrun2⟩ | ⟨hno2, hrun2⟩
        · refine Or.inl ⟨r2, o ++ o2, k + k2, .cons hI htr hI2, ?_, hs2.trans hs1, by omega, ?_⟩
          · intro rest' out' cnt' h
            cases h with
            | last h1 h2 =>
              obtain ⟨rfl, -, -⟩ := hu _ _ _ h1
              simp at h2
            | trail h1 h2 =>
              obtain ⟨e, rfl, rfl⟩ := hu _ _ _ h1
              simp at e; rw [e] at h2; exact absurd h2 htr
            | cons h1 h2 h3 =>
              obtain ⟨e, rfl, rfl⟩ := hu _ _ _ h1
              simp at e; subst e
              obtain ⟨rfl, rfl, rfl⟩ := hu2 _ _ _ h3
              exact ⟨rfl, rfl, rfl⟩
          · intro start dup total first s hd hl hsp
            obtain ⟨t', f', s', e, hE⟩ := hrun start dup total first s hd hl hsp
            obtain ⟨t2, f2, s2, e2, hE2⟩ := hrun2 start dup t' false
              (if c.label then { markFirst c t' f' s' with isarray := true } else markFirst c t' f' s') hd (by omega)
              (fun h => by have := h.1; omega)
            refine ⟨t2, f2, s2, by rw [e, itemDone_more _ _ _ _ _ _ _ htr, e2], ?_⟩
            refine Eff.trans hE (hE2.congr ?_ ⟨rfl, rfl, rfl⟩) (fun h => h.suffix hs1)
            have h1 := isarray_same c.label (markFirst c t' f' s')
            have h2 := markFirst_same c t' f' s'
            exact ⟨by rw [h1.1, h2.1], by rw [h1.2.1, h2.2.1], by rw [h1.2.2, h2.2.2]⟩
        · refine Or.inr ⟨?_, ?_⟩
          · intro rest' out' cnt' h
            cases h with
            | last h1 h2 =>
              obtain ⟨rfl, -, -⟩ := hu _ _ _ h1
              simp at h2
            | trail h1 h2 =>
              obtain ⟨e, rfl, rfl⟩ := hu _ _ _ h1
              simp at e; rw [e] at h2; exact absurd h2 htr
            | cons h1 h2 h3 =>
              obtain ⟨e, rfl, rfl⟩ := hu _ _ _ h1
              simp at e; subst e
              exact hno2 _ _ _ h3
          · intro start dup total first s hd hl
            have hsp : ¬ Special start l := by
              rintro ⟨-, r', rfl, hr'⟩
              obtain ⟨rfl, -, -⟩ := hu _ _ _ .undef
              simp at hr'
            obtain ⟨t', f', s', e, hE⟩ := hrun start dup total first s hd hl hsp
            rw [e, itemDone_more _ _ _ _ _ _ _ htr]
            exact hrun2 _ _ _ _ _ hd (by omega)
    · refine Or.inl ⟨r, o, k, .last hI hcom, ?_, hs, hlt, ?_⟩
      · intro rest' out' cnt' h
        cases h with
        | last h1 h2 => exact hu _ _ _ h1
        | trail h1 h2 =>
          obtain ⟨rfl, -, -⟩ := hu _ _ _ h1
          simp at hcom
        | cons h1 h2 h3 =>
          obtain ⟨rfl, -, -⟩ := hu _ _ _ h1
          simp at hcom
      · intro start dup total first s hd hl hsp
        obtain ⟨t', f', s', e, hE⟩ := hrun start dup total first s hd hl hsp
        refine ⟨t', f', _, by rw [e, itemDone_last _ _ _ hcom], ?_⟩
        exact hE.congr ⟨rfl, rfl, rfl⟩ (markFirst_same _ _ _ _)
  · refine Or.inr ⟨?_, hrun⟩
    intro rest' out' cnt' h
    cases h with
    | last h1 h2 => exact hno _ _ _ h1
    | trail h1 h2 => exact hno _ _ _ h1
    | cons h1 h2 h3 => exact hno _ _ _ h1

theorem flatten_replicate_succ {α} (m : Nat) (o : List α) :
    (List.replicate (m + 1) o).flatten = o ++ (List.replicate m o).flatten := by
  simp [List.replicate_succ]

/-- the whole `for` loop -/
theorem loop_good (c : Cfg) (hs0 : c.inStruct = false) (hn : c.n < 2 ^ 32) (l rest : List Tok) (out : List Chunk) (cnt : Nat)
    (hg : InitsGood c l rest out cnt) (m : Nat) (total : BitVec 32) (first : Bool) (s : St)
    (hm : (m + 1) * c.n < 2 ^ 32) :
    ∃ s', items c l l (m + 1) total first s = some (.ok (s', rest)) ∧
      s'.out = s.out ++ (List.replicate (m + 1) out).flatten ∧
      (Cond c l → s'.totLen = s.totLen + total + BitVec.ofNat 32 ((m + 1) * cnt) ∧
        s'.totSize = s.totSize + total * BitVec.ofNat 32 c.n +
          BitVec.ofNat 32 ((m + 1) * cnt) * BitVec.ofNat 32 c.n) := by
  have hfin : ∀ total s, (finish c total s).out = s.out ∧ (Cond c l → (finish c total s).totLen = s.totLen + total ∧
      (finish c total s).totSize = s.totSize + total * BitVec.ofNat 32 c.n) := by
    intro total s
    unfold finish
    refine ⟨by split <;> rfl, fun h => ?_⟩
    rw [if_pos (by simp [h.1, h.2.1])]
    exact ⟨rfl, rfl⟩
  by_cases hsp : Special l l
  · obtain ⟨-, r, rfl, hr⟩ := hsp
    obtain ⟨hI, hu, -⟩ := hg
    obtain ⟨rfl, rfl, rfl⟩ := hu _ _ _ (.last .undef hr)
    rw [items_question]
    have hq : question c (decide ((Tok.question :: r).length = (Tok.question :: r).length)) r (m + 1) total first s =
        ⟨{ s with out := s.out ++ List.replicate ((m + 1) * c.n) .undef }, r, 1,
          total + BitVec.ofNat 32 (m + 1), first⟩ := by
      have hk : (BitVec.ofNat 32 c.n * BitVec.ofNat 32 (m + 1)).toNat = (m + 1) * c.n := by
        rw [← BitVec.ofNat_mul, BitVec.toNat_ofNat, Nat.mul_comm]
        exact Nat.mod_eq_of_lt hm
      unfold question
      rw [if_pos ⟨hr, by simp⟩, hs0]
      simp only [hk, Bool.false_eq_true, if_false]
    rw [hq, itemDone_last _ _ _ hr]
    refine ⟨_, rfl, ?_, ?_⟩
    · rw [(hfin _ _).1, (markFirst_same _ _ _ _).1]
      simp [Nat.mul_comm]
    · intro h
      obtain ⟨a, b⟩ := (hfin (total + BitVec.ofNat 32 (m + 1)) (markFirst c (total + BitVec.ofNat 32 (m + 1)) first
        { s with out := s.out ++ List.replicate ((m + 1) * c.n) .undef })).2 h
      simp only at a b ⊢
      rw [a, b, (markFirst_same _ _ _ _).2.1, (markFirst_same _ _ _ _).2.2]
      simp only [Nat.mul_one]
      exact ⟨by ac_rfl, by rw [BitVec.add_mul]; ac_rfl⟩
  · obtain ⟨hI, hu, hsuf, hlt, hrun⟩ := hg
    induction m generalizing total first s with
    | zero =>
      obtain ⟨t', f', s', e, hE⟩ := hrun l 1 total first s (by omega) (by omega) hsp
      refine ⟨finish c t' s', by rw [e]; rfl, ?_, ?_⟩
      · rw [(hfin _ _).1, hE.1]; simp
      · intro h
        obtain ⟨a, b⟩ := (hfin t' s').2 h
        obtain ⟨a', b'⟩ := hE.2 h
        rw [a, b, a', b']; simp
    | succ m ih =>
      obtain ⟨t', f', s', e, hE⟩ := hrun l (m + 1 + 1) total first s (by omega) (by omega) hsp
      have hm' : (m + 1) * c.n < 2 ^ 32 := by
        have : (m + 1) * c.n ≤ (m + 1 + 1) * c.n := Nat.mul_le_mul_right _ (by omega)
        omega
      obtain ⟨s2, e2, ho, hc⟩ := ih t' f' s' hm'
      refine ⟨s2, ?_, ?_, ?_⟩
      · rw [e, loopEnd, if_neg (by omega)]
        exact e2
      · rw [ho, hE.1, flatten_replicate_succ (m + 1)]; simp
      · intro h
        obtain ⟨a, b⟩ := hE.2 h
        obtain ⟨a', b'⟩ := hc h
        rw [a', b', a, b, show (m + 1 + 1) * cnt = cnt + (m + 1) * cnt by ring, BitVec.ofNat_add]
        exact ⟨by ac_rfl, by rw [BitVec.add_mul]; ac_rfl⟩

theorem question_more (c : Cfg) (hs0 : c.inStruct = false) (hn : c.n < 2 ^ 32) (start r : List Tok) (dup : Nat)
    (total : BitVec 32) (first : Bool) (s : St) (h : ¬ Special start (.question :: r)) :
    question c (decide ((Tok.question :: r).length = start.length)) r dup total first s =
      ⟨{ s with out := s.out ++ List.replicate c.n .undef }, r, dup, total + 1#32, first⟩ := by
  unfold question
  rw [if_neg, hs0]
  · simp; omega
  · rintro ⟨a, b⟩
    exact h ⟨by simpa using b, r, rfl, a⟩

theorem littleEndian_eq : ∀ (k : Nat) (b : List Byte), b.length ≤ k → littleEndian b = b.reverse
  | _, [], _ => by simp [littleEndian]
  | 0, a :: r, h => by simp at h
  | k + 1, a :: r, h => by
    rw [littleEndian]
    split
    · rename_i h1
      simp at h1
      simp [h1]
    · rename_i z h1
      rw [littleEndian_eq k r.dropLast (by simp at h ⊢; omega)]
      obtain ⟨r', rfl⟩ : ∃ r', r = r' ++ [z] := by
        have hne : r ≠ [] := by rintro rfl; simp at h1
        refine ⟨r.dropLast, ?_⟩
        rw [List.getLast?_eq_some_getLast hne] at h1
        simp at h1
        rw [← h1, List.dropLast_concat_getLast hne]
      simp

theorem put_out (s : St) (b : List Byte) : (s.put b).out = s.out ++ b.map .byte ∧ (s.put b).totLen = s.totLen ∧
    (s.put b).totSize = s.totSize := ⟨rfl, rfl, rfl⟩

theorem strOut_spec (c : Cfg) (hs0 : c.inStruct = false) (hlit : c.lit = false) (b : List Byte) (hb : b ≠ [])
    (h1 : 1 ≤ c.n) (hle : c.n ≠ 1 → b.length ≤ c.n) (s : St) :
    (strOut c b s).out = s.out ++ (if c.n = 1 then b else b.reverse ++ List.replicate (c.n - b.length) 0#8).map .byte ∧
    (strOut c b s).totLen = s.totLen ∧ (strOut c b s).totSize = s.totSize := by
  have hpos : 0 < b.length := by cases b <;> simp at hb ⊢
  have e : strOut c b s = (if c.n > b.length then (s.put (if b.length > 1 && c.n > 1 then littleEndian b else b)).put
      (List.replicate (c.n - b.length) 0#8) else s.put (if b.length > 1 && c.n > 1 then littleEndian b else b)) := by
    unfold strOut; simp only [hs0, hlit]; rfl
  rw [e]
  by_cases hn : c.n = 1
  · have : ¬ c.n > b.length := by omega
    rw [if_neg this]
    simp [hn, put_out]
  · have hl := hle hn
    have hrev : (if b.length > 1 && c.n > 1 then littleEndian b else b) = b.reverse := by
      by_cases h2 : b.length > 1
      · have : c.n > 1 := by omega
        simp only [h2, this, decide_true, Bool.and_true, if_true]
        exact littleEndian_eq _ b (Nat.le_refl _)
      · match b, hb with
        | [x], _ => simp
        | x :: y :: r, _ => simp at h2
    rw [hrev, if_neg hn]
    split
    · simp [put_out]
    · rename_i h3
      have : c.n - b.length = 0 := by omega
      simp [put_out, this]

theorem string_spec (c : Cfg) (hs0 : c.inStruct = false) (hlit : c.lit = false) (h1 : 1 ≤ c.n) (b : List Byte)
    (l : List Tok) (hbl : Tok.str b ∈ l) (total : BitVec 32) (first : Bool) (s : St) :
    if b ≠ [] ∧ (c.n ≠ 1 → b.length ≤ c.n) then
      ∃ s' total' first', string c b total first s = .ok (s', total', first') ∧
        Eff (Cond c l) s total s' total'
          ((if c.n = 1 then b else b.reverse ++ List.replicate (c.n - b.length) 0#8).map .byte)
          (if c.n = 1 then b.length else 1) c.n
    else ∃ e, string c b total first s = .error e := by
  split
  · rename_i h
    obtain ⟨hb, hle⟩ := h
    have hpos : 0 < b.length := by cases b <;> simp at hb ⊢
    have hne : b.length ≠ 0 := by omega
    have hno : ¬ (c.n ≠ 1 ∧ b.length > c.n) := by
      rintro ⟨a, d⟩; have := hle a; omega
    have hno' : ¬ (¬ c.n = 1 ∧ c.n < b.length) := hno
    unfold string
    simp only [hs0, hlit, hne, false_and, if_false, true_and, Bool.not_false, Bool.false_eq_true, and_false, hno', gt_iff_lt, ne_eq]
    by_cases hlp : (c.label && c.pass1 && decide (b.length > 0)) = true
    · rw [if_pos (by simpa using hlp)]
      by_cases hn1 : c.n = 1 ∧ b.length > 1
      · rw [if_pos hn1]
        refine ⟨_, _, _, rfl, ?_⟩
        obtain ⟨o1, o2, o3⟩ := strOut_spec c hs0 hlit b hb h1 hle
          { s with isarray := true, firstLen := if first then 1#32 else s.firstLen,
                   firstSize := if first then 1#32 else s.firstSize }
        refine ⟨o1, fun _ => ?_⟩
        rw [o2, o3]
        have e1 : total + 1#32 + BitVec.ofNat 32 (b.length - 1) = total + BitVec.ofNat 32 b.length := by
          rw [show b.length = 1 + (b.length - 1) by omega, BitVec.ofNat_add, ← BitVec.add_assoc]; simp
        rw [e1, if_pos hn1.1]
        simp only
        exact ⟨by ac_rfl, by rw [BitVec.add_mul]; ac_rfl⟩
      · rw [if_neg hn1]
        by_cases hn2 : c.n = 2 ∧ b.length > 1
        · rw [if_pos hn2]
          refine ⟨_, _, _, rfl, ?_⟩
          obtain ⟨o1, o2, o3⟩ := strOut_spec c hs0 hlit b hb h1 hle
            { s with isarray := true, firstLen := if first then 1#32 else s.firstLen,
                     firstSize := if first then 2#32 else s.firstSize }
          refine ⟨o1, fun hc => ?_⟩
          have := hc.2.2 hn2.1 b hbl
          omega
        · rw [if_neg hn2]
          refine ⟨_, _, _, rfl, ?_⟩
          obtain ⟨o1, o2, o3⟩ := strOut_spec c hs0 hlit b hb h1 hle s
          refine ⟨o1, fun hc => ?_⟩
          rw [o2, o3]
          have e1 : (if c.n = 1 then b.length else 1) = 1 := by
            split
            · omega
            · rfl
          rw [e1]
          simp only
          exact ⟨by ac_rfl, by rw [BitVec.add_mul]; ac_rfl⟩
    · rw [if_neg (by simpa using hlp)]
      refine ⟨_, _, _, rfl, ?_⟩
      obtain ⟨o1, o2, o3⟩ := strOut_spec c hs0 hlit b hb h1 hle s
      refine ⟨o1, fun hc => ?_⟩
      exfalso
      apply hlp
      simp [hc.1, hc.2.1, hpos]
  · rename_i h
    by_cases hb : b = []
    · exact ⟨.emptyString, by simp [string, hb, hs0]⟩
    · have hne : b.length ≠ 0 := by simpa using hb
      have : c.n ≠ 1 ∧ b.length > c.n := by
        by_contra hh
        apply h
        refine ⟨hb, fun hn => ?_⟩
        by_contra h3
        exact hh ⟨hn, by omega⟩
      refine ⟨.outOfRange, ?_⟩
      unfold string
      simp [hne, hlit, this.1, this.2, hb]

theorem address_spec (c : Cfg) (a : Addr) :
    (∃ out, AddrOut c a out ∧ (∀ out', AddrOut c a out' → out' = out) ∧
      ∀ total s, c.inStruct = false → address c a total s = .ok ({ s with out := s.out ++ out }, total + 1#32)) ∨
    ((∀ out, ¬ AddrOut c a out) ∧ ∀ total s, ∃ e, address c a total s = .error e) := by
  unfold AddrOut address
  by_cases h1 : c.n > 8
  · right; simp [h1]
  by_cases h2 : a.indirect = true
  · right; simp [h1, h2]
  simp only [h1, h2, if_false, Bool.false_eq_true]
  split
  · right; simp
  split
  · left
    rename_i hS
    refine ⟨[], ⟨_, rfl⟩, ?_, ?_⟩
    · rintro out' ⟨t, e⟩
      simp at e
      rw [← e.1]
    · intro total s h
      rw [h] at hS; simp at hS
  split
  · right; simp
  · right; simp
  · split
    · right; simp
    · left
      refine ⟨_, ⟨_, rfl⟩, ?_, ?_⟩
      · rintro out' ⟨t, e⟩
        simp only [Except.ok.injEq, Prod.mk.injEq, St.mk.injEq] at e
        rw [← e.1.1]
      · intro total s _
        rfl

theorem skip_sound : ∀ (l : List Tok) (d : Nat) (r' : List Tok), skip (d + 1) l = .cl :: r' →
    ∃ body, l = body ++ .cl :: r' ∧ (∀ p, p <+: body → p.count .cl ≤ p.count .op + d) ∧
      body.count .cl = body.count .op + d
  | [], d, r', h => by simp [skip] at h
  | t :: l, d, r', h => by
    have hcons : ∀ (x : Tok) (body : List Tok) (P : List Tok → Prop), P [] → (∀ p, p <+: body → P (x :: p)) →
        ∀ p, p <+: x :: body → P p := by
      intro x body P h0 h1 p hp
      cases p with
      | nil => exact h0
      | cons y p =>
        obtain ⟨rfl, hp2⟩ := List.cons_prefix_cons.1 hp
        exact h1 p hp2
    by_cases hop : t = .op
    · subst hop
      simp only [skip] at h
      obtain ⟨body, rfl, h1, h2⟩ := skip_sound l (d + 1) r' h
      refine ⟨.op :: body, rfl, hcons _ _ _ (by simp) (fun p hp => ?_), ?_⟩
      · have := h1 p hp; simp; omega
      · simp; omega
    · by_cases hcl : t = .cl
      · subst hcl
        simp only [skip] at h
        by_cases hd : d = 0
        · subst hd
          simp at h
          subst h
          exact ⟨[], rfl, by simp, by simp⟩
        · rw [if_neg (by omega)] at h
          obtain ⟨d', rfl⟩ : ∃ d', d = d' + 1 := ⟨d - 1, by omega⟩
          obtain ⟨body, rfl, h1, h2⟩ := skip_sound l d' r' h
          refine ⟨.cl :: body, rfl, hcons _ _ _ (by simp) (fun p hp => ?_), ?_⟩
          · have := h1 p hp; simp; omega
          · simp; omega
      · have h' : skip (d + 1) l = .cl :: r' := by
          rw [← h]
          cases t <;> first | rfl | exact absurd rfl hop | exact absurd rfl hcl
        obtain ⟨body, rfl, h1, h2⟩ := skip_sound l d r' h'
        refine ⟨t :: body, rfl, hcons _ _ _ (by simp) (fun p hp => ?_), ?_⟩
        · have := h1 p hp
          simp [List.count_cons, hop, hcl]; omega
        · simp [List.count_cons, hop, hcl]; omega

theorem skip_complete : ∀ (body : List Tok) (d : Nat) (r' : List Tok),
    (∀ p, p <+: body → p.count .cl ≤ p.count .op + d) → body.count .cl = body.count .op + d →
    skip (d + 1) (body ++ .cl :: r') = .cl :: r'
  | [], d, r', _, h2 => by
    simp at h2; simp [skip, ← h2]
  | t :: body, d, r', h1, h2 => by
    have h1' : ∀ p, p <+: body → (t :: p).count .cl ≤ (t :: p).count .op + d :=
      fun p hp => h1 _ (List.cons_prefix_cons.2 ⟨rfl, hp⟩)
    by_cases hop : t = .op
    · subst hop
      simp only [skip, List.cons_append]
      refine skip_complete body (d + 1) r' (fun p hp => ?_) (by simp at h2; omega)
      have := h1' p hp; simp at this; omega
    · by_cases hcl : t = .cl
      · subst hcl
        have h0 := h1' [] (List.nil_prefix)
        simp at h0
        obtain ⟨d', rfl⟩ : ∃ d', d = d' + 1 := ⟨d - 1, by omega⟩
        simp only [skip, List.cons_append]
        rw [if_neg (by omega)]
        refine skip_complete body d' r' (fun p hp => ?_) (by simp at h2; omega)
        have := h1' p hp; simp at this; omega
      · have : skip (d + 1) (t :: body ++ .cl :: r') = skip (d + 1) (body ++ .cl :: r') := by
          cases t <;> first | rfl | exact absurd rfl hop | exact absurd rfl hcl
        rw [this]
        refine skip_complete body d r' (fun p hp => ?_) (by simpa [List.count_cons, hop, hcl] using h2)
        have := h1' p hp
        simpa [List.count_cons, hop, hcl] using this

theorem skip_suffix : ∀ (l : List Tok) (d : Nat), skip d l <:+ l
  | [], d => by simp [skip]
  | t :: l, d => by
    have h : ∀ d', skip d' l <:+ t :: l := fun d' => (skip_suffix l d').trans (List.suffix_cons _ _)
    unfold skip
    split
    · exact h _
    · split
      · exact List.suffix_refl _
      · exact h _
    · exact h _

theorem eff_one (c : Cfg) (l : List Tok) (s : St) (total : BitVec 32) (out : List Chunk) :
    Eff (Cond c l) s total { s with out := s.out ++ out } (total + 1#32) out 1 c.n :=
  ⟨rfl, fun _ => ⟨by simp only; ac_rfl, by simp only [BitVec.add_mul]; ac_rfl⟩⟩

theorem count32 (ll : BitVec 64) (h1 : -2 ^ 31 ≤ ll.toInt) (h2 : ll.toInt < 2 ^ 31) :
    ((ll.extractLsb' 0 32).msb = true ↔ ll.toInt < 0) ∧ (ll.extractLsb' 0 32 = 0#32 ↔ ll.toInt = 0) ∧
    (0 ≤ ll.toInt → ((ll.extractLsb' 0 32).toNat : Int) = ll.toInt) := by
  have hl := ll.isLt
  have e : (ll.extractLsb' 0 32).toNat = ll.toNat % 2 ^ 32 := by simp [BitVec.extractLsb'_toNat]
  have e0 : ll.extractLsb' 0 32 = 0#32 ↔ (ll.extractLsb' 0 32).toNat = 0 := by
    constructor
    · intro h; rw [h]; rfl
    · intro h; exact BitVec.eq_of_toNat_eq (by simpa using h)
  rw [BitVec.msb_eq_decide, e0, e, decide_eq_true_iff]
  rcases toInt_cases ll with ⟨a, b, -⟩ | ⟨a, b, -⟩ <;> omega

theorem init_cases (c : Cfg) (hs0 : c.inStruct = false) (hlit : c.lit = false) (h1 : 1 ≤ c.n) (hn : c.n < 2 ^ 32)
    (l : List Tok) (hok : LineOk c.n l)
    (ih : ∀ l', l' <:+ l → l'.length < l.length → (∃ r o k, InitsGood c l' r o k) ∨ InitsBad c l') :
    (∃ r o k, InitGood c l r o k) ∨ InitBad c l := by
  rcases l with _ | ⟨t, r⟩
  · right
    refine ⟨fun _ _ _ h => (by cases h), fun _ _ _ _ _ _ _ => ⟨_, items_nil ..⟩⟩
  by_cases hq : t = .question
  · subst hq
    left
    refine ⟨r, _, _, .undef, ?_, List.suffix_cons _ _, by simp, ?_⟩
    · intro rest' out' cnt' h
      cases h; exact ⟨rfl, rfl, rfl⟩
    · intro start dup total first s hd hl hsp
      refine ⟨_, _, _, by rw [items_question, question_more c hs0 hn _ _ _ _ _ _ hsp], eff_one ..⟩
  by_cases hdup : r.head? = some .dup
  · obtain ⟨r1, rfl⟩ : ∃ r1, r = .dup :: r1 := by
      cases r with
      | nil => simp at hdup
      | cons x r1 => simp at hdup; exact ⟨r1, by rw [hdup]⟩
    have hline := hok.2 [] t r1 rfl
    by_cases hk : ∃ k, t = .const k
    · obtain ⟨k, rfl⟩ := hk
      obtain ⟨-, hb1, hb2, hbn⟩ := (hline []).2 k rfl
      obtain ⟨c1, c2, c3⟩ := count32 k.ll hb1 hb2
      by_cases hneg : k.ll.toInt < 0
      · right
        refine ⟨fun _ _ _ h => ?_, fun _ _ _ _ _ _ _ => ⟨.negCount, by rw [items_dup, if_pos (c1.2 hneg)]⟩⟩
        cases h with
        | num h1 => simp at h1
        | dup m e => omega
        | dup0 e => omega
      have hmsb : ¬ (k.ll.extractLsb' 0 32).msb = true := fun h => hneg (c1.1 h)
      by_cases hop : r1.head? = some .op
      · obtain ⟨r2, rfl⟩ : ∃ r2, r1 = .op :: r2 := by
          cases r1 with
          | nil => simp at hop
          | cons x r1 => simp at hop; exact ⟨r1, by rw [hop]⟩
        have hsuf2 : r2 <:+ .const k :: .dup :: .op :: r2 := ⟨[.const k, .dup, .op], rfl⟩
        by_cases hz : k.ll.toInt = 0
        · have hv0 := c2.2 hz
          by_cases hcl : ∃ r', skip 1 r2 = .cl :: r'
          · obtain ⟨r', hr'⟩ := hcl
            obtain ⟨body, rfl, hb, hb'⟩ := skip_sound r2 0 r' hr'
            left
            refine ⟨r', [], 0, .dup0 hz ⟨by simpa using hb, by simpa using hb'⟩, ?_, ?_, ?_, ?_⟩
            · intro rest' out' cnt' h
              generalize hE : Tok.const k :: Tok.dup :: Tok.op :: (body ++ Tok.cl :: r') = L at h
              cases h with
              | undef => simp at hE
              | num h1 => simp at hE; rw [← hE.2] at h1; simp at h1
              | bytes => simp at hE
              | chars => simp at hE
              | addr => simp at hE
              | dup m e hm => simp at hE; obtain ⟨rfl, -⟩ := hE; omega
              | @dup0 k2 body2 r9 e hbal =>
                simp at hE
                have := skip_complete body2 0 rest' (by simpa using hbal.1) (by simpa using hbal.2)
                rw [← hE.2] at this
                have h2 := this.symm.trans hr'
                simp at h2
                exact ⟨h2, rfl, rfl⟩
            · exact ⟨.const k :: .dup :: .op :: (body ++ [.cl]), by simp⟩
            · simp; omega
            · intro start dup total first s hd hl hsp
              refine ⟨total, (dupFirst c 0#32 first (if c.label then { s with isarray := true } else s)).2,
                (dupFirst c 0#32 first (if c.label then { s with isarray := true } else s)).1, ?_, ?_⟩
              · rw [items_dup, if_neg hmsb]
                simp only [hv0, if_true, hr', dupPart]
              · have e0 : Eff (Cond c (.const k :: .dup :: .op :: (body ++ .cl :: r'))) s total s total [] 0 c.n :=
                  ⟨by simp, fun _ => by simp⟩
                refine e0.congr ⟨rfl, rfl, rfl⟩ ?_
                obtain ⟨a1, a2, a3⟩ := dupFirst_same c 0#32 first (if c.label then { s with isarray := true } else s)
                obtain ⟨b1, b2, b3⟩ := isarray_same c.label s
                exact ⟨a1.trans b1, a2.trans b2, a3.trans b3⟩
          · right
            refine ⟨fun _ _ _ h => ?_, fun start dup total first s hd hl => ⟨.expectedCl, ?_⟩⟩
            · generalize hE : Tok.const k :: Tok.dup :: Tok.op :: r2 = L at h
              cases h with
              | undef => simp at hE
              | num h1 => simp at hE; rw [← hE.2] at h1; simp at h1
              | bytes => simp at hE
              | chars => simp at hE
              | addr => simp at hE
              | dup m e hm => simp at hE; obtain ⟨rfl, -⟩ := hE; omega
              | @dup0 k2 body2 r9 e hbal =>
                simp at hE
                exact hcl ⟨_, by rw [hE.2]; exact skip_complete body2 0 _ (by simpa using hbal.1) (by simpa using hbal.2)⟩
            · rw [items_dup, if_neg hmsb]
              simp only [hv0, if_true, dupPart]
              split
              · rename_i r' h; exact absurd ⟨_, h⟩ hcl
              · rfl
        · have hv0 : ¬ k.ll.extractLsb' 0 32 = 0#32 := fun h => hz (c2.1 h)
          have hvv := c3 (by omega)
          have hmpos : 0 < (k.ll.extractLsb' 0 32).toNat := by omega
          obtain ⟨m, hm⟩ : ∃ m, (k.ll.extractLsb' 0 32).toNat = m + 1 := ⟨_, (Nat.succ_pred_eq_of_pos hmpos).symm⟩
          have hlim : (m + 1) * c.n < 2 ^ 32 := by
            rw [← hvv, hm] at hbn; exact_mod_cast hbn
          rcases ih r2 hsuf2 (by simp; omega) with ⟨rr, o, kk, hg⟩ | ⟨hno, hbad⟩
          · by_cases hcl : ∃ r', rr = .cl :: r'
            · obtain ⟨r', rfl⟩ := hcl
              left
              refine ⟨r', (List.replicate (m + 1) o).flatten, (m + 1) * kk,
                .dup (m + 1) (by rw [← hvv, hm]) (by omega) hg.1, ?_, ?_, ?_, ?_⟩
              · intro rest' out' cnt' h
                generalize hE : Tok.const k :: Tok.dup :: Tok.op :: r2 = L at h
                cases h with
                | undef => simp at hE
                | num h1 => simp at hE; rw [← hE.2] at h1; simp at h1
                | bytes => simp at hE
                | chars => simp at hE
                | addr => simp at hE
                | dup m' e hm' hI =>
                  simp at hE
                  obtain ⟨rfl, rfl⟩ := hE
                  obtain ⟨e1, rfl, rfl⟩ := hg.2.1 _ _ _ hI
                  simp at e1
                  have : m' = m + 1 := by omega
                  subst this
                  exact ⟨e1, rfl, rfl⟩
                | dup0 e => simp at hE; obtain ⟨rfl, -⟩ := hE; omega
              · exact (List.suffix_cons _ _).trans (hg.2.2.1.trans hsuf2)
              · have := hg.2.2.2.1; simp at this ⊢; omega
              · intro start dup total first s hd hl hsp
                obtain ⟨s', e', ho, hc⟩ := loop_good c hs0 hn r2 _ _ _ hg m 0#32 first
                  (if c.label then { s with isarray := true } else s) hlim
                refine ⟨total, (dupFirst c (k.ll.extractLsb' 0 32) first s').2,
                  (dupFirst c (k.ll.extractLsb' 0 32) first s').1, ?_, ?_⟩
                · rw [items_dup, if_neg hmsb]
                  simp only [hv0, if_false, hm, e']
                  rfl
                · obtain ⟨a1, a2, a3⟩ := dupFirst_same c (k.ll.extractLsb' 0 32) first s'
                  obtain ⟨b1, b2, b3⟩ := isarray_same c.label s
                  refine ⟨by rw [a1, ho, b1], fun hh => ?_⟩
                  obtain ⟨d1, d2⟩ := hc (hh.suffix hsuf2)
                  rw [a2, a3, d1, d2, b2, b3]
                  simp only [BitVec.zero_mul, BitVec.add_zero]
                  exact ⟨by ac_rfl, by ac_rfl⟩
            · right
              refine ⟨fun _ _ _ h => ?_, fun start dup total first s hd hl => ⟨.expectedCl, ?_⟩⟩
              · generalize hE : Tok.const k :: Tok.dup :: Tok.op :: r2 = L at h
                cases h with
                | undef => simp at hE
                | num h1 => simp at hE; rw [← hE.2] at h1; simp at h1
                | bytes => simp at hE
                | chars => simp at hE
                | addr => simp at hE
                | dup m' e hm' hI =>
                  simp at hE
                  obtain ⟨rfl, rfl⟩ := hE
                  obtain ⟨e1, -, -⟩ := hg.2.1 _ _ _ hI
                  exact hcl ⟨_, e1.symm⟩
                | dup0 e => simp at hE; obtain ⟨rfl, -⟩ := hE; omega
              · obtain ⟨s', e', ho, hc⟩ := loop_good c hs0 hn r2 _ _ _ hg m 0#32 first
                  (if c.label then { s with isarray := true } else s) hlim
                rw [items_dup, if_neg hmsb]
                simp only [hv0, if_false, hm, e']
                show dupPart c start _ dup total first (Except.ok (s', rr)) = _
                unfold dupPart
                simp only
                split
                · exact absurd ⟨_, rfl⟩ hcl
                · rfl
          · right
            refine ⟨fun _ _ _ h => ?_, fun start dup total first s hd hl => ?_⟩
            · generalize hE : Tok.const k :: Tok.dup :: Tok.op :: r2 = L at h
              cases h with
              | undef => simp at hE
              | num h1 => simp at hE; rw [← hE.2] at h1; simp at h1
              | bytes => simp at hE
              | chars => simp at hE
              | addr => simp at hE
              | dup m' e hm' hI =>
                simp at hE
                obtain ⟨rfl, rfl⟩ := hE
                exact hno _ _ _ hI
              | dup0 e => simp at hE; obtain ⟨rfl, -⟩ := hE; omega
            · obtain ⟨e, he⟩ := hbad r2 (m + 1) 0#32 first
                (if c.label then { s with isarray := true } else s) (by omega) (Nat.le_refl _)
              refine ⟨e, ?_⟩
              rw [items_dup, if_neg hmsb]
              simp only [hv0, if_false, hm, he]
              rfl
      · right
        refine ⟨fun _ _ _ h => ?_, fun start dup total first s hd hl => ⟨.expectedOp, ?_⟩⟩
        · generalize hE : Tok.const k :: Tok.dup :: r1 = L at h
          cases h with
          | undef => simp at hE
          | num h1 => simp at hE; rw [← hE.2] at h1; simp at h1
          | bytes => simp at hE
          | chars => simp at hE
          | addr => simp at hE
          | dup m' e hm' hI => simp at hE; rw [hE.2] at hop; simp at hop
          | dup0 e => simp at hE; rw [hE.2] at hop; simp at hop
        · rw [items_dup, if_neg hmsb]
          rcases r1 with _ | ⟨x, r1⟩
          · rfl
          · cases x <;> first | rfl | simp at hop
    · right
      have hcn : countOf t = none := by
        cases t with
        | const k => exact absurd ⟨k, rfl⟩ hk
        | str b => exact absurd rfl (hline b).1
        | _ => rfl
      refine ⟨fun _ _ _ h => ?_, fun start dup total first s hd hl => ⟨_, items_dup_none c start t r1 dup total first s hq hcn⟩⟩
      cases h with
      | undef => exact hq rfl
      | num h1 => simp at h1
      | bytes h1 => simp at h1
      | chars h1 => simp at h1
      | addr h1 => simp at h1
      | dup => exact hk ⟨_, rfl⟩
      | dup0 => exact hk ⟨_, rfl⟩
  · cases t with
    | question => exact absurd rfl hq
    | const k =>
      have h8 : c.n ≤ 8 → k.hl = 0#64 := fun h => hok.1 h k (by simp)
      rcases number_spec c k {} hs0 h1 h8 with ⟨hin, bs, hrep, -⟩ | ⟨hin, -⟩
      · left
        refine ⟨r, _, _, .num hdup hin hrep, ?_, List.suffix_cons _ _, by simp, ?_⟩
        · intro rest' out' cnt' h
          generalize hE : Tok.const k :: r = L at h
          cases h with
          | num h1 h2 h3 =>
            simp at hE
            obtain ⟨rfl, rfl⟩ := hE
            have : _ = _ := leVal_inj _ _ (h3.1.trans hrep.1.symm) (by have a := h3.2; have b := hrep.2; omega)
            rw [this]; exact ⟨rfl, rfl, rfl⟩
          | dup => simp at hE; rw [hE.2] at hdup; simp at hdup
          | dup0 => simp at hE; rw [hE.2] at hdup; simp at hdup
          | _ => simp at hE
        · intro start dup total first s hd hl hsp
          rcases number_spec c k s hs0 h1 h8 with ⟨-, bs', hrep', he⟩ | ⟨hin', -⟩
          · have : bs' = bs := leVal_inj _ _ (hrep'.1.trans hrep.1.symm) (by have a := hrep'.2; have b := hrep.2; omega)
            subst this
            refine ⟨total + 1#32, first, s.put bs', ?_, eff_one ..⟩
            rw [items_plain c start _ r dup total first s (by simp) hdup]
            simp only [plain, he]
          · exact absurd hin hin'
      · right
        refine ⟨fun _ _ _ h => ?_, fun start dup total first s hd hl => ?_⟩
        · generalize hE : Tok.const k :: r = L at h
          cases h with
          | num h1 h2 h3 =>
            simp at hE
            obtain ⟨rfl, rfl⟩ := hE
            exact hin h2
          | dup => simp at hE; rw [hE.2] at hdup; simp at hdup
          | dup0 => simp at hE; rw [hE.2] at hdup; simp at hdup
          | _ => simp at hE
        · rcases number_spec c k s hs0 h1 h8 with ⟨hin', -⟩ | ⟨-, e, he⟩
          · exact absurd hin' hin
          · refine ⟨e, ?_⟩
            rw [items_plain c start _ r dup total first s (by simp) hdup]
            simp only [plain, he]
    | str b =>
      have hspec := fun total first s => string_spec c hs0 hlit h1 b (.str b :: r) (by simp) total first s
      by_cases hb : b ≠ [] ∧ (c.n ≠ 1 → b.length ≤ c.n)
      · left
        simp only [if_pos hb] at hspec
        have hI : Init c.n (AddrOut c) (.str b :: r) r
            ((if c.n = 1 then b else b.reverse ++ List.replicate (c.n - b.length) 0#8).map .byte)
            (if c.n = 1 then b.length else 1) := by
          by_cases hn1 : c.n = 1
          · simp only [if_pos hn1]
            exact .bytes hdup hn1 hb.1
          · simp only [if_neg hn1]
            exact .chars hdup hn1 hb.1 (hb.2 hn1)
        refine ⟨r, _, _, hI, ?_, List.suffix_cons _ _, by simp, ?_⟩
        · intro rest' out' cnt' h
          cases h with
          | bytes h1 h2 h3 => simp [h2]
          | chars h1 h2 h3 => simp [h2]
        · intro start dup total first s hd hl hsp
          obtain ⟨s', t', f', e, hE⟩ := hspec total first s
          refine ⟨t', f', s', ?_, hE⟩
          rw [items_plain c start _ r dup total first s (by simp) hdup]
          simp only [plain, e]
      · right
        simp only [if_neg hb] at hspec
        refine ⟨fun _ _ _ h => ?_, fun start dup total first s hd hl => ?_⟩
        · cases h with
          | bytes h1 h2 h3 => exact hb ⟨h3, fun h => absurd h2 h⟩
          | chars h1 h2 h3 h4 => exact hb ⟨h3, fun _ => h4⟩
        · obtain ⟨e, he⟩ := hspec total first s
          refine ⟨e, ?_⟩
          rw [items_plain c start _ r dup total first s (by simp) hdup]
          simp only [plain, he]
    | addr a =>
      rcases address_spec c a with ⟨out, hA, hu, hrun⟩ | ⟨hno, hrun⟩
      · left
        refine ⟨r, out, 1, .addr hdup hA, ?_, List.suffix_cons _ _, by simp, ?_⟩
        · intro rest' out' cnt' h
          cases h with
          | addr h1 h2 => exact ⟨rfl, hu _ h2, rfl⟩
        · intro start dup total first s hd hl hsp
          refine ⟨total + 1#32, first, { s with out := s.out ++ out }, ?_, eff_one ..⟩
          rw [items_plain c start _ r dup total first s (by simp) hdup]
          simp only [plain, hrun total s hs0]
      · right
        refine ⟨fun _ _ _ h => ?_, fun start dup total first s hd hl => ?_⟩
        · cases h with
          | addr h1 h2 => exact hno _ h2
        · obtain ⟨e, he⟩ := hrun total s
          refine ⟨e, ?_⟩
          rw [items_plain c start _ r dup total first s (by simp) hdup]
          simp only [plain, he]
    | _ =>
      right
      refine ⟨fun _ _ _ h => (by cases h), fun start dup total first s hd hl => ⟨.syntaxErr, ?_⟩⟩
      rw [items_plain c start _ r dup total first s (by simp) hdup]
      rfl

theorem inits_cases (c : Cfg) (hs0 : c.inStruct = false) (hlit : c.lit = false) (h1 : 1 ≤ c.n) (hn : c.n < 2 ^ 32) :
    ∀ (k : Nat) (l : List Tok), l.length ≤ k → LineOk c.n l → (∃ r o k, InitsGood c l r o k) ∨ InitsBad c l
  | 0, l, hk, hok => by
    have ih : ∀ l', l' <:+ l → l'.length < l.length → (∃ r o k, InitsGood c l' r o k) ∨ InitsBad c l' :=
      fun l' _ h => by omega
    exact inits_of_init c l (init_cases c hs0 hlit h1 hn l hok ih) ih
  | k + 1, l, hk, hok => by
    have ih : ∀ l', l' <:+ l → l'.length < l.length → (∃ r o k, InitsGood c l' r o k) ∨ InitsBad c l' :=
      fun l' hs h => inits_cases c hs0 hlit h1 hn k l' (by omega) (hok.suffix hs)
    exact inits_of_init c l (init_cases c hs0 hlit h1 hn l hok ih) ih

end Verif.Data
