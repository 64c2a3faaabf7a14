import Verif.Switch.Tree
namespace Verif.Switch

variable {σ : Type} {env : Env} {m : Mode} {prog : List (Line σ)}

/-- LTOP, LJUMP, LSKIP and LCONT are where `.ENDSWITCH` puts them -/
structure TreeAt (m : Mode) (dl : Lbl) (prog : List (Line σ)) (rt rj rc : List (Line σ)) : Prop where
  top : after .top prog = some ((treeTop m).map .ins ++ rt)
  jump : after .jump prog = some ((treeJump m).map .ins ++ rj)
  skip : after .skip prog = some ((treeSkip m).map .ins ++ .lab .cont :: ((treeCont m dl).map .ins ++ rc))
  cont : after .cont prog = some ((treeCont m dl).map .ins ++ rc)

theorem sorted_get (c : List (Int × Nat)) (h : c.Pairwise (fun a b => a.1 < b.1)) (i j : Nat) (hij : i < j) (a b : Int × Nat)
    (ha : c[i]? = some a) (hb : c[j]? = some b) : a.1 < b.1 := by
  obtain ⟨h1, rfl⟩ := List.getElem?_eq_some_iff.mp ha
  obtain ⟨h2, rfl⟩ := List.getElem?_eq_some_iff.mp hb
  exact List.pairwise_iff_getElem.mp h i j h1 h2 hij

theorem search (hl : Layout env prog) (dl : Lbl) (c : List (Int × Nat)) (hg : Good c) (hn : c.length < 1073741824)
    (hp : PlacedAt env m (c.map fun x => .case x.2) (c.map fun x => wrap32 x.1) (if m = .m64q then 8 else 4))
    (rt rj rc : List (Line σ)) (ha : TreeAt m dl prog rt rj rc)
    (hc : ∀ x ∈ c, ∃ r, after (.case x.2) prog = some r) (rd : List (Line σ)) (hd : after dl prog = some rd)
    (s : St σ) (v : Int) (hv : sgn (opW m) (keyOf m s) = v) (k : Nat) :
    ∀ (lo hi : Nat) (ax dx : BitVec 64) (fl : Int × Int), hi - lo ≤ k → lo < hi → hi ≤ c.length →
      (m.is64 = true → dx = s.r .dx) →
      (∀ i x, c[i]? = some x → i < lo → x.1 < v) → (∀ i x, c[i]? = some x → hi ≤ i → v < x.1) →
      ∃ r, after (tgt dl c v) prog = some r ∧ ∃ fl', Reach env m prog
        ((treeTop m).map .ins ++ rt,
          tst s (saved m s) (BitVec.ofNat 64 lo) (BitVec.ofNat 64 (hi - 1)) ax dx (keyOf m s) (diOf env m) fl)
        (strip r, { s with fl := fl' }) := by
  induction k with
  | zero => intro lo hi ax dx fl h1 h2; omega
  | succ k ih =>
    intro lo hi ax dx fl h1 h2 h3 hdx i1 i2
    have hmid : (lo + (hi - 1)) / 2 < c.length := by omega
    have hml : lo ≤ (lo + (hi - 1)) / 2 := by omega
    have hmh : (lo + (hi - 1)) / 2 < hi := by omega
    obtain ⟨dx', hdx', htop⟩ := treeTop_spec (prog := prog) hp s (saved m s) lo (hi - 1) (by omega) ax dx (keyOf m s) fl
      (c[(lo + (hi - 1)) / 2].1) (by
        rw [List.getElem?_map, List.getElem?_eq_getElem hmid]
        simp [wrap32_id _ (hg.rng _ (List.getElem_mem hmid))])
      (hg.rng _ (List.getElem_mem hmid)) rt
    have hdx2 : m.is64 = true → dx' = s.r .dx := fun h => (hdx' h).trans (hdx h)
    rw [hv] at htop
    have hx : c[(lo + (hi - 1)) / 2]? = some c[(lo + (hi - 1)) / 2] := List.getElem?_eq_getElem hmid
    generalize c[(lo + (hi - 1)) / 2] = x at hx htop
    generalize (lo + (hi - 1)) / 2 = mid at *
    -- LCONT
    have cont : ∀ (lo' hi' : Nat) (bx ax : BitVec 64) (fl : Int × Int), hi' - lo' < hi - lo → hi' ≤ c.length → lo' ≤ c.length →
        bx = rv m ((hi' : Int) - 1) →
        (∀ i x, c[i]? = some x → i < lo' → x.1 < v) → (∀ i x, c[i]? = some x → hi' ≤ i → v < x.1) →
        ∃ r, after (tgt dl c v) prog = some r ∧ ∃ fl', Reach env m prog
          ((treeCont m dl).map .ins ++ rc,
            tst s (saved m s) (BitVec.ofNat 64 lo') bx ax dx' (keyOf m s) (diOf env m) fl)
          (strip r, { s with fl := fl' }) := by
      intro lo' hi' bx ax fl h1' h3' hlc hbx j1 j2
      have slo : sgn (opW m) (BitVec.ofNat 64 lo') = lo' := by
        rw [← rv_nat m lo' (by omega)]; exact sgn_rv m _ (by omega)
      have shi : sgn (opW m) bx = (hi' : Int) - 1 := by
        rw [hbx]; exact sgn_rv m _ (by omega)
      by_cases hgo : lo' < hi'
      · obtain ⟨fl1, hr1⟩ := treeCont_on (env := env) (prog := prog) dl s (saved m s) (BitVec.ofNat 64 lo') bx ax dx' (keyOf m s) (diOf env m) fl
          (by rw [slo, shi]; omega) _ rc ha.top
        have hb : bx = BitVec.ofNat 64 (hi' - 1) := by
          rw [hbx, ← rv_nat m (hi' - 1) (by omega)]; congr 1; omega
        obtain ⟨r, hr, fl', hre⟩ := ih lo' hi' ax dx' fl1 (by omega) hgo h3' hdx2 j1 j2
        rw [← hb] at hre
        exact ⟨r, hr, fl', hr1.trans hre⟩
      · obtain ⟨fl1, hr1⟩ := treeCont_off (env := env) (prog := prog) dl s (BitVec.ofNat 64 lo') bx ax dx' (keyOf m s) (diOf env m) fl hdx2
          (by rw [slo, shi]; omega) rd rc hd
        have e : tgt dl c v = dl := by
          unfold tgt
          rw [find_none c v]
          intro l hml
          obtain ⟨i, hi0, hi1⟩ := List.mem_iff_getElem.mp hml
          have hi2 : c[i]? = some (v, l) := by rw [List.getElem?_eq_getElem hi0, hi1]
          by_cases hil : i < lo'
          · have := j1 i _ hi2 hil; simp only at this; omega
          · have := j2 i _ hi2 (by omega); simp only at this; omega
        rw [e]
        exact ⟨rd, hd, fl1, hr1.trans (reach_strip _ _)⟩
    by_cases he : x.1 = v
    · -- found
      have e : tgt dl c v = .case x.2 := by
        unfold tgt
        rw [← he, find_mem c hg.asc x (List.mem_of_getElem? hx)]
      rw [e]
      obtain ⟨r, hr⟩ := hc x (List.mem_of_getElem? hx)
      refine ⟨r, hr, (x.1, v), htop.trans (Reach.head (step_jcc_t (by simp [holds, tst, he]) ha.jump) ?_)⟩
      exact treeJump_spec hl hp s _ _ dx' _ _ _ hdx2 mid (.case x.2) (by rw [List.getElem?_map, hx]; rfl) r hr rj
    · by_cases hgt : v < x.1
      · obtain ⟨r, hr, fl', hre⟩ := cont lo mid (rv m ((mid : Int) - 1)) (BitVec.ofNat 64 mid) (x.1, v) (by omega) (by omega) (by omega) rfl i1
          (by
            intro i y hy hi'
            by_cases him : i = mid
            · subst him; rw [hx] at hy; cases hy; exact hgt
            · have := sorted_get c hg.asc mid i (by omega) x y hx hy; omega)
        refine ⟨r, hr, fl', htop.trans (Reach.head (step_jcc_f (by simp [holds, tst, he])) (Reach.head (step_jcc_t (by simp [holds, tst]; omega) ha.skip) ?_))⟩
        exact (treeSkip_spec s _ _ _ dx' _ _ mid _ _).trans (Reach.head rfl hre)
      · have hlt : x.1 < v := by omega
        obtain ⟨r, hr, fl', hre⟩ := cont (mid + 1) hi (BitVec.ofNat 64 (hi - 1)) (BitVec.ofNat 64 mid) (x.1, v) (by omega) h3 (by omega)
          (by rw [← rv_nat m (hi - 1) (by omega)]; congr 1; omega)
          (by
            intro i y hy hi'
            by_cases him : i = mid
            · subst him; rw [hx] at hy; cases hy; exact hlt
            · have := sorted_get c hg.asc i mid (by omega) y x hy hx; omega) i2
        refine ⟨r, hr, fl', htop.trans (Reach.head (step_jcc_f (by simp [holds, tst, he])) (Reach.head (step_jcc_f (by simp [holds, tst]; omega)) ?_))⟩
        exact Reach.head (up_spec s _ _ _ dx' _ _ mid (by omega) _ _) (Reach.head (step_jmp ha.cont) hre)

theorem tree_spec (hl : Layout env prog) (dl : Lbl) (c : List (Int × Nat)) (hg : Good c) (hne : c ≠ []) (hn : c.length < 1073741824)
    (hp : PlacedAt env m (c.map fun x => .case x.2) (c.map fun x => wrap32 x.1) (if m = .m64q then 8 else 4))
    (rt rj rc : List (Line σ)) (ha : TreeAt m dl prog rt rj rc)
    (hc : ∀ x ∈ c, ∃ r, after (.case x.2) prog = some r) (rd : List (Line σ)) (hd : after dl prog = some rd)
    (s : St σ) :
    Goes env m prog ((treeInit m dl c.length).map .ins ++ .lab .top :: ((treeTop m).map .ins ++ rt)) s
      (tgt dl c (sgn (opW m) (s.r .ax))) := by
  have hlen : 0 < c.length := List.length_pos_iff.mpr hne
  obtain ⟨r, hr, fl', h⟩ := search hl dl c hg hn hp rt rj rc ha hc rd hd s _ (sgn_key s) c.length 0 c.length (s.r .ax) (s.r .dx) (0, 0)
    (by omega) hlen (Nat.le_refl _) (fun _ => rfl) (by intros; omega) (by
      intro i x hx hi
      obtain ⟨h, _⟩ := List.getElem?_eq_some_iff.mp hx
      omega)
  refine ⟨r, hr, s.r .ax, fl', ?_⟩
  rw [set_ax_self]
  exact (treeInit_spec dl c.length hlen hn _ s).trans (Reach.head rfl h)

end Verif.Switch
