import Verif.MacroRun.Props
/-! # C75: a macro with a loop and an EXITM inside of an IF block -/
namespace Verif.MacroRun.Examples
open Verif.MacroRun Verif.CondAsm

/-- The state is a counter that line 0 increments; expression `e` is "counter below e". -/
def W : World Nat where
  assemble := fun w n => if n = 0 then w + 1 else w
  evalNum := fun w e => .const (if w < e then 1 else 0)
  isDefined := fun _ _ => false
  setif2 := fun _ => false
  garbage := fun _ => .done

def below (e : Nat) : Cond := ⟨.num false, .expr e, false⟩

/-- `:again` / line 0 / IF below 3 / GOTO AGAIN / ENDIF / IF below 9 / EXITM / ENDIF / line 5 -/
def prog : Code :=
  .label [' '] "again".toList [' ', ';'] (.line 0 (.block (below 3) (.goto "AGAIN".toList .nil) .endif
    (.block (below 9) (.exitm .nil) .endif (.line 5 .nil))))

def rest3 : Code := .block (below 3) (.goto "AGAIN".toList .nil) .endif
    (.block (below 9) (.exitm .nil) .endif (.line 5 .nil))

def ev (b : Bool) : List MacroRun.Event := .cond (.asm 0) :: .cond (.eval (below 3)) :: if b then [.cond (.eval (below 9))] else []

theorem wf : prog.WF :=
  ⟨by decide, by decide, by decide, by intro c h; simp at h; subst h; decide, by decide, by decide, by decide, by decide, trivial⟩

theorem names : prog.gotoNames := ⟨⟨by decide, trivial⟩, trivial, trivial, trivial, trivial⟩

/-- three rounds, then EXITM: line 5 is not assembled -/
theorem runs : Runs W prog 0 prog 3 (ev false ++ (ev false ++ ev true)) true :=
  .jump (w' := 1) (l := "AGAIN".toList) (c' := .line 0 rest3) (by decide +kernel) rfl
    (.jump (w' := 2) (l := "AGAIN".toList) (c' := .line 0 rest3) (by decide +kernel) rfl
      (.exitm (by decide +kernel)))

/-- called inside of two IF blocks, one of them in its ELSE part -/
def s0 : State := ⟨.active, 2, 0, 2#32⟩

/-- the hypotheses of `C75_run` are met -/
theorem run : ∃ N s', SameBlocks s0 s' ∧
    ∀ n, N ≤ n → runMacro W n prog.flat (s0, 0) = some ((s', 3), ev false ++ (ev false ++ ev true), true) :=
  C75_run W prog wf names s0 rfl rfl (by decide) 0 3 _ true runs

theorem always (c : Code) (h : c = prog ∨ c = .line 0 rest3) (w : Nat) : (c.exec W w).isSome = true := by
  have t3 : truth W (w + 1) (below 3) = some (decide (w + 1 < 3)) := by
    by_cases h : w + 1 < 3 <;> simp [truth, below, W, h]
  have t9 : truth W (w + 1) (below 9) = some (decide (w + 1 < 9)) := by
    by_cases h : w + 1 < 9 <;> simp [truth, below, W, h]
  have ha : W.assemble w 0 = w + 1 := rfl
  have key : (Code.exec W w (.line 0 rest3)).isSome = true := by
    simp only [Code.exec, rest3, Alts.exec, ha, t3, t9, Option.bind_some]
    by_cases h3 : w + 1 < 3 <;> by_cases h9 : w + 1 < 9 <;> simp [h3, h9, t9]
  rcases h with rfl | rfl
  · exact key
  · exact key

/-- and those of `C75_converse` -/
theorem converse (n : Nat) (s' : State) (w' : Nat) (e : List MacroRun.Event) (x : Bool)
    (h : runMacro W n prog.flat (s0, 0) = some ((s', w'), e, x)) : SameBlocks s0 s' ∧ Runs W prog 0 prog w' e x := by
  refine C75_converse W prog wf names s0 rfl rfl (by decide) 0 w' s' e x n (always _ (.inl rfl) 0) (fun l c hb w => always c ?_ w) h
  simp only [prog, Code.behind] at hb
  split at hb
  · simp only [Option.some.injEq] at hb; exact .inr hb.symm
  · simp at hb

end Verif.MacroRun.Examples
