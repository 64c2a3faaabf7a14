import Verif.Call.Props
/-! # The hypotheses of C74 are met -/
namespace Verif.Call
open Verif.Loop (Text isSpace nul)

/-- `m (a b) , f(x, g( y )) <l,m> , z!,` for two parameters and VARARG -/
def exArgs : Args :=
  .more (.cons (.paren [] (.cons (.item ['a'] [' ']) (.cons (.ident ['b'] []) .nil)) [' ']) .nil) [' ']
    (.more (.cons (.call ['f'] [] [] (.more (.cons (.item ['x'] []) .nil) [' ']
        (.one (.cons (.call ['g'] [] [' '] (.one (.cons (.ident ['y'] [' ']) .nil)) []) .nil))) [' '])
        (.cons (.lit ['l', ',', 'm'] [' ']) .nil)) [' ']
      (.more .nil [] (.one (.cons (.bare [(false, 'z'), (true, ',')] []) .nil))))

theorem exArgs_wf : exArgs.WF := by
  simp [exArgs, Args.WF, Pieces.WF, Piece.WF, Solid, Blanks, written, isSpace]

theorem exArgs_call : callStmt W0 (mac false true [opt, opt, opt]) [] exArgs [] =
    .ok [(['g'], [['y']]), (['f'], [['x'], ['r']]),
      (['m'], [['(', 'a', ' ', 'b', ')'], ['r', ' ', 'l', ',', 'm'], [',', 'z', ',']])] := by rfl

example : ∃ N, ∀ n, N ≤ n → runStmt W0 n (mac false true [opt, opt, opt]) [] [] (exArgs.toks []) =
    .ok [(['g'], [['y']]), (['f'], [['x'], ['r']]),
      (['m'], [['(', 'a', ' ', 'b', ')'], ['r', ' ', 'l', ',', 'm'], [',', 'z', ',']])] := by
  have := C74_statement_partial W0 (mac false true [opt, opt, opt]) [] exArgs [] exArgs_wf rfl (by rw [exArgs_call]; simp)
  rwa [exArgs_call] at this

/-- the same arguments in a call of a macro function for two parameters: surplus arguments -/
example : ∃ N, ∀ n, N ≤ n → run W0 n (mac true false [opt, opt]) [] [] (.lpar [] :: exArgs.toks (.rpar [] :: [.item ['+'] []])) =
    .ok ([(['g'], [['y']]), (['f'], [['x'], ['r']]), (['W', 'm'], []),
      (['m'], [['(', 'a', ' ', 'b', ')'], ['r', ' ', 'l', ',', 'm']])], ['r'], [], [.item ['+'] []]) := by
  have h : callFunc W0 (mac true false [opt, opt]) [] exArgs [] =
    .ok ([(['g'], [['y']]), (['f'], [['x'], ['r']]), (['W', 'm'], []),
      (['m'], [['(', 'a', ' ', 'b', ')'], ['r', ' ', 'l', ',', 'm']])], ['r']) := by rfl
  have := C74_function_partial W0 (mac true false [opt, opt]) [] exArgs [] [] [] [.item ['+'] []] exArgs_wf rfl (by rw [h]; simp)
  rwa [h] at this

/-- `m 1 , 2` for three parameters, the last with a default -/
example : ∃ N, ∀ n, N ≤ n → runStmt W0 n (mac false false [⟨true, none⟩, opt, ⟨false, some ['d']⟩]) [] []
    [.item ['1'] [' '], .comma [' '], .item ['2'] []] = .ok [(['m'], [['1'], ['2'], ['d']])] := by
  have := C74_simple W0 (mac false false [⟨true, none⟩, opt, ⟨false, some ['d']⟩]) (['1'], [' ']) [(['2'], [])] []
    (by simp [Solid, Blanks, isSpace]) rfl rfl rfl rfl (by decide) (by decide) (by simp [mac])
  exact this

end Verif.Call
