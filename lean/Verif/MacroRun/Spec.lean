import Verif.MacroRun.Model
import Verif.CondAsm.Spec
/-!
# Macros as structured programs

A macro is a row of statements; IF blocks are trees. GOTO labels stand outside of all IF blocks. The meaning of a macro is the
obvious one: statements one after the other, GOTO goes on behind its label, EXITM ends the macro.
-/
namespace Verif.MacroRun
open Verif.CondAsm (State Dir Cond World truth)

mutual
inductive Code
  | nil
  | line (n : Nat) (rest : Code)
  | exitm (rest : Code)
  | goto (l : Text) (rest : Code)
  /-- `: name` with blanks `bl` in front of the name and a text `more` behind it -/
  | label (bl name more : Text) (rest : Code)
  | block (c : Cond) (body : Code) (alts : Alts) (rest : Code)
inductive Alts
  | endif
  | els (body : Code)
  | elseif (c : Cond) (body : Code) (alts : Alts)
end

mutual
/-- The lines. -/
def Code.flat : Code → List Line
  | .nil => []
  | .line n r => .cond (.plain n) :: r.flat
  | .exitm r => .exitm :: r.flat
  | .goto l r => .goto l :: r.flat
  | .label bl name more r => .label (bl ++ name ++ more) :: r.flat
  | .block c b a r => .cond (.dir (.ifx c)) :: (b.flat ++ (a.flat ++ r.flat))
def Alts.flat : Alts → List Line
  | .endif => [.cond (.dir (.endif false))]
  | .els b => .cond (.dir (.els false)) :: (b.flat ++ [.cond (.dir (.endif false))])
  | .elseif c b a => .cond (.dir (.elseifx c)) :: (b.flat ++ a.flat)
end

mutual
/-- Nesting depth of IF blocks. -/
def Code.depth : Code → Nat
  | .nil => 0
  | .line _ r => r.depth
  | .exitm r => r.depth
  | .goto _ r => r.depth
  | .label _ _ _ r => r.depth
  | .block _ b a r => max (1 + max b.depth a.depth) r.depth
def Alts.depth : Alts → Nat
  | .endif => 0
  | .els b => b.depth
  | .elseif _ b a => max b.depth a.depth
end

mutual
/-- No labels. -/
def Code.noLabels : Code → Bool
  | .nil => true
  | .line _ r => r.noLabels
  | .exitm r => r.noLabels
  | .goto _ r => r.noLabels
  | .label _ _ _ _ => false
  | .block _ b a r => b.noLabels && a.noLabels && r.noLabels
def Alts.noLabels : Alts → Bool
  | .endif => true
  | .els b => b.noLabels
  | .elseif _ b a => b.noLabels && a.noLabels
end

mutual
/-- The operands of GOTO are identifiers. -/
def Code.gotoNames : Code → Prop
  | .nil => True
  | .line _ r => r.gotoNames
  | .exitm r => r.gotoNames
  | .goto l r => (∀ c ∈ l, isIdChar c = true) ∧ r.gotoNames
  | .label _ _ _ r => r.gotoNames
  | .block _ b a r => b.gotoNames ∧ a.gotoNames ∧ r.gotoNames
def Alts.gotoNames : Alts → Prop
  | .endif => True
  | .els b => b.gotoNames
  | .elseif _ b a => b.gotoNames ∧ a.gotoNames
end

/-- Labels are outside of IF blocks, their names are identifiers that end where the name ends. -/
def Code.WF : Code → Prop
  | .nil => True
  | .line _ r => r.WF
  | .exitm r => r.WF
  | .goto _ r => r.WF
  | .label bl name more r =>
    (∀ c ∈ bl, isSpace c = true) ∧ (∀ c ∈ name, isIdChar c = true) ∧ name ≠ [] ∧
      (∀ c, more.head? = some c → isIdChar c = false) ∧ r.WF
  | .block _ b a r => b.noLabels = true ∧ a.noLabels = true ∧ r.WF

mutual
/-- Big-step meaning up to the next jump. `none` if an unacceptable condition is met. -/
def Code.exec {σ : Type} (W : World σ) (w : σ) : Code → Option (σ × List Event × Ctl)
  | .nil => some (w, [], .done)
  | .line n r => (r.exec W (W.assemble w n)).bind fun (w', ev, c) => some (w', .cond (.asm n) :: ev, c)
  | .exitm _ => some (w, [], .exitm)
  | .goto l _ => some (w, [], .goto l)
  | .label _ _ _ r => r.exec W w
  | .block c b a r =>
    (truth W w c).bind fun t =>
    (if t then b.exec W w else a.exec W w).bind fun (w', ev, k) =>
    match k with
    | .done => (r.exec W w').bind fun (w'', ev', k') => some (w'', .cond (.eval c) :: (ev ++ ev'), k')
    | k => some (w', .cond (.eval c) :: ev, k)
def Alts.exec {σ : Type} (W : World σ) (w : σ) : Alts → Option (σ × List Event × Ctl)
  | .endif => some (w, [], .done)
  | .els b => b.exec W w
  | .elseif c b a =>
    (truth W w c).bind fun t =>
    (if t then b.exec W w else a.exec W w).bind fun (w', ev, k) => some (w', .cond (.eval c) :: ev, k)
end

/-- Macro labels are not case sensitive. -/
def sameName (a b : Text) : Bool := a.map lower == b.map lower

/-- What stands behind the first label with this name. -/
def Code.behind (l : Text) : Code → Option Code
  | .nil => none
  | .line _ r => r.behind l
  | .exitm r => r.behind l
  | .goto _ r => r.behind l
  | .label _ name _ r => if sameName name l then some r else r.behind l
  | .block _ _ _ r => r.behind l

/-- `Runs W prog w c w' ev x`: the macro `prog`, from the statements `c` on, ends in the state `w'` with the events `ev`; `x`: by
EXITM. -/
inductive Runs {σ : Type} (W : World σ) (prog : Code) : σ → Code → σ → List Event → Bool → Prop
  | done {w c w' ev} : c.exec W w = some (w', ev, .done) → Runs W prog w c w' ev false
  | exitm {w c w' ev} : c.exec W w = some (w', ev, .exitm) → Runs W prog w c w' ev true
  | jump {w c w' ev l c' w'' ev' x} : c.exec W w = some (w', ev, .goto l) → prog.behind l = some c' →
      Runs W prog w' c' w'' ev' x → Runs W prog w c w'' (ev ++ ev') x
  | noLabel {w c w' ev l} : c.exec W w = some (w', ev, .goto l) → prog.behind l = none →
      Runs W prog w c w' (ev ++ [.noLabel l]) false

/-- The IF blocks that are open are the same: the line behind the macro call is treated as if the macro had not used
conditional assembly at all. -/
def SameBlocks (s s' : State) : Prop :=
  s'.curr = .active ∧ s'.lvl = s.lvl ∧ s'.falseLvl = 0 ∧ ∀ i < s.lvl, s'.elseBits.getLsbD i = s.elseBits.getLsbD i

end Verif.MacroRun
