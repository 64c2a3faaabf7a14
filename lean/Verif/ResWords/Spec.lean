import Verif.ResWords.Model
/-!
# What a user expects of the keyword options

A keyword has a current name, may be disabled, and may be reserved for one of the two modes. Nothing
here mentions hash tables or chains.
-/

namespace Verif.ResWords

open Verif.Symbols (Name lower)

/-- The keywords as the user sees them. -/
structure Kw where
  /-- current spelling -/
  word : Tok → Name
  /-- switched off by OPTION NOKEYWORD -/
  off : Tok → Prop
  /-- 64-bit mode -/
  m64 : Bool
  /-- the keywords that currently have a name given by RENAMEKEYWORD, oldest first -/
  ren : List Tok

/-- Names are compared without regard to the case of ASCII letters. -/
def SameWord (a b : Name) : Prop := a.map lower = b.map lower

/-- `t` can be used: it is a keyword, not switched off, and belongs to the current mode. -/
def Kw.Avail (cfg : Cfg) (k : Kw) (t : Tok) : Prop :=
  0 < t ∧ t < cfg.count ∧ ¬ k.off t ∧ (cfg.x64 t = true → k.m64 = true) ∧
    (cfg.ia32 t = true → k.m64 = false)

/-- `r` is a correct answer to the question which keyword `n` is (0: none). -/
def Kw.Finds (cfg : Cfg) (k : Kw) (n : Name) (r : Tok) : Prop :=
  (r ≠ 0 ∧ k.Avail cfg r ∧ SameWord n (k.word r)) ∨
  (r = 0 ∧ ∀ t, k.Avail cfg t → ¬ SameWord n (k.word t))

/-- Program start: 16/32-bit mode, every keyword has its own name. -/
def Kw.init (cfg : Cfg) : Kw := ⟨cfg.keyword, fun _ => False, false, []⟩

/-- OPTION NOKEYWORD. -/
def Kw.disable (k : Kw) (t : Tok) : Kw := { k with off := fun u => u = t ∨ k.off u }

open Classical in
/-- OPTION RENAMEKEYWORD: the keyword is spelled `new` from now on (a change of case only is
ignored). -/
noncomputable def Kw.rename (cfg : Cfg) (k : Kw) (t : Tok) (new : Name) : Kw :=
  if SameWord new (k.word t) then k
  else { k with
    word := upd k.word t new
    ren := if t ∈ k.ren then (if new = cfg.keyword t then k.ren.filter (fun u => decide (u ≠ t)) else k.ren)
           else k.ren ++ [t] }

/-- Mode switch: the calling convention SYSCALL is called SYSCALL_ in 64-bit mode. -/
def Kw.set64 (cfg : Cfg) (k : Kw) (b : Bool) : Kw :=
  { k with m64 := b
           word := upd k.word cfg.sysTok (if b then cfg.strSyscall_ else cfg.keyword cfg.sysTok) }

/-- One operation with answer `r`. -/
inductive Kw.Step (cfg : Cfg) (k : Kw) : Op → Kw → Tok → Prop
  | find {n r} : k.Finds cfg n r → Kw.Step cfg k (.find n) k r
  | noKeyword {n r} : k.Finds cfg n r → r ≠ 0 → Kw.Step cfg k (.noKeyword n) (k.disable r) r
  | noKeyword0 {n} : k.Finds cfg n 0 → Kw.Step cfg k (.noKeyword n) k 0
  | rename {old new r} : k.Finds cfg old r → r ≠ 0 → Kw.Step cfg k (.rename old new) (k.rename cfg r new) r
  | rename0 {old new} : k.Finds cfg old 0 → Kw.Step cfg k (.rename old new) k 0
  | set64 {b} : Kw.Step cfg k (.set64 b) (k.set64 cfg b) 0

/-- A history with its answers. -/
inductive Kw.Run (cfg : Cfg) : Kw → List Op → Kw → List Tok → Prop
  | nil {k} : Kw.Run cfg k [] k []
  | cons {k o os k' k'' r rs} : k.Step cfg o k' r → Kw.Run cfg k' os k'' rs →
      Kw.Run cfg k (o :: os) k'' (r :: rs)

/-- Operations for which the code is correct: SYSCALL is neither renamed nor disabled, and a keyword
that already carries a user-defined name is renamed again only if it was the first to be renamed. -/
def Kw.SafeOp (cfg : Cfg) (k : Kw) : Op → Prop
  | .find _ => True
  | .noKeyword n => ¬ k.Finds cfg n cfg.sysTok
  | .rename old new => ¬ k.Finds cfg old cfg.sysTok ∧
      ∀ r, k.Finds cfg old r → r ≠ 0 → r ∈ k.ren → ¬ SameWord new (k.word r) → k.ren.head? = some r
  | .set64 _ => True

/-- Every operation of the history is safe, whatever the answers before. -/
def Kw.Safe (cfg : Cfg) (k : Kw) : List Op → Prop
  | [] => True
  | o :: os => k.SafeOp cfg o ∧ ∀ k' r, k.Step cfg o k' r → k'.Safe cfg os

/-- Consistency of the constant tables: the patch tables list exactly the words with the mode flags,
each once; SYSCALL exists in both modes. -/
structure Cfg.Ok (cfg : Cfg) : Prop where
  p64 : ∀ t, t ∈ cfg.patch64 ↔ 0 < t ∧ t < cfg.count ∧ cfg.x64 t = true
  p32 : ∀ t, t ∈ cfg.patch32 ↔ 0 < t ∧ t < cfg.count ∧ cfg.ia32 t = true
  n64 : cfg.patch64.Nodup
  n32 : cfg.patch32.Nodup
  disj : ∀ t, cfg.x64 t = true → cfg.ia32 t = true → False
  sys : 0 < cfg.sysTok ∧ cfg.sysTok < cfg.count ∧ cfg.x64 cfg.sysTok = false ∧ cfg.ia32 cfg.sysTok = false
  sysLen : cfg.strSyscall_.length = (cfg.keyword cfg.sysTok).length + 1

end Verif.ResWords
