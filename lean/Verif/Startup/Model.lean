import Verif.Cpu.Model
/-!
# Model of `.MODEL` (`/repo/cpumodel.c` 95-351) and of `.STARTUP` and `.EXIT` (`/repo/end.c` 44-187)

Not modelled: a second `.MODEL` (a warning only), the segments, ASSUMEs and groups that `.MODEL` creates, the options `-nt`, `-nd`.
-/
namespace Verif.Startup
open Verif.Cpu

abbrev Text := List Char

/-- `_stricmp( a, b ) == 0` -/
def ieq (a b : Text) : Bool := a.map Char.toLower == b.map Char.toLower

/-- FindToken, cpumodel.c 80-91 -/
def findToken (t : Text) : List Text → Option Nat
  | [] => none
  | x :: r => if ieq x t then some 0 else (findToken t r).map (· + 1)

/-- `ModelToken`, cpumodel.c 46-47 -/
def modelTokens : List Text :=
  ["TINY".toList, "SMALL".toList, "COMPACT".toList, "MEDIUM".toList, "LARGE".toList, "HUGE".toList, "FLAT".toList]

/-- `ModelAttr`, cpumodel.c 58-59 -/
def modelAttrs : List Text := ["NEARSTACK".toList, "FARSTACK".toList, "OS_OS2".toList, "OS_DOS".toList]

inductive Dist | near | far deriving DecidableEq, Repr
inductive Os | dos | os2 deriving DecidableEq, Repr

inductive AttrVal
  | stack (d : Dist)
  | os (o : Os)
  deriving DecidableEq, Repr

/-- `ModelAttrValue`, cpumodel.c 61-66 -/
def modelAttrValues : List AttrVal := [.stack .near, .stack .far, .os .dos, .os .os2]

/-- A token: a comma, a reserved word from `C` to `BORLAND` with its `bytval` (GetLangType, parser.c 199-209), anything else. -/
inductive Tok
  | comma
  | lang (l : Nat) (t : Text)
  | word (t : Text)
  deriving DecidableEq, Repr

/-- `string_ptr` -/
def Tok.str : Tok → Text
  | .comma => [',']
  | .lang _ t => t
  | .word t => t

inductive Err | expectedModel | syntax | notForFlat | cpu
  deriving DecidableEq, Repr

/-- the arguments found: `init`, `language`, `distance`, `ostype` -/
structure Found where
  lang : Option Nat := none
  dist : Option Dist := none
  os : Option Os := none
  deriving DecidableEq, Repr

/-- the loop over the optional arguments, cpumodel.c 285-325 -/
def parseArgs (flat : Bool) : List Tok → Found → Except Err Found
  | [], f => .ok f
  | .comma :: [], _ => .error .syntax
  | .comma :: .comma :: t, f => parseArgs flat (.comma :: t) f
  | .comma :: .lang l _ :: t, f => if f.lang.isSome then .error .syntax else parseArgs flat t { f with lang := some l }
  | .comma :: .word w :: t, f =>
    match (findToken w modelAttrs).bind (fun i => modelAttrValues[i]?) with
    | none => .error .syntax
    | some (.stack d) =>
      if flat then .error .notForFlat
      else if f.dist.isSome then .error .syntax
      else parseArgs flat t { f with dist := some d }
    | some (.os o) => if f.os.isSome then .error .syntax else parseArgs flat t { f with os := some o }
  | _ :: _, _ => .error .syntax

/-- Values of predefined symbols. -/
inductive Val | num (n : Nat) | text (t : Text)
  deriving DecidableEq, Repr

/-- `ModuleInfo`; `elf`: the output format is ELF. -/
structure Info where
  curr : Cpu.Info
  seg : Option Ofs
  name : Text
  elf : Bool
  model : Nat := 0
  lang : Nat
  dist : Dist
  os : Os
  defOfs : Ofs
  win64 : Bool := false
  syms : List (Text × Val) := []
  deriving DecidableEq, Repr

/-- `SIZE_CODEPTR & ( 1 << model )`, H/globals.h 333 -/
def farCodeBit (model : Nat) : Bool := decide (0x70 &&& (1 <<< model) ≠ 0)

/-- SetModelDefaultSegNames, simsegm.c 352-377: the name of the code segment -/
def codeSeg (i : Info) : Text := if farCodeBit i.model then i.name ++ "_TEXT".toList else "_TEXT".toList

/-- SetModel, cpumodel.c 139-165: the offset size and the 64-bit calling convention -/
def setModelModes (i : Info) : Info :=
  if i.model = 7 then
    let i1 := if i.seg = none then { i with defOfs := if P_64 ≤ i.curr &&& P_CPU_MASK then .use64 else .use32 } else i
    if i.curr &&& P_CPU_MASK = P_64 ∧ (i.lang = 7 ∨ i.lang = 9) ∧ i.elf = false then { i1 with win64 := true } else i1
  else i

/-- SetModel, cpumodel.c 178-223: the predefined symbols -/
def setModelSyms (i : Info) : Info :=
  let data := if i.model = 7 then "FLAT".toList else "DGROUP".toList
  { i with syms := i.syms ++
      [("@CodeSize".toList, .num (if farCodeBit i.model then 1 else 0)),
       ("@code".toList, .text (codeSeg i)),
       ("@DataSize".toList, .num (if i.model = 3 ∨ i.model = 5 then 1 else if i.model = 6 then 2 else 0)),
       ("@data".toList, .text data),
       ("@stack".toList, .text (if i.dist = .far then "STACK".toList else data)),
       ("@Model".toList, .num i.model),
       ("@Interface".toList, .num i.lang)] ++
      (if i.defOfs = .use64 then [("@ReservedStack".toList, .num 0)] else []) }

/-- ModelDirective in the first pass, cpumodel.c 244-351 -/
def modelDirective (i : Info) (toks : List Tok) : Except Err Info :=
  match toks with
  | [] => .error .expectedModel
  | t :: r =>
    match findToken t.str modelTokens with
    | none => .error .syntax
    | some k =>
      let model := k + 1
      match parseArgs (decide (model = 7)) r {} with
      | .error e => .error e
      | .ok f =>
        if model = 7 ∧ i.curr &&& P_CPU_MASK < P_386 then .error .cpu
        else .ok (setModelSyms (setModelModes
          { i with model := model, lang := f.lang.getD i.lang, dist := f.dist.getD i.dist, os := f.os.getD i.os }))

/-! ## .STARTUP and .EXIT -/

inductive Reg | ax | bx | cx | dx | sp | ds | ss
  deriving DecidableEq, Repr

/-- Generated lines. -/
inductive Line
  | org100
  | startLabel
  | movDgroup (r : Reg)
  | mov (r q : Reg)
  | sub (r q : Reg)
  | add (r q : Reg)
  | shl (r : Reg) (n : Nat)
  | cli
  | sti
  /-- `mov ah,n` -/
  | movAh (n : Nat)
  /-- `mov ax,4C00h + n` -/
  | movAx4c (n : Nat)
  /-- `mov al,` with the text of the operand -/
  | movAlText
  /-- `mov ax,` with the text of the operand -/
  | movAxText
  | int21
  | push1
  | push (r : Reg)
  | callDosexit
  deriving DecidableEq, Repr

/-- `StartupDosNear0`, end.c 46-59 -/
def startupDosNear0 : List Line :=
  [.movDgroup .dx, .mov .ds .dx, .mov .bx .ss, .sub .bx .dx, .shl .bx 1, .shl .bx 1, .shl .bx 1, .shl .bx 1, .cli, .mov .ss .dx,
   .add .sp .bx, .sti]

/-- `StartupDosNear1`, end.c 63-71 -/
def startupDosNear1 : List Line :=
  [.movDgroup .ax, .mov .ds .ax, .mov .bx .ss, .sub .bx .ax, .shl .bx 4, .mov .ss .ax, .add .sp .bx]

/-- `StartupDosFar`, end.c 73-76 -/
def startupDosFar : List Line := [.movDgroup .dx, .mov .ds .dx]

/-- `ExitOS2`, end.c 78-83 -/
def exitOs2 : List Line := [.movAh 0, .push1, .push .ax, .callDosexit]

/-- `ExitDos`, end.c 85-88 -/
def exitDos : List Line := [.movAh 0x4c, .int21]

/-- `.STARTUP`, end.c 112-139; `cpuSym` is `ModuleInfo.cpu` (`@Cpu`). -/
def startup (i : Info) (cpuSym : Cpu.Info) : List Line :=
  (if i.model = 1 then [.org100] else []) ++ [.startLabel] ++
  (if i.os = .dos then
    if i.model = 1 then []
    else if i.dist = .near then (if cpuSym &&& 0x7F#16 ≤ 1#16 then startupDosNear0 else startupDosNear1)
    else startupDosFar
   else [])

/-- The operand of `.EXIT`: a constant, or another expression. -/
inductive ExitArg | const (n : Nat) | expr
  deriving DecidableEq, Repr

/-- `.EXIT`, end.c 142-176 -/
def exit (i : Info) : Option ExitArg → List Line
  | none => if i.os = .dos then exitDos else exitOs2
  | some a =>
    if i.os = .os2 then .movAxText :: exitOs2.tail
    else
      match a with
      | .const n => if n < 0x100 then .movAx4c n :: exitDos.tail else .movAlText :: .movAh 0x4C :: exitDos.tail
      | .expr => .movAlText :: .movAh 0x4C :: exitDos.tail

end Verif.Startup
