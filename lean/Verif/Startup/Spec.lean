import Verif.Startup.Model
import Verif.Cpu.Spec
/-!
# Memory models, and a machine for the code of `.STARTUP` and `.EXIT`
-/
namespace Verif.Startup
open Verif.Cpu

inductive MemModel | tiny | small | compact | medium | large | huge | flat
  deriving DecidableEq, Repr

def MemModel.name : MemModel → Text
  | .tiny => "TINY".toList | .small => "SMALL".toList | .compact => "COMPACT".toList | .medium => "MEDIUM".toList
  | .large => "LARGE".toList | .huge => "HUGE".toList | .flat => "FLAT".toList

/-- the value of `@Model` -/
def MemModel.number : MemModel → Nat
  | .tiny => 1 | .small => 2 | .compact => 3 | .medium => 4 | .large => 5 | .huge => 6 | .flat => 7

/-- Procedures are far: more than one code segment. -/
def MemModel.farCode (m : MemModel) : Bool := m = .medium || m = .large || m = .huge

/-- the value of `@DataSize`: 0 near, 1 far, 2 huge -/
def MemModel.dataSize : MemModel → Nat
  | .compact => 1 | .large => 1 | .huge => 2 | _ => 0

/-- The optional arguments, in any order, `blank` between two commas. -/
inductive Arg
  | blank
  | lang (l : Nat) (t : Text)
  | nearStack
  | farStack
  | osWord (o : Os)
  deriving DecidableEq, Repr

/-- How an argument is written, in upper or lower case. -/
def Arg.Written : Arg → List Tok → Prop
  | .blank, ts => ts = []
  | .lang l t, ts => ts = [.lang l t]
  | .nearStack, ts => ∃ w, ieq "NEARSTACK".toList w = true ∧ ts = [.word w]
  | .farStack, ts => ∃ w, ieq "FARSTACK".toList w = true ∧ ts = [.word w]
  | .osWord .dos, ts => ∃ w, ieq "OS_DOS".toList w = true ∧ ts = [.word w]
  | .osWord .os2, ts => ∃ w, ieq "OS_OS2".toList w = true ∧ ts = [.word w]

/-- The arguments, each with a comma in front. -/
inductive ArgsWritten : List Arg → List Tok → Prop
  | nil : ArgsWritten [] []
  | cons {a as ts ts'} : a.Written ts → ArgsWritten as ts' → ArgsWritten (a :: as) (.comma :: (ts ++ ts'))

def langs (as : List Arg) : List Nat := as.filterMap fun a => match a with | .lang l _ => some l | _ => none
def stacks (as : List Arg) : List Dist := as.filterMap fun a => match a with | .nearStack => some .near | .farStack => some .far | _ => none
def oses (as : List Arg) : List Os := as.filterMap fun a => match a with | .osWord o => some o | _ => none

/-- At most one argument of each kind, none for the stack with FLAT, nothing missing behind the last comma. -/
def Acceptable (m : MemModel) (as : List Arg) : Prop :=
  (langs as).length ≤ 1 ∧ (stacks as).length ≤ 1 ∧ (oses as).length ≤ 1 ∧ (m = .flat → stacks as = []) ∧
    as.getLast? ≠ some .blank

/-! ## A 16-bit machine -/

/-- Registers, the stack (top first), interrupts enabled, and a call of DOS or OS/2 that ends the program with a return code. -/
structure Machine where
  reg : Reg → BitVec 16
  intr : Bool
  pushed : List (BitVec 16)
  ended : Option (BitVec 8)

def Machine.set (s : Machine) (r : Reg) (v : BitVec 16) : Machine := { s with reg := fun q => if q = r then v else s.reg q }

def hi (v : BitVec 16) : BitVec 8 := v.extractLsb' 8 8
def lo (v : BitVec 16) : BitVec 8 := v.extractLsb' 0 8

/-- One line. `d`: the paragraph of DGROUP; `v`: the value of the operand of `.EXIT` in the state that it meets. -/
def Machine.step (d : BitVec 16) (v : Machine → BitVec 16) (s : Machine) : Line → Machine
  | .org100 => s
  | .startLabel => s
  | .movDgroup r => s.set r d
  | .mov r q => s.set r (s.reg q)
  | .sub r q => s.set r (s.reg r - s.reg q)
  | .add r q => s.set r (s.reg r + s.reg q)
  | .shl r n => s.set r (s.reg r <<< n)
  | .cli => { s with intr := false }
  | .sti => { s with intr := true }
  | .movAh n => s.set .ax (BitVec.ofNat 8 n ++ lo (s.reg .ax))
  | .movAx4c n => s.set .ax (BitVec.ofNat 16 (0x4C00 + n))
  | .movAlText => s.set .ax (hi (s.reg .ax) ++ lo (v s))
  | .movAxText => s.set .ax (v s)
  | .int21 => if hi (s.reg .ax) = 0x4C#8 then { s with ended := some (lo (s.reg .ax)) } else s
  | .push1 => { s with pushed := 1#16 :: s.pushed }
  | .push r => { s with pushed := s.reg r :: s.pushed }
  | .callDosexit =>
    match s.pushed with
    | code :: action :: _ => if action = 1#16 then { s with ended := some (lo code) } else s
    | _ => s

def Machine.run (d : BitVec 16) (v : Machine → BitVec 16) (s : Machine) (p : List Line) : Machine := p.foldl (Machine.step d v) s

/-- The address of the top of the stack. -/
def Machine.stackTop (s : Machine) : Nat := (s.reg .ss).toNat * 16 + (s.reg .sp).toNat

/-- The states in which an interrupt may occur: interrupts are enabled, and the last instruction did not load SS when the
processor is of the kind that then waits (`waits`, all but the first 8086). -/
def interruptible (d : BitVec 16) (v : Machine → BitVec 16) (waits : Bool) : Machine → List Line → List Machine
  | _, [] => []
  | s, l :: p =>
    let s' := s.step d v l
    let blocked := waits && (match l with | .mov .ss _ => true | _ => false)
    (if s'.intr && !blocked then [s'] else []) ++ interruptible d v waits s' p

end Verif.Startup
