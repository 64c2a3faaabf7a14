import Verif.Invoke.Model
import Verif.Frame.Machine
/-! # Specification of INVOKE: a machine, and what arguments are worth -/
namespace Verif.Invoke
open Frame (store load)

/-- Registers hold numbers of 0 to 2^32-1. Addresses do not wrap around. -/
structure M where
  gpr : Nat → Int
  xmm : Nat → Int
  sp : Int
  mem : Int → Int

def eaVal (m : M) (x : EA) : Int :=
  (match x.base with | none => 0 | some b => m.gpr b) + (match x.index with | none => 0 | some i => m.gpr i.1 * i.2) + x.disp

def regVal (m : M) (r : Reg) : Int :=
  match r.part with
  | .full => m.gpr r.num
  | .word => m.gpr r.num % 2 ^ 16
  | .low => m.gpr r.num % 2 ^ 8
  | .high => m.gpr r.num / 2 ^ 8 % 2 ^ 8

/-- A number of `size` bytes read as a signed one. -/
def sext (size : Nat) (v : Int) : Int := if 2 * v ≥ 256 ^ size then v - 256 ^ size else v

def ext (signed : Bool) (size : Nat) (v : Int) : Int := if signed then sext size v else v

def srcVal (m : M) (size : Nat) : Src → Int
  | .mem x => load m.mem (eaVal m x) size
  | .reg r => regVal m r

def setEax (m : M) (v : Int) : M := { m with gpr := fun r => if r = 0 then v else m.gpr r }

def exec (m : M) : Ins → M
  | .pushMem size x => { m with sp := m.sp - size, mem := store m.mem (m.sp - size) size (load m.mem (eaVal m x) size) }
  | .pushReg size r => { m with sp := m.sp - size, mem := store m.mem (m.sp - size) size (m.gpr r) }
  | .pushImm size v => { m with sp := m.sp - size, mem := store m.mem (m.sp - size) size v }
  | .subSp n => { m with sp := m.sp - n }
  | .movAl s => setEax m (m.gpr 0 / 256 * 256 + srcVal m 1 s)
  | .movx signed size s => setEax m (ext signed size (srcVal m size s) % 2 ^ 32)
  | .lea x => setEax m (eaVal m x % 2 ^ 32)
  | .movd n => setEax m (m.xmm n % 2 ^ 32)

def run (m : M) (l : List Ins) : M := l.foldl exec m

/-- Bytes that the procedure reads for an argument: the size of the parameter; behind the declared ones, at least a dword. -/
def width (p : Param) : Arg → Nat
  | .mem _ ty => if p.vararg then max 4 (memSize p ty) else p.psize
  | .xmm _ => if p.vararg then 16 else p.psize
  | _ => if p.vararg then 4 else p.psize

/-- Bytes of the stack for it: whole dwords. -/
def slot (p : Param) (a : Arg) : Nat := (width p a + 3) / 4 * 4

/-- What the argument is worth in a state: the bytes of the variable, the register or the constant, extended by its sign if
its type has one; the address for ADDR. -/
def argVal (m : M) (p : Param) : Arg → Int
  | .mem x (.int size signed) => ext signed size (load m.mem (eaVal m x) size)
  | .mem x (.struct size) => load m.mem (eaVal m x) size
  | .mem x .untyped => load m.mem (eaVal m x) (if p.vararg then 4 else p.psize)
  | .reg r signed => ext signed (partSize r.part) (regVal m r)
  | .xmm n => m.xmm n
  | .const v => v
  | .addrDirect v => v
  | .addrIndirect x => eaVal m x

/-- Registers used in an address. -/
def eaRegs (x : EA) : List Nat := x.base.toList ++ (x.index.map (·.1)).toList

/-- The argument does not use the stack pointer, and does not use EAX in an address. -/
def Tame : Arg → Prop
  | .mem x _ => 0 ∉ eaRegs x ∧ 4 ∉ eaRegs x
  | .addrIndirect x => 0 ∉ eaRegs x ∧ 4 ∉ eaRegs x
  | .reg r _ => r.num ≠ 4
  | _ => True

/-- Number of bytes of memory read for a memory argument. -/
def readSize (p : Param) : Ty → Nat
  | .untyped => max 4 p.psize
  | ty => memSize p ty

/-- Bytes of memory read for the argument. -/
def reads (m : M) (p : Param) (a : Arg) (x : Int) : Prop :=
  match a with
  | .mem e ty => eaVal m e ≤ x ∧ x < eaVal m e + readSize p ty
  | _ => False

/-- Sizes for which the argument is passed correctly: up to a dword (but not 3), or of whole words with at least 8 bytes, or a
FWORD for a FWORD parameter; a variable of a dword or more must have the size of the parameter; no XMM register. -/
def Sound (p : Param) : Arg → Prop
  | .mem _ ty =>
    let n := memSize p ty
    (n ≤ 4 ∧ n ≠ 3 ∨ n % 2 = 0 ∧ (n = 6 → p.isFword = true)) ∧ (4 ≤ n → p.vararg = true ∨ p.psize = n)
  | .xmm _ => False
  | _ => True

/-- A declared parameter has a size; VARARG has none. -/
def WfParam (p : Param) : Prop := if p.vararg then p.psize = 0 else 0 < p.psize

/-- The parameter that receives argument `k`. -/
def paramAt (pr : Proto) (k : Nat) : Param := (pr.params[k]?).getD { psize := 0, vararg := true }

/-- Bytes of the stack of the arguments. -/
def slots (pr : Proto) (args : List Arg) : List Nat := args.zipIdx.map fun a => slot (paramAt pr a.2) a.1

/-- The place of argument `k` above the stack pointer when the procedure is called: the first argument is the lowest; for PASCAL
the last. -/
def place (pr : Proto) (args : List Arg) (k : Nat) : Nat :=
  if pr.lang = .pascal then ((slots pr args).drop (k + 1)).sum else ((slots pr args).take k).sum

end Verif.Invoke
