import Verif.Invoke64.Model
import Verif.Frame.Machine
/-! # Specification of INVOKE for 64-bit Windows: a machine, what arguments are worth and where the procedure finds them -/
namespace Verif.Invoke64
open Frame (store load)

/-- General registers (RSP is number 4), vector registers, memory. Addresses do not wrap around. -/
structure M where
  gpr : Nat → Int
  xmm : Nat → Int
  mem : Int → Int

def eaVal (m : M) (x : EA) : Int :=
  (match x.base with | none => 0 | some b => m.gpr b) + (match x.index with | none => 0 | some i => m.gpr i.1 * i.2) + x.disp

def regVal (m : M) (r : Reg) : Int :=
  match r.part with
  | .b => m.gpr r.num % 2 ^ 8
  | .h => m.gpr r.num / 2 ^ 8 % 2 ^ 8
  | .w => m.gpr r.num % 2 ^ 16
  | .d => m.gpr r.num % 2 ^ 32
  | .q => m.gpr r.num % 2 ^ 64

/-- What is in the whole register after a write: 8 and 16 bits leave the rest as it was, 32 bits clear the upper half. -/
def merge (old v : Int) : Part → Int
  | .b => old / 2 ^ 8 * 2 ^ 8 + v % 2 ^ 8
  | .h => old / 2 ^ 16 * 2 ^ 16 + v % 2 ^ 8 * 2 ^ 8 + old % 2 ^ 8
  | .w => old / 2 ^ 16 * 2 ^ 16 + v % 2 ^ 16
  | .d => v % 2 ^ 32
  | .q => v % 2 ^ 64

def setReg (m : M) (r : Reg) (v : Int) : M := { m with gpr := fun k => if k = r.num then merge (m.gpr k) v r.part else m.gpr k }

def setX (m : M) (n : Nat) (v : Int) : M := { m with xmm := fun k => if k = n then v else m.xmm k }

/-- A number of `size` bytes read as a signed one. -/
def sext (size : Nat) (v : Int) : Int := if 2 * v ≥ 256 ^ size then v - 256 ^ size else v

def ext (signed : Bool) (size : Nat) (v : Int) : Int := if signed then sext size v else v

def srcVal (m : M) (size : Nat) : Src → Int
  | .mem x => load m.mem (eaVal m x) size
  | .reg r => regVal m r

def exec (m : M) : Ins → M
  | .addSp n => { m with gpr := fun k => if k = 4 then m.gpr 4 + n else m.gpr k }
  | .lea dst x => setReg m dst (eaVal m x)
  | .mov dst s => setReg m dst (srcVal m (partSize dst.part) s)
  | .movx signed dst size s => setReg m dst (ext signed size (srcVal m size s))
  | .movImm dst v => setReg m dst v
  | .xor dst => setReg m dst 0
  | .put d r => { m with mem := store m.mem (m.gpr 4 + d) (partSize r.part) (regVal m r) }
  | .putImm size d v => { m with mem := store m.mem (m.gpr 4 + d) size v }
  | .putX size d n => { m with mem := store m.mem (m.gpr 4 + d) size (m.xmm n) }
  | .movaps n k => setX m n (m.xmm k)
  | .getX size n x => setX m n (load m.mem (eaVal m x) size)
  | .movX n r => setX m n (regVal m r)

def run (m : M) (l : List Ins) : M := l.foldl exec m

/-- Size of an argument for VARARG: that of the variable or register, at least 4 bytes; 8 for addresses and for constants
beyond 32 bits. -/
def natural : Arg → Nat
  | .mem _ size _ => max 4 size
  | .memU _ => 4
  | .reg r _ => max 4 (partSize r.part)
  | .xmm _ => 16
  | .const v _ => if -2 ^ 31 ≤ v ∧ v < 2 ^ 31 then 4 else 8
  | .float _ _ => 4
  | .addr _ => 8

/-- Size of the parameter that gets an argument. -/
def psz (p : Param) (a : Arg) : Nat := if p.vararg then natural a else p.psize

/-- Bytes that the procedure reads: the parameter's; 8 (an address) for parameters of more than 8 bytes. -/
def width (p : Param) (a : Arg) : Nat := if psz p a > 8 then 8 else psz p a

/-- What the argument is worth in a state: the bytes of the variable, the register or the constant, extended by its sign if
its type has one; the address for ADDR, and if the parameter has more than 8 bytes. -/
def argVal (m : M) (p : Param) (a : Arg) : Int :=
  match a with
  | .mem x size signed => if psz p a > 8 then eaVal m x else ext signed size (load m.mem (eaVal m x) size)
  | .memU x => if psz p a > 8 then eaVal m x else load m.mem (eaVal m x) (psz p a)
  | .reg r signed => ext signed (partSize r.part) (regVal m r)
  | .xmm n => m.xmm n
  | .const v _ => v
  | .float f4 f8 => if psz p a = 4 then f4 else f8
  | .addr x => eaVal m x

/-- The low `w` bytes of what the procedure finds as its parameter number `i` (from 0): in RCX, RDX, R8, R9, or XMM0 to XMM3 if it is
declared as REAL4 or REAL8; the others in the stack above four slots. -/
def found (m : M) (p : Param) (i w : Nat) : Int :=
  if i < 4 then
    (if p.kind = .real ∧ p.vararg = false then m.xmm i
    else match i with
      | 0 => m.gpr 1
      | 1 => m.gpr 2
      | 2 => m.gpr 8
      | _ => m.gpr 9) % 256 ^ w
  else load m.mem (m.gpr 4 + 8 * i) w

/-- A declared parameter has a size, REAL parameters have 4 or 8 bytes. -/
def WfParam (p : Param) : Prop := p.vararg = false ∧ 0 < p.psize ∧ (p.kind = .real → p.psize = 4 ∨ p.psize = 8)

/-- Bytes of memory read for the argument. -/
def reads (m : M) (p : Param) (a : Arg) (x : Int) : Prop :=
  match a with
  | .mem e size _ => eaVal m e ≤ x ∧ x < eaVal m e + size
  | .memU e => eaVal m e ≤ x ∧ x < eaVal m e + width p a
  | _ => False

/-- Arguments that are passed correctly: of AH, BH, CH and DH only the first two; a XMM register for a REAL parameter is not below the parameter's own; a
REAL parameter among the first four gets no general register, integer constant or ADDR, and its variable has the parameter's size;
equates that are multiples of 2^32 are 0, and so are NULL and FALSE; untyped memory for a
parameter of more than 8 bytes is among the first four. -/
def Sound (p : Param) (i : Nat) : Arg → Prop
  | .reg r _ => (r.part = .h → r.num = 0 ∨ r.num = 3) ∧ (p.kind = .real → p.vararg = false → 4 ≤ i)
  | .xmm k => i ≤ k
  | .const v name => (p.kind = .real → p.vararg = false → 4 ≤ i) ∧ (name = .null → v = 0) ∧ (name = .equate → v % 2 ^ 32 = 0 → v = 0)
  | .mem _ size _ => p.kind = .real → p.vararg = false → size = p.psize
  | .memU x => psz p (.memU x) > 8 → i < 4
  | .addr _ => p.kind = .real → p.vararg = false → 4 ≤ i
  | _ => True

/-- Registers of an argument. -/
def argRegs : Arg → List Nat
  | .mem x _ _ => eaRegs x
  | .memU x => eaRegs x
  | .addr x => eaRegs x
  | .reg r _ => [r.num]
  | _ => []

/-- What is called: a procedure, the address in a register, or in memory. -/
inductive Target
  | label (v : Int)
  | reg (r : Nat)
  | mem (x : EA)

def targetRegs : Target → List Nat
  | .label _ => []
  | .reg r => [r]
  | .mem x => eaRegs x

def targetReads (m : M) (t : Target) (x : Int) : Prop :=
  match t with
  | .mem e => eaVal m e ≤ x ∧ x < eaVal m e + (8 : Nat)
  | _ => False

/-- The address that is called. -/
def targetVal (m : M) : Target → Int
  | .label v => v
  | .reg r => m.gpr r
  | .mem x => load m.mem (eaVal m x) 8

end Verif.Invoke64
