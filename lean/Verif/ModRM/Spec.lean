import Verif.ModRM.Model
/-!
# Specification for C19: how the processor reads ModRM, SIB and displacement

Intel 64 and IA-32 Architectures Software Developer's Manual, volume 2, tables 2-1 (16-bit), 2-2 (32-bit), 2-3 (SIB), and 2.2.1
(REX, RIP-relative addressing). Only the vocabulary (`Mode`, `Seg`, registers) is shared with the model.
-/
namespace Verif.ModRM

/-- An effective address: registers with factors, a displacement, and the number of bits it is computed in. -/
structure EA where
  bits : Nat
  /-- general registers by number, with a factor -/
  parts : List (Nat × Nat)
  /-- the address of the next instruction is added -/
  rip : Bool
  disp : Int
  /-- the default segment is SS -/
  stack : Bool
  deriving DecidableEq, Repr

/-- Signed number from little endian bytes. -/
def leUnsigned : List Nat → Nat
  | [] => 0
  | b :: bs => b + 256 * leUnsigned bs

def leSigned (bs : List Nat) : Int := Int.bmod (leUnsigned bs) (2 ^ (8 * bs.length))

/-- Address size in bits: mode and prefix 67. -/
def addrBits (m : Mode) (p67 : Bool) : Nat :=
  match m, p67 with
  | .u16, false => 16 | .u16, true => 32
  | .u32, false => 32 | .u32, true => 16
  | .u64, false => 64 | .u64, true => 32

/-- Form of an operand, before the displacement is read: parts, rip, size of the displacement, default segment SS. -/
structure Form where
  parts : List (Nat × Nat)
  rip : Bool := false
  dsz : Nat
  stack : Bool := false
  deriving DecidableEq, Repr

/-- Table 2-1. -/
def form16 (mod rm : Nat) : Option Form :=
  let dsz := match mod with | 0 => 0 | 1 => 1 | _ => 2
  if mod ≥ 3 then none else
  match rm with
  | 0 => some { parts := [(3, 1), (6, 1)], dsz }
  | 1 => some { parts := [(3, 1), (7, 1)], dsz }
  | 2 => some { parts := [(5, 1), (6, 1)], dsz, stack := true }
  | 3 => some { parts := [(5, 1), (7, 1)], dsz, stack := true }
  | 4 => some { parts := [(6, 1)], dsz }
  | 5 => some { parts := [(7, 1)], dsz }
  | 6 => if mod = 0 then some { parts := [], dsz := 2 } else some { parts := [(5, 1)], dsz, stack := true }
  | 7 => some { parts := [(3, 1)], dsz }
  | _ => none

/-- Table 2-3; `x`, `b`: the REX bits. -/
def formSib (mod sib x b : Nat) : Form :=
  let scale := 2 ^ (sib / 64)
  let index := sib / 8 % 8 + 8 * x
  let base := sib % 8
  let ip := if index = 4 then [] else [(index, scale)]
  let dsz := match mod with | 0 => 0 | 1 => 1 | _ => 4
  if base = 5 ∧ mod = 0 then { parts := ip, dsz := 4 }
  else { parts := (base + 8 * b, 1) :: ip, dsz, stack := decide (base + 8 * b = 4 ∨ base + 8 * b = 5) }

/-- Table 2-2 for `r/m` other than 100b; in 64-bit mode 101b without base is RIP-relative. -/
def form32 (long : Bool) (mod rm b : Nat) : Form :=
  let dsz := match mod with | 0 => 0 | 1 => 1 | _ => 4
  if rm = 5 ∧ mod = 0 then { parts := [], rip := long, dsz := 4 }
  else { parts := [(rm + 8 * b, 1)], dsz, stack := decide (rm + 8 * b = 5) }

/-- Reads an operand: the effective address, the reg field (with REX.R) and the remaining bytes. -/
def decode (m : Mode) (p67 : Bool) (rex : Nat) (bytes : List Nat) : Option (EA × Nat × List Nat) :=
  match bytes with
  | [] => none
  | modrm :: rest =>
    let mod := modrm / 64
    let reg := modrm / 8 % 8
    let rm := modrm % 8
    let b := rex % 2
    let x := rex / 2 % 2
    let r := rex / 4 % 2
    let finish (f : Form) (rest : List Nat) : Option (EA × Nat × List Nat) :=
      if rest.length < f.dsz then none
      else some ({ bits := addrBits m p67, parts := f.parts, rip := f.rip, disp := leSigned (rest.take f.dsz), stack := f.stack },
        reg + 8 * r, rest.drop f.dsz)
    if mod ≥ 3 then none
    else if addrBits m p67 = 16 then (form16 mod rm).bind (finish · rest)
    else if rm = 4 then
      match rest with
      | [] => none
      | sib :: rest => finish (formSib mod sib x b) rest
    else finish (form32 (m == .u64) mod rm b) rest

/-- The address, for any contents of the registers and address of the next instruction. -/
def EA.addr (e : EA) (regs : Nat → Int) (next : Int) : Int :=
  ((e.parts.map fun p => regs p.1 * p.2).sum + (if e.rip then next else 0) + e.disp) % 2 ^ e.bits

/-- The segment that is used: 64-bit code knows FS and GS only. -/
def usedSeg (m : Mode) (override : Option Seg) (stack : Bool) : Option Seg :=
  let s := override.getD (if stack then .ss else .ds)
  if m = .u64 ∧ s ≠ .fs ∧ s ≠ .gs then none else some s

/-! ### The source -/

/-- Registers that can be used in addresses, and exist in this mode. -/
def Reg.ok (m : Mode) (r : Reg) : Prop :=
  match r.cls with
  | .r16 => r.no = 3 ∨ r.no = 5 ∨ r.no = 6 ∨ r.no = 7
  | .r32 => r.no < 8 ∨ (m = .u64 ∧ r.no < 16)
  | .r64 => m = .u64 ∧ r.no < 16
  | .rip => m = .u64 ∧ r.no = 16

instance (m : Mode) (r : Reg) : Decidable (r.ok m) := by unfold Reg.ok; cases r.cls <;> simp only <;> infer_instance

def Reg.bits (r : Reg) : Nat :=
  match r.cls with
  | .r16 => 16 | .r32 => 32 | .r64 => 64 | .rip => 64

def Reg.value (r : Reg) (regs : Nat → Int) (next : Int) : Int :=
  match r.cls with
  | .rip => next
  | _ => regs r.no

def Term.regs : Term → List Reg
  | .reg r => [r]
  | .mul r _ => [r]
  | .num _ => []

/-- The value of a term. -/
def Term.value (regs : Nat → Int) (next : Int) : Term → Int
  | .reg r => r.value regs next
  | .mul r k => r.value regs next * k
  | .num v => v

/-- The sum of the terms. -/
def sumTerms (regs : Nat → Int) (next : Int) (ts : List Term) : Int := (ts.map (Term.value regs next)).sum

end Verif.ModRM
