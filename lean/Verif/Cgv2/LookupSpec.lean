import Verif.Cgv2.Types

/-!
# Specification of the instruction lookup

Independent of hashing: which table rows answer a request, and what it means to be the first.
-/

namespace Verif.Cgv2.Spec

open Verif.Cgv2

/-- The ASCII lower-case form of a character code. -/
def lower (n : Nat) : Nat := if 'A'.toNat ≤ n ∧ n ≤ 'Z'.toNat then n + ('a'.toNat - 'A'.toNat) else n

/-- Two mnemonics are equal up to upper/lower case. -/
def SameMnemonic (a b : List Char) : Prop :=
  a.map (fun c => lower c.toNat) = b.map (fun c => lower c.toNat)

/-- A request for an instruction form. -/
structure Request where
  mnemonic : List Char
  op : Nat → OpType
  /-- the memory operand contains a register, or refers to a symbol in 64-bit code -/
  memHasReg : Bool
  mode : Nat
  /-- number of the register of the second / first operand -/
  src : Nat
  dst : Nat
  evex : Bool
  /-- broadcast decorator, 0 if none -/
  broadcast : Nat
  /-- the instruction is `vcvtpd2ps` or `vcvttpd2dq` -/
  narrowing : Bool

/-- A row answers a request: same mnemonic (any case), same four operand types, the mode is
allowed, a register-free address if the row demands one, for the rows reserved to the
"source in the upper eight, destination in the lower eight registers" case exactly that case
without EVEX, and for the two narrowing conversions an element count agreeing with the
broadcast decorator. -/
def Answers (r : Instr) (q : Request) : Prop :=
  SameMnemonic r.mnemonic q.mnemonic ∧
  (∀ i, i < 4 → r.op i = q.op i) ∧
  r.validModes &&& q.mode ≠ 0 ∧
  (r.flags &&& NO_MEM_REGF ≠ 0 → q.memHasReg = false) ∧
  (r.flags &&& SRCHDSTLF ≠ 0 → 8 ≤ q.src ∧ q.dst < 8 ∧ q.evex = false) ∧
  (q.narrowing = true → q.broadcast ≠ 0 →
    (r.opElements, q.broadcast) ∈ [(2, 0x10), (4, 0x20), (8, 0x30)])

/-- `r` is the first row of the table which answers the request. -/
def IsFirst (tbl : List Instr) (q : Request) (r : Instr) : Prop :=
  ∃ before after, tbl = before ++ r :: after ∧ Answers r q ∧ ∀ x ∈ before, ¬ Answers x q

/-- The generic type of an operand type naming one particular register or a sized memory
operand. -/
def generic : OpType → OpType
  | .R8_AL | .R8_CL => .R8
  | .R16_AX | .R16_CX | .R16_DX => .R16
  | .R32_EAX | .R32_ECX => .R32
  | .R64_RAX | .R64_RCX => .R64
  | .M8 | .M16 | .M32 | .M48 | .M64 | .M80 | .M128 | .M256 | .M512 => .M_ANY
  | o => o

end Verif.Cgv2.Spec
