import Verif.Branch.Model
/-!
# Specification: what the processor does with branch instructions

An independent decoder for the branch instructions of the 8086 .. x86-64, after the Intel manual.
-/
namespace Verif.Branch

/-- Decoded branch. `width` is the size of the instruction pointer after the branch. -/
inductive Op | jmp | call | jcc (c : BitVec 4) | xcx (op : BitVec 8) (addrWidth : Nat)
  deriving DecidableEq, Repr

structure Insn where
  op : Op
  len : Nat
  disp : Int
  width : Nat
  deriving DecidableEq, Repr

structure Pfx where
  opsize : Bool := false
  addrsize : Bool := false
  count : Nat := 0
  deriving DecidableEq, Repr

/-- Size of the instruction pointer: toggled by 66h in 16/32-bit code, fixed in 64-bit code. -/
def ipWidth (m : Ofs) (p : Pfx) : Nat :=
  match m with
  | .use16 => if p.opsize then 32 else 16
  | .use32 => if p.opsize then 16 else 32
  | .use64 => 64

/-- Width of the counter register of LOOP/JCXZ: toggled by 67h. -/
def addrWidth (m : Ofs) (p : Pfx) : Nat :=
  match m with
  | .use16 => if p.addrsize then 32 else 16
  | .use32 => if p.addrsize then 16 else 32
  | .use64 => if p.addrsize then 32 else 64

/-- Signed little endian number of the first `n` bytes. -/
def sint (n : Nat) (bs : List (BitVec 8)) : Option Int :=
  match n, bs with
  | 1, a :: _ => some a.toInt
  | 2, a :: b :: _ => some (BitVec.ofNat 16 (a.toNat + 256 * b.toNat)).toInt
  | 4, a :: b :: c :: d :: _ => some (BitVec.ofNat 32 (a.toNat + 256 * b.toNat + 65536 * c.toNat + 16777216 * d.toNat)).toInt
  | _, _ => none

/-- Displacement size of the near forms. -/
def nearSize (m : Ofs) (p : Pfx) : Nat := if ipWidth m p = 16 then 2 else 4

def mk (m : Ofs) (p : Pfx) (op : Op) (oplen n : Nat) (bs : List (BitVec 8)) : Option Insn :=
  (sint n bs).map fun d => ⟨op, p.count + oplen + n, d, ipWidth m p⟩

def decodeOp (m : Ofs) (p : Pfx) : List (BitVec 8) → Option Insn
  | [] => none
  | o :: bs =>
    if o = 0xEB then mk m p .jmp 1 1 bs
    else if o = 0xE9 then mk m p .jmp 1 (nearSize m p) bs
    else if o = 0xE8 then mk m p .call 1 (nearSize m p) bs
    else if o = 0x0F then match bs with
      | q :: bs' => if q.extractLsb' 4 4 = 8#4 then mk m p (.jcc (q.extractLsb' 0 4)) 2 (nearSize m p) bs' else none
      | [] => none
    else if o.extractLsb' 4 4 = 7#4 then mk m p (.jcc (o.extractLsb' 0 4)) 1 1 bs
    else if o.extractLsb' 4 4 = 0xE#4 ∧ o.extractLsb' 2 2 = 0#2 then mk m p (.xcx o (addrWidth m p)) 1 1 bs
    else none

/-- Prefixes F2 (BND), 66, 67 in any order, then the opcode. -/
def decode (m : Ofs) (p : Pfx) : List (BitVec 8) → Option Insn
  | [] => none
  | b :: bs =>
    if b = 0xF2 then decode m { p with count := p.count + 1 } bs
    else if b = 0x66 then decode m { p with opsize := true, count := p.count + 1 } bs
    else if b = 0x67 then decode m { p with addrsize := true, count := p.count + 1 } bs
    else decodeOp m p (b :: bs)

/-- The state the outcome of a branch depends on: the eight flag conditions (even condition codes; the odd ones are their
negations) and the outcome of the counter instructions. -/
structure Env where
  cond : BitVec 3 → Bool
  xcx : BitVec 8 → Nat → Bool

def Env.cc (e : Env) (c : BitVec 4) : Bool := (e.cond (c.extractLsb' 1 3)) != c.getLsbD 0

def Env.taken (e : Env) : Op → Bool
  | .jmp => true
  | .call => true
  | .jcc c => e.cc c
  | .xcx o w => e.xcx o w

/-- An instruction pointer of `w` bits. -/
def wrapIp (w : Nat) (x : Int) : Int := x % 2 ^ w

/-- Execute the instructions of `code` located at `ip` until one branches or the end is reached; the resulting address. -/
def exec (m : Ofs) (e : Env) : Nat → List (BitVec 8) → Int → Option Int
  | 0, _, _ => none
  | fuel + 1, code, ip =>
    match decode m {} code with
    | none => none
    | some i =>
      if e.taken i.op then some (wrapIp i.width (ip + i.len + i.disp))
      else if code.length ≤ i.len then some (wrapIp (ipWidth m {}) (ip + i.len))
      else exec m e fuel (code.drop i.len) (ip + i.len)

end Verif.Branch

namespace Verif.Branch

/-- When the source instruction is meant to branch. -/
def wants (m : Ofs) (e : Env) : Kind → Bool
  | .jmp => true
  | .call => true
  | .jcc c => e.cc c
  | .xcx x .none => e.xcx x.opcode (addrWidth m {})
  | .xcx x .a16 => e.xcx x.opcode 16
  | .xcx x .a32 => e.xcx x.opcode 32

/-- Instruction pointer width of an offset size. -/
def Ofs.width : Ofs → Nat | .use16 => 16 | .use32 => 32 | .use64 => 64

/-- Width of the destination address: that of a coercion NEAR16/NEAR32, else of the segment. -/
def destWidth (c : Ctx) (b : Br) : Nat :=
  match b.dist with
  | .near (some o) => o.width
  | _ => c.ofs.width

/-- Combinations that the parser lets through: 32- and 64-bit code needs a 386, BND a Pentium, JCXZ/LOOPW do not exist in 64-bit
code, a 64-bit segment has 64-bit near pointers only. -/
def Valid (c : Ctx) (b : Br) : Prop :=
  (c.cpu386 = false → c.ofs = .use16 ∧ b.bnd = false) ∧
  (∀ x, b.kind = .xcx x .a16 → c.ofs ≠ .use64) ∧
  (∀ o, b.dist = .near (some o) → (c.ofs = .use64 ↔ o = .use64))

/-- Address denoted by the operand `label + n`. -/
def dest (b : Br) (target : BitVec 32) : Int := target.toNat + b.addend.toInt

end Verif.Branch
