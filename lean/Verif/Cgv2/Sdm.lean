import Verif.Cgv2.EncSpec
import Verif.Cgv2.Types

/-!
# The instruction forms of the manual

Transcribed from the Intel SDM vol. 2 (opcode columns and "Instruction Operand Encoding"), for
the instructions that occur in H/InstrTableV2.h.  Independent of that header: operand types are
grouped by register size, opcodes and prefix fields are those of the manual.
-/

namespace Verif.Cgv2.Isa

open Verif.Cgv2 (OpType)

/-- One encoding of a form. -/
structure Enc where
  /-- mandatory prefix (`none`: the instruction has no mandatory prefix and ignores 66h
  except for the operand size) -/
  pp : Option Nat
  map : Nat
  opcode : Nat
  /-- `W0`, `W1`, `none` = ignored -/
  w : Option Bool
  /-- vector length 0/1/2, `none` = ignored -/
  l : Option Nat
  deriving DecidableEq, Repr

/-- A form with a ModRM byte. -/
structure Form where
  legacy : Option Enc
  vex : Option Enc
  evex : Option Enc
  /-- operand size demanded (2, 4, 8), legacy encodings only -/
  osz : Option Nat
  /-- operand in ModRM.reg -/
  reg : Option Nat
  /-- opcode extension in ModRM.reg -/
  digit : Option Nat
  /-- operand in ModRM.rm -/
  rm : Nat
  /-- operand in vvvv -/
  v : Option Nat
  /-- operand given by an immediate and its size in bytes -/
  imm : Option (Nat × Nat)
  /-- operand in bits 7:4 of an immediate byte -/
  is4 : Option Nat
  vsib : Bool
  /-- EVEX disp8 multiplier, without and with broadcast -/
  n : Nat
  nb : Nat
  deriving DecidableEq, Repr

/-- A form of the manual. -/
inductive Entry
  /-- exactly these bytes -/
  | fixed (bytes : List Nat)
  /-- register (operand 0) in the low bits of the opcode, immediate (operand 1) of the size given -/
  | plusR (opcode : Nat) (osz : Nat) (imm : Nat)
  /-- accumulator and an absolute address -/
  | moffs (opcode : Nat) (osz : Nat) (mem : Nat)
  | rm (f : Form)
  deriving DecidableEq, Repr

/-- Size of a general register operand type, 0 if it is none. -/
def gpr : OpType → Nat
  | .R8 | .R8H | .R8E | .R8U | .R8_AL | .R8_CL => 1
  | .R16 | .R16E | .R16_AX | .R16_CX | .R16_DX => 2
  | .R32 | .R32E | .R32_EAX | .R32_ECX => 4
  | .R64 | .R64E | .R64_RAX | .R64_RCX => 8
  | _ => 0

/-- Vector length of a vector register operand type. -/
def vl : OpType → Option Nat
  | .R_XMM => some 0
  | .R_YMM => some 1
  | .R_ZMM => some 2
  | _ => none

/-- A memory operand. -/
def isMem : OpType → Bool
  | .M_ANY | .M8 | .M16 | .M32 | .M64 | .M128 | .M256 | .M512 => true
  | _ => false

/-- Size of an immediate operand type, 0 if it is none. -/
def immSz : OpType → Nat
  | .IMM8 => 1 | .IMM16 => 2 | .IMM32 => 4 | .IMM64 => 8 | _ => 0

/-- Form with a legacy encoding, `reg` and `rm` operands. -/
def lrm (pp : Option Nat) (map op : Nat) (w : Option Bool) (osz : Option Nat) (reg rm : Nat)
    (imm : Option (Nat × Nat)) : Option Entry :=
  some (.rm ⟨some ⟨pp, map, op, w, none⟩, none, none, osz, some reg, none, rm, none, imm, none,
    false, 1, 1⟩)

/-- Operand-size column of a size: 8-bit forms have their own opcode. -/
def osz (s : Nat) : Option Nat := if s = 1 then none else some s

/-- MOV. -/
def mov (a b : OpType) : Option Entry :=
  if gpr a ≠ 0 ∧ gpr a = gpr b then
    -- MOV r, r/m : 8A /r, 8B /r
    lrm none 0 (if gpr a = 1 then 0x8a else 0x8b) none (osz (gpr a)) 0 1 none
  else if gpr a ≠ 0 ∧ (b = .R_CR ∨ b = .R_CR8) then lrm none 1 0x20 none none 1 0 none
  else if gpr b ≠ 0 ∧ (a = .R_CR ∨ a = .R_CR8) then lrm none 1 0x22 none none 0 1 none
  else if gpr a ≠ 0 ∧ b = .R_DR then lrm none 1 0x21 none none 1 0 none
  else if gpr b ≠ 0 ∧ a = .R_DR then lrm none 1 0x23 none none 0 1 none
  else if 1 < gpr a ∧ (b = .R_SEG ∨ b = .R_SEGE) then
    lrm none 0 0x8c none (some (gpr a)) 1 0 none
  else if 1 < gpr b ∧ (a = .R_SEG ∨ a = .R_SEGE) then lrm none 0 0x8e none none 0 1 none
  else if gpr a = 1 ∧ b = .IMM8 then some (.plusR 0xb0 1 1)
  else if gpr a = 2 ∧ 0 < immSz b ∧ immSz b ≤ 2 then some (.plusR 0xb8 2 2)
  else if gpr a = 4 ∧ 0 < immSz b ∧ immSz b ≤ 4 then some (.plusR 0xb8 4 4)
  else if gpr a = 8 ∧ b = .IMM64 then some (.plusR 0xb8 8 8)
  else if gpr a = 8 ∧ 0 < immSz b then
    -- REX.W + C7 /0 id
    some (.rm ⟨some ⟨none, 0, 0xc7, none, none⟩, none, none, some 8, none, some 0, 0, none,
      some (1, 4), none, false, 1, 1⟩)
  else if gpr a ≠ 0 ∧ isMem b then
    if a = .R8_AL ∨ a = .R16_AX ∨ a = .R32_EAX ∨ a = .R64_RAX then
      some (.moffs (if gpr a = 1 then 0xa0 else 0xa1) (gpr a) 1)
    else lrm none 0 (if gpr a = 1 then 0x8a else 0x8b) none (osz (gpr a)) 0 1 none
  else if gpr b ≠ 0 ∧ isMem a then
    if b = .R8_AL ∨ b = .R16_AX ∨ b = .R32_EAX ∨ b = .R64_RAX then
      some (.moffs (if gpr b = 1 then 0xa2 else 0xa3) (gpr b) 0)
    else lrm none 0 (if gpr b = 1 then 0x88 else 0x89) none (osz (gpr b)) 1 0 none
  else if isMem a ∧ 0 < immSz b then
    -- C6 /0 ib, C7 /0 iw, C7 /0 id, REX.W C7 /0 id
    let s := match a with
      | .M8 => 1 | .M16 => 2 | .M32 => 4 | .M64 => 8 | _ => immSz b
    some (.rm ⟨some ⟨none, 0, if s = 1 then 0xc6 else 0xc7, none, none⟩, none, none, osz s, none,
      some 0, 0, none, some (1, min s 4), none, false, 1, 1⟩)
  else none

/-- Disp8 multiplier classes (SDM table 2-34, 2-35). -/
inductive Tuple
  /-- full vector, broadcast element size -/
  | full (elem : Nat)
  /-- full vector, no broadcast -/
  | fullMem
  /-- half vector with 4-byte broadcast -/
  | half
  /-- one eighth of the vector -/
  | eighth
  /-- one element -/
  | scalar (elem : Nat)

/-- The multiplier without and with broadcast. -/
def Tuple.n : Tuple → Nat → Nat × Nat
  | .full e, l => (16 * 2 ^ l, e)
  | .fullMem, l => (16 * 2 ^ l, 16 * 2 ^ l)
  | .half, l => (8 * 2 ^ l, 4)
  | .eighth, l => (2 * 2 ^ l, 2 * 2 ^ l)
  | .scalar e, _ => (e, e)

/-- A vector instruction: prefix, map, W for VEX (`none`: no VEX form; `some none`: WIG) and
EVEX, opcode. -/
structure VI where
  pp : Nat
  map : Nat
  op : Nat
  vexW : Option (Option Bool)
  evexW : Option (Option Bool)
  tuple : Tuple
  /-- the vector length is ignored -/
  lig : Bool := false

/-- The form of a vector instruction at vector length `l` with the operands given; VEX has only
128 and 256 bits. -/
def VI.form (i : VI) (l reg rm : Nat) (v : Option Nat) (imm : Option (Nat × Nat))
    (is4 : Option Nat) (vsib : Bool) : Option Entry :=
  let e (w : Option Bool) : Enc := ⟨some i.pp, i.map, i.op, w, if i.lig then none else some l⟩
  some (.rm ⟨none, if l < 2 then i.vexW.map e else none, i.evexW.map e, none, some reg, none, rm,
    v, imm, is4, vsib, (i.tuple.n l).1, (i.tuple.n l).2⟩)

/-- Register-or-memory operand with the vector length `l`. -/
def vm (l : Nat) (t : OpType) : Bool := vl t = some l || isMem t

/-- Vector load/store moves: opcodes of the load and store form. -/
def vmove (ld st : VI) (ops : List OpType) : Option Entry :=
  match ops with
  | [a, b] =>
    match vl a with
    | some l => if vm l b then ld.form l 0 1 none none none false else none
    | none => match isMem a, vl b with
      | true, some l => st.form l 1 0 none none none false
      | _, _ => none
  | _ => none

/-- SSE two-operand form `xmm, xmm/m`. -/
def sse (pp map op : Nat) (w : Option Bool) (ops : List OpType) (src : OpType → Bool) :
    Option Entry :=
  match ops with
  | [.R_XMM, b] => if src b then lrm (some pp) map op w none 0 1 none else none
  | _ => none

/-- The manual's forms, by mnemonic and operand types (without trailing `OP_N`). -/
def sdm (mn : List Char) (ops : List OpType) : Option Entry :=
  let wig : Option (Option Bool) := some none
  let w0 : Option (Option Bool) := some (some false)
  let w1 : Option (Option Bool) := some (some true)
  let xm (t : OpType) : Bool := vm 0 t
  match mn with
  | ['c','l','c'] => some (.fixed [0xf8])
  | ['c','l','d'] => some (.fixed [0xfc])
  | ['c','l','i'] => some (.fixed [0xfa])
  | ['c','l','t','s'] => some (.fixed [0x0f, 0x06])
  | ['c','m','c'] => some (.fixed [0xf5])
  | ['c','p','u','i','d'] => some (.fixed [0x0f, 0xa2])
  | ['d','a','a'] => some (.fixed [0x27])
  | ['d','a','s'] => some (.fixed [0x2f])
  | ['h','l','t'] => some (.fixed [0xf4])
  | ['i','n','v','d'] => some (.fixed [0x0f, 0x08])
  | ['l','a','h','f'] => some (.fixed [0x9f])
  | ['l','e','a','v','e'] => some (.fixed [0xc9])
  | ['s','t','c'] => some (.fixed [0xf9])
  | ['s','t','d'] => some (.fixed [0xfd])
  | ['s','t','i'] => some (.fixed [0xfb])
  | ['f','2','x','m','1'] => some (.fixed [0xd9, 0xf0])
  | ['f','a','b','s'] => some (.fixed [0xd9, 0xe1])
  | ['f','c','h','s'] => some (.fixed [0xd9, 0xe0])
  | ['f','c','l','e','x'] => some (.fixed [0x9b, 0xdb, 0xe2])
  | ['f','n','c','l','e','x'] => some (.fixed [0xdb, 0xe2])
  | ['f','c','o','s'] => some (.fixed [0xd9, 0xff])
  | ['f','d','e','c','s','t','p'] => some (.fixed [0xd9, 0xf6])
  | ['f','i','n','c','s','t','p'] => some (.fixed [0xd9, 0xf7])
  | ['f','i','n','i','t'] => some (.fixed [0x9b, 0xdb, 0xe3])
  | ['f','n','i','n','i','t'] => some (.fixed [0xdb, 0xe3])
  | ['f','l','d','1'] => some (.fixed [0xd9, 0xe8])
  | ['f','l','d','l','2','t'] => some (.fixed [0xd9, 0xe9])
  | ['f','l','d','l','2','e'] => some (.fixed [0xd9, 0xea])
  | ['f','l','d','p','i'] => some (.fixed [0xd9, 0xeb])
  | ['f','l','d','l','g','2'] => some (.fixed [0xd9, 0xec])
  | ['f','l','d','l','n','2'] => some (.fixed [0xd9, 0xed])
  | ['f','l','d','z'] => some (.fixed [0xd9, 0xee])
  | ['f','n','o','p'] => some (.fixed [0xd9, 0xd0])
  | ['f','p','a','t','a','n'] => some (.fixed [0xd9, 0xf3])
  | ['f','p','r','e','m'] => some (.fixed [0xd9, 0xf8])
  | ['f','p','r','e','m','1'] => some (.fixed [0xd9, 0xf5])
  | ['f','p','t','a','n'] => some (.fixed [0xd9, 0xf2])
  | ['f','r','n','d','i','n','t'] => some (.fixed [0xd9, 0xfc])
  | ['f','s','c','a','l','e'] => some (.fixed [0xd9, 0xfd])
  | ['f','s','i','n'] => some (.fixed [0xd9, 0xfe])
  | ['f','s','i','n','c','o','s'] => some (.fixed [0xd9, 0xfb])
  | ['f','s','q','r','t'] => some (.fixed [0xd9, 0xfa])
  | ['f','t','s','t'] => some (.fixed [0xd9, 0xe4])
  | ['f','x','a','m'] => some (.fixed [0xd9, 0xe5])
  | ['f','x','c','h'] => some (.fixed [0xd9, 0xc9])
  | ['f','x','t','r','a','c','t'] => some (.fixed [0xd9, 0xf4])
  | ['f','y','l','2','x'] => some (.fixed [0xd9, 0xf1])
  | ['f','y','l','2','x','p','1'] => some (.fixed [0xd9, 0xf9])
  | ['m','o','v'] => match ops with
    | [a, b] => mov a b
    | _ => none
  | ['m','o','v','a','b','s'] => match ops with
    | [a, b] => match mov a b with
      | some (.moffs o s m) => some (.moffs o s m)
      | _ => none
    | _ => none
  | ['m','o','v','a','p','s'] => match ops with
    | [.R_XMM, b] => if xm b then lrm (some 0) 1 0x28 none none 0 1 none else none
    | [a, .R_XMM] => if isMem a then lrm (some 0) 1 0x29 none none 1 0 none else none
    | _ => none
  | ['m','u','l','p','s'] => sse 0 1 0x59 none ops xm
  | ['p','s','h','u','f','d'] => match ops with
    | [.R_XMM, b, .IMM8] => if xm b then lrm (some 1) 1 0x70 none none 0 1 (some (2, 1)) else none
    | _ => none
  | ['b','l','e','n','d','v','p','s'] => sse 1 2 0x14 none ops xm
  | ['m','p','s','a','d','b','w'] => match ops with
    | [.R_XMM, b, .IMM8] => if xm b then lrm (some 1) 3 0x42 none none 0 1 (some (2, 1)) else none
    | _ => none
  | ['c','v','t','s','i','2','s','s'] => match ops with
    | [.R_XMM, b] =>
      if gpr b = 4 ∨ b = .M32 ∨ b = .M_ANY then lrm (some 2) 1 0x2a (some false) none 0 1 none
      else if gpr b = 8 ∨ b = .M64 then lrm (some 2) 1 0x2a (some true) none 0 1 none
      else none
    | _ => none
  | ['v','m','o','v','a','p','s'] =>
    vmove { pp := 0, map := 1, op := 0x28, vexW := wig, evexW := w0, tuple := .fullMem }
      { pp := 0, map := 1, op := 0x29, vexW := wig, evexW := w0, tuple := .fullMem } ops
  | ['v','m','o','v','a','p','d'] =>
    vmove { pp := 1, map := 1, op := 0x28, vexW := wig, evexW := w1, tuple := .fullMem }
      { pp := 1, map := 1, op := 0x29, vexW := wig, evexW := w1, tuple := .fullMem } ops
  | ['v','m','o','v','d','q','a'] =>
    vmove { pp := 1, map := 1, op := 0x6f, vexW := wig, evexW := none, tuple := .fullMem }
      { pp := 1, map := 1, op := 0x7f, vexW := wig, evexW := none, tuple := .fullMem } ops
  | ['v','m','o','v','d','q','a','3','2'] =>
    vmove { pp := 1, map := 1, op := 0x6f, vexW := none, evexW := w0, tuple := .fullMem }
      { pp := 1, map := 1, op := 0x7f, vexW := none, evexW := w0, tuple := .fullMem } ops
  | ['v','m','o','v','d','q','a','6','4'] =>
    vmove { pp := 1, map := 1, op := 0x6f, vexW := none, evexW := w1, tuple := .fullMem }
      { pp := 1, map := 1, op := 0x7f, vexW := none, evexW := w1, tuple := .fullMem } ops
  | ['v','m','o','v','d','q','u'] =>
    vmove { pp := 2, map := 1, op := 0x6f, vexW := wig, evexW := none, tuple := .fullMem }
      { pp := 2, map := 1, op := 0x7f, vexW := wig, evexW := none, tuple := .fullMem } ops
  | ['v','m','o','v','d','q','u','8'] =>
    vmove { pp := 3, map := 1, op := 0x6f, vexW := none, evexW := w0, tuple := .fullMem }
      { pp := 3, map := 1, op := 0x7f, vexW := none, evexW := w0, tuple := .fullMem } ops
  | ['v','m','o','v','d','q','u','1','6'] =>
    vmove { pp := 3, map := 1, op := 0x6f, vexW := none, evexW := w1, tuple := .fullMem }
      { pp := 3, map := 1, op := 0x7f, vexW := none, evexW := w1, tuple := .fullMem } ops
  | ['v','m','o','v','d','q','u','3','2'] =>
    vmove { pp := 2, map := 1, op := 0x6f, vexW := none, evexW := w0, tuple := .fullMem }
      { pp := 2, map := 1, op := 0x7f, vexW := none, evexW := w0, tuple := .fullMem } ops
  | ['v','m','o','v','d','q','u','6','4'] =>
    vmove { pp := 2, map := 1, op := 0x6f, vexW := none, evexW := w1, tuple := .fullMem }
      { pp := 2, map := 1, op := 0x7f, vexW := none, evexW := w1, tuple := .fullMem } ops
  | ['v','m','u','l','p','s'] =>
    let i : VI := { pp := 0, map := 1, op := 0x59, vexW := wig, evexW := w0, tuple := .full 4 }
    match ops with
    | [a, b, c] => match vl a with
      | some l => if vl b = some l ∧ vm l c then i.form l 0 2 (some 1) none none false else none
      | none => none
    -- two operands: the first is also the first source
    | [a, b] => match vl a with
      | some l => if vl b = some l ∧ l < 2 then
          { i with evexW := none }.form l 0 1 (some 0) none none false else none
      | none => none
    | _ => none
  | ['v','p','s','h','u','f','d'] =>
    let i : VI := { pp := 1, map := 1, op := 0x70, vexW := wig, evexW := w0, tuple := .full 4 }
    match ops with
    | [a, b, .IMM8] => match vl a with
      | some l => if vm l b then i.form l 0 1 none (some (2, 1)) none false else none
      | none => none
    | _ => none
  | ['v','g','a','t','h','e','r','d','p','s'] =>
    let i : VI := { pp := 1, map := 2, op := 0x92, vexW := w0, evexW := w0, tuple := .scalar 4 }
    match ops with
    | [a, b, c] => match vl a with
      | some l => if isMem b ∧ vl c = some l then
          { i with evexW := none }.form l 0 1 (some 2) none none true else none
      | none => none
    | [a, b] => match vl a with
      | some l => if isMem b then
          { i with vexW := none }.form l 0 1 none none none true else none
      | none => none
    | _ => none
  | ['v','b','l','e','n','d','v','p','s'] =>
    let i : VI := { pp := 1, map := 3, op := 0x4a, vexW := w0, evexW := none, tuple := .fullMem }
    match ops with
    | [a, b, c, d] => match vl a with
      | some l => if vl b = some l ∧ vm l c ∧ vl d = some l then
          i.form l 0 2 (some 1) none (some 3) false else none
      | none => none
    | _ => none
  | ['v','m','p','s','a','d','b','w'] =>
    let i : VI := { pp := 1, map := 3, op := 0x42, vexW := wig, evexW := none, tuple := .fullMem }
    match ops with
    | [a, b, c, .IMM8] => match vl a with
      | some l => if vl b = some l ∧ vm l c then
          i.form l 0 2 (some 1) (some (3, 1)) none false else none
      | none => none
    | [a, b, .IMM8] => match vl a with
      | some l => if vl b = some l then i.form l 0 1 (some 0) (some (2, 1)) none false else none
      | none => none
    | _ => none
  | ['v','p','m','o','v','z','x','b','q'] =>
    let i : VI := { pp := 1, map := 2, op := 0x32, vexW := wig, evexW := wig, tuple := .eighth }
    match ops with
    | [a, b] => match vl a with
      | some l => if xm b then i.form l 0 1 none none none false else none
      | none => none
    | _ => none
  | ['v','b','r','o','a','d','c','a','s','t','s','d'] =>
    let i : VI := { pp := 1, map := 2, op := 0x19, vexW := w0, evexW := w1, tuple := .scalar 8 }
    match ops with
    | [a, b] => match vl a with
      | some l => if 0 < l ∧ xm b then i.form l 0 1 none none none false else none
      | none => none
    | _ => none
  | ['v','b','l','e','n','d','m','p','d'] =>
    let i : VI := { pp := 1, map := 2, op := 0x65, vexW := none, evexW := w1, tuple := .full 8 }
    match ops with
    | [a, b, c] => match vl a with
      | some l => if vl b = some l ∧ vm l c then i.form l 0 2 (some 1) none none false else none
      | none => none
    | _ => none
  | ['v','c','v','t','d','q','2','p','d'] =>
    let i : VI := { pp := 2, map := 1, op := 0xe6, vexW := wig, evexW := w0, tuple := .half }
    match ops with
    | [a, b] => match vl a with
      | some l => if isMem b ∨ vl b = some (l - 1) then i.form l 0 1 none none none false else none
      | none => none
    | _ => none
  | ['v','c','v','t','s','i','2','s','s'] =>
    let i (w : Option (Option Bool)) (n : Nat) : VI :=
      { pp := 2, map := 1, op := 0x2a, vexW := w, evexW := w, tuple := .scalar n, lig := true }
    match ops with
    | [.R_XMM, .R_XMM, c] =>
      if gpr c = 4 ∨ c = .M32 ∨ c = .M_ANY then (i w0 4).form 0 0 2 (some 1) none none false
      else if gpr c = 8 ∨ c = .M64 then (i w1 8).form 0 0 2 (some 1) none none false
      else none
    | _ => none
  | ['b','e','x','t','r'] => match ops with
    | [a, b, c] =>
      if (gpr a = 4 ∨ gpr a = 8) ∧ (gpr b = gpr a ∨ isMem b) ∧ gpr c = gpr a then
        some (.rm ⟨none, some ⟨some 0, 2, 0xf7, some (gpr a = 8), some 0⟩, none, none, some 0, none,
          1, some 2, none, none, false, 1, 1⟩)
      else none
    | _ => none
  | _ => none

/-- Register-to-register moves have a second encoding, with the roles of ModRM.reg and ModRM.rm
exchanged (store opcode). -/
def sdmAlt (mn : List Char) (ops : List OpType) : Option Entry :=
  let wig : Option (Option Bool) := some none
  let st (pp : Nat) (w : Bool) : Option Entry := match ops with
    | [a, b] => match vl a with
      | some l => if vl b = some l ∧ l < 2 then
          { pp := pp, map := 1, op := 0x29, vexW := wig, evexW := some (some w), tuple := .fullMem : VI }.form
            l 1 0 none none none false
        else none
      | none => none
    | _ => none
  match mn with
  | ['v','m','o','v','a','p','s'] => st 0 false
  | ['v','m','o','v','a','p','d'] => st 1 true
  | _ => none

/-- What an instruction of a given form says. -/
structure Reading where
  kind : Kind
  /-- a REX prefix is present: byte registers 4-7 are SPL, BPL, SIL, DIL instead of AH, CH, DH, BH -/
  rex : Bool
  /-- operand size of general-purpose instructions -/
  opSize : Nat
  /-- register in ModRM.reg -/
  reg : Nat
  rm : RM
  /-- register in vvvv -/
  v : Nat
  /-- register in bits 7:4 of the last byte -/
  is4 : Nat
  /-- immediate, unsigned -/
  imm : Nat
  /-- mask register, zeroing, broadcast, rounding control -/
  aaa : Nat
  z : Bool
  bcast : Bool
  rounding : Option Nat
  /-- segment override byte -/
  seg : Nat
  deriving DecidableEq, Repr

/-- Operand size of a general-purpose instruction in 32- and 64-bit code. -/
def opSize (h : Head) : Nat := if h.w then 8 else if h.pfx.osz then 2 else 4

/-- The encoding of a form in an encoding space. -/
def Form.enc (f : Form) : Kind → Option Enc
  | .legacy => f.legacy
  | .vex => f.vex
  | .evex => f.evex

/-- `none` admits everything. -/
def agrees {α : Type} [DecidableEq α] (x : Option α) (y : α) : Bool := x.isNone || x == some y

/-- Size of the immediate part of a form. -/
def Form.immLen (f : Form) : Nat := match f.imm with
  | some (_, k) => k
  | none => if f.is4.isSome then 1 else 0

/-- Is the operand a register? -/
def RM.isReg : RM → Bool
  | .reg _ => true
  | _ => false

/-- Read the bytes as one instruction of the form, complete and with nothing left over;
`none` if they are something else. -/
def readForm (f : Form) (m64 : Bool) (bs : List Nat) : Option Reading :=
  match head m64 bs with
  | none => none
  | some (h, r0) =>
    match f.enc h.kind with
    | none => none
    | some e =>
      if h.map = e.map ∧ h.opcode = e.opcode ∧ agrees e.pp h.pp ∧ agrees e.w h.w ∧
          agrees f.osz (opSize h) ∧ h.pfx.lock = false ∧ (e.pp.isNone → h.pfx.rep = 0) then
        match modrm m64 h f.vsib (if h.kind = .evex then (if h.bc then f.nb else f.n) else 1) r0 with
        | none => none
        | some (reg, rm, r1) =>
          -- EVEX.b with a register operand is static rounding, which implies 512 bits
          let rnd := h.bc && rm.isReg
          if (if rnd then agrees e.l 2 else agrees e.l h.ll) ∧ agrees f.digit reg ∧
              (f.v.isNone → h.vvvv % 16 = 0 ∧ (f.vsib ∨ h.v' = false)) then
            match takeN f.immLen r1 with
            | some (ib, []) =>
              some ⟨h.kind, h.rex, opSize h, reg, rm, h.vvvv, le ib / 16, le ib, h.aaa, h.z,
                h.bc && !rm.isReg, if rnd then some h.ll else none, h.pfx.seg⟩
            | _ => none
          else none
      else none

/-- Read the bytes as an instruction with its register in the opcode (`B0+rb`, `B8+rd io`) and an
immediate of `k` bytes: register number, whether there is a REX prefix, immediate. -/
def readPlusR (opcode sz k : Nat) (m64 : Bool) (bs : List Nat) : Option (Nat × Bool × Nat) :=
  match head m64 bs with
  | none => none
  | some (h, r) =>
    if h.kind = .legacy ∧ h.map = 0 ∧ h.opcode / 8 * 8 = opcode ∧ (sz = 1 ∨ opSize h = sz) ∧
        h.pfx.lock = false ∧ h.pfx.rep = 0 then
      match takeN k r with
      | some (ib, []) => some (h.opcode % 8 + addIf h.b 8, h.rex, le ib)
      | _ => none
    else none

/-- Read the bytes as an accumulator move with an absolute address: segment override byte and
address. -/
def readMoffs (opcode sz : Nat) (m64 : Bool) (bs : List Nat) : Option (Nat × Nat) :=
  match head m64 bs with
  | none => none
  | some (h, r) =>
    if h.kind = .legacy ∧ h.map = 0 ∧ h.opcode = opcode ∧ (sz = 1 ∨ opSize h = sz) ∧
        h.pfx.lock = false ∧ h.pfx.rep = 0 then
      match takeN (if m64 then (if h.pfx.asz then 4 else 8) else (if h.pfx.asz then 2 else 4)) r with
      | some (a, []) => some (h.pfx.seg, le a)
      | _ => none
    else none

end Verif.Cgv2.Isa
