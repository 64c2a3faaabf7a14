/-!
# Model of memory operands: `/repo/expreval.c` 1413-1451, 2536-2660, 3505-3550, `/repo/parser.c` 495-917, 1591-1990,
2103-2280 and `/repo/codegen.c` 468-523, 2250-2260, 2400-2425, 2650-2672, 2673-2856

Instructions of the classic code generator (before VEX_START, no EVEX, no string instructions, no LEA). Bytes and bit fields are
natural numbers, signed 64-bit values are integers in range.
-/
namespace Verif.ModRM

/-- USE16, USE32, USE64 -/
inductive Mode | u16 | u32 | u64
  deriving DecidableEq, Repr

/-- The `value` column of the register table (OP_R16, OP_R32, OP_R64, OP_RIP), H/special.h 40-60, 165-194. -/
inductive Cls | r16 | r32 | r64 | rip
  deriving DecidableEq, Repr

/-- A register: class and number (`bytval`; 16 for RIP). -/
structure Reg where
  cls : Cls
  no : Nat
  deriving DecidableEq, Repr

inductive Seg | es | cs | ss | ds | fs | gs
  deriving DecidableEq, Repr

inductive Err
  | multipleIndex | multipleBase | cannotMix | invalidUse | badScale | badMode | constTooLarge | offset16 | notIndex
  | badOperands | operandSize
  deriving DecidableEq, Repr

/-! ### The expression evaluator -/

/-- Wraps to a signed 64-bit value. -/
def wrap64 (x : Int) : Int := Int.bmod x (2 ^ 64)

/-- A term of the address in brackets. -/
inductive Term | reg (r : Reg) | mul (r : Reg) (k : Int) | num (v : Int)
  deriving DecidableEq, Repr

/-- Part of `struct expr`, H/expreval.h 79-137; `addr`: EXPR_ADDR (and then indirect), otherwise EXPR_CONST. -/
structure Opnd where
  addr : Bool := false
  base : Option Reg := none
  idx : Option Reg := none
  scale : Nat := 0
  value : Int := 0
  deriving DecidableEq, Repr

/-- index_connect, expreval.c 1413-1451. -/
def indexConnect (o1 o2 : Opnd) : Except Err Opnd := do
  let o1 ← match o2.base with
    | none => .ok o1
    | some b2 =>
      match o1.base, o1.idx with
      | none, _ => .ok { o1 with base := some b2 }
      | some b1, none =>
        if b2.no = 4 then .ok { o1 with idx := some b1, base := some b2 }
        else .ok { o1 with idx := some b2 }
      | some _, some _ => .error .multipleIndex
  match o2.idx with
  | none => .ok o1
  | some i2 =>
    match o1.idx with
    | none => .ok { o1 with idx := some i2, scale := o2.scale }
    | some _ => .error .multipleIndex

/-- A term: a register in brackets (expreval.c 969-1019), register * number (3525-3551; `scale` has 8 bits), a number.
Number * register is the same except that the upper half of the number stays in the displacement (not modelled). -/
def termOpnd : Term → Except Err Opnd
  | .reg r => .ok { addr := true, base := some r }
  | .mul r k =>
    let scale := (k % 256).toNat
    if scale = 0 then .error .badScale else .ok { addr := true, idx := some r, scale := scale }
  | .num v => .ok { value := v }

/-- plus_op, expreval.c 2536-2660 without symbols, types and overrides. -/
def plusOp (o1 o2 : Opnd) : Except Err Opnd :=
  match o1.addr, o2.addr with
  | false, false => .ok { o1 with value := wrap64 (o1.value + o2.value) }
  | true, true => do
    let o ← indexConnect o1 o2
    .ok { o with value := wrap64 (o1.value + o2.value) }
  | false, true => .ok { o2 with value := wrap64 (o2.value + o1.value) }
  | true, false => .ok { o1 with value := wrap64 (o1.value + o2.value) }

/-- The terms are added from left to right. -/
def evalTerms (ts : List Term) : Except Err Opnd :=
  match ts with
  | [] => .ok {}
  | t :: ts => do
    let o ← termOpnd t
    ts.foldlM (fun o t => do let o2 ← termOpnd t; plusOp o o2) o

/-! ### parser.c -/

/-- What memory_operand leaves in CodeInfo. -/
structure CI where
  adrsiz : Bool
  regOverride : Option Seg
  /-- mod_field and rm_field -/
  mod : Nat
  rm : Nat
  sib : Nat
  rex : Nat
  /-- base == T_RIP -/
  rip : Bool
  deriving DecidableEq, Repr

/-- The operand besides the expression. -/
structure Ctx where
  /-- offset size of the code -/
  mode : Mode
  /-- current cpu is 386 or better -/
  cpu386 : Bool := true
  /-- a fixup was created for the displacement -/
  fixup : Bool := false
  /-- segment register given in the source -/
  seg : Option Seg := none
  /-- for direct addressing: offset size of the symbol, or of what the segment register is assumed to be -/
  dir : Mode
  deriving DecidableEq, Repr

/-- `( GetValueSp( r ) & OP_R32 ) && Ofssize == USE32 ) || ...`, parser.c 1772-1774. Not for RIP. -/
def sizeFits (m : Mode) (r : Reg) : Bool :=
  match r.cls, m with
  | .r32, .u32 => true
  | .r64, .u64 => true
  | .r16, .u16 => true
  | _, _ => false

/-- `GetSflagsSp( r ) & SFR_SIZMSK` -/
def sflagsSize : Cls → Nat
  | .r16 => 2 | .r32 => 4 | .r64 => 8 | .rip => 8

/-- low and high half of the value, as signed numbers -/
def lo32 (v : Int) : Int := Int.bmod v (2 ^ 32)
def hi32 (v : Int) : Int := v / 2 ^ 32

/-- comp_mem16, parser.c 495-519; the registers are 16-bit registers. -/
def compMem16 (r1 r2 : Nat) : Except Err Nat :=
  if r1 = 3 then
    if r2 = 6 then .ok 0 else if r2 = 7 then .ok 1 else .error .multipleBase
  else if r1 = 5 then
    if r2 = 6 then .ok 2 else if r2 = 7 then .ok 3 else .error .multipleBase
  else .error .multipleIndex

/-- seg_override, parser.c 560-628, for operands whose segment is given by a register or not at all. -/
def segOverride (seg : Option Seg) (r : Option Reg) : Option Seg :=
  let default_seg : Seg :=
    match r with
    | some ⟨.r16, 5⟩ => .ss
    | some ⟨.r32, 5⟩ => .ss
    | some ⟨.r32, 4⟩ => .ss
    | _ => .ds
  if seg = some default_seg then none else seg

/-- mod_field at the beginning of set_rm_sib, parser.c 686-698. -/
def modField (fixup : Bool) (v : Int) (rip : Bool) : Nat :=
  if fixup then 0x80
  else if lo32 v = 0 ∨ rip = true then 0x00
  else if lo32 v > 127 ∨ lo32 v < -128 then 0x80
  else 0x40

def isRip : Option Reg → Bool
  | some r => r.cls == .rip
  | none => false

/-- set_rm_sib, parser.c 653-908 up to the end of the cases. `ss` is the scale factor in bits 6-7. -/
def setRmSib (cx : Ctx) (adrsiz : Bool) (ss : Nat) (idx base : Option Reg) (v : Int) : Except Err CI :=
  let mod := modField cx.fixup v (isRip base)
  match idx, base with
  | none, none =>
    -- direct; seg_override sets adrsiz (parser.c 606-615, 622), memory_operand with a fixup too (1873)
    let adrsiz := decide (cx.mode ≠ cx.dir)
    let ov := segOverride cx.seg none
    if (cx.mode = .u16 ∧ adrsiz = false) ∨ (cx.mode = .u32 ∧ adrsiz = true) then
      -- InWordRange
      if lo32 v > 65535 ∨ lo32 v < -65535 then .error .offset16
      else .ok { adrsiz, regOverride := ov, mod := 0, rm := 6, sib := 0, rex := 0, rip := false }
    else if cx.mode = .u64 ∧ cx.fixup = false then
      .ok { adrsiz, regOverride := ov, mod := 0, rm := 4, sib := 0x25, rex := 0, rip := false }
    else .ok { adrsiz, regOverride := ov, mod := 0, rm := 5, sib := 0, rex := 0, rip := false }
  | none, some b =>
    let ov := segOverride cx.seg (some b)
    if b = ⟨.r16, 6⟩ then .ok { adrsiz, regOverride := ov, mod, rm := 4, sib := 0, rex := 0, rip := false }
    else if b = ⟨.r16, 7⟩ then .ok { adrsiz, regOverride := ov, mod, rm := 5, sib := 0, rex := 0, rip := false }
    else if b = ⟨.r16, 5⟩ then
      .ok { adrsiz, regOverride := ov, mod := if mod = 0 then 0x40 else mod, rm := 6, sib := 0, rex := 0, rip := false }
    else if b = ⟨.r16, 3⟩ then .ok { adrsiz, regOverride := ov, mod, rm := 7, sib := 0, rex := 0, rip := false }
    else
      let base_reg := if b.no = 16 then 5 else b.no
      let bit3_base := base_reg >>> 3
      let base_reg := base_reg &&& 7
      .ok { adrsiz, regOverride := ov
            mod := if base_reg ≠ 4 ∧ base_reg = 5 ∧ mod = 0 ∧ b.cls ≠ .rip then 0x40 else mod
            rm := base_reg
            sib := if base_reg = 4 then 0x24 else 0
            rex := bit3_base
            rip := b.cls == .rip }
  | some i, none =>
    let idx_reg := i.no &&& 7
    let bit3_idx := i.no >>> 3
    .ok { adrsiz, regOverride := segOverride cx.seg none, mod := 0, rm := 4
          sib := ss ||| (idx_reg <<< 3) ||| 5, rex := bit3_idx <<< 1, rip := false }
  | some i, some b =>
    let base_reg := if b.cls = .rip then 5 else b.no
    let bit3_base := base_reg >>> 3
    let bit3_idx := i.no >>> 3
    let base_reg := base_reg &&& 7
    let idx_reg := i.no &&& 7
    if sflagsSize b.cls &&& sflagsSize i.cls = 0 then .error .cannotMix
    else if i = ⟨.r16, 3⟩ ∨ i = ⟨.r16, 5⟩ then do
      if b.cls ≠ .r16 then .error .multipleBase
      else
        let rm ← compMem16 i.no b.no
        .ok { adrsiz, regOverride := segOverride cx.seg (some i), mod, rm, sib := 0, rex := 0, rip := false }
    else if i = ⟨.r16, 6⟩ ∨ i = ⟨.r16, 7⟩ then do
      if b.cls ≠ .r16 then .error .multipleIndex
      else
        let rm ← compMem16 b.no i.no
        .ok { adrsiz, regOverride := segOverride cx.seg (some b), mod, rm, sib := 0, rex := 0, rip := false }
    else if i = ⟨.r64, 4⟩ ∨ i.cls = .rip ∨ i = ⟨.r32, 4⟩ then .error .invalidUse
    else
      .ok { adrsiz, regOverride := segOverride cx.seg (some b)
            mod := if base_reg = 5 ∧ mod = 0 ∧ b.cls ≠ .rip then 0x40 else mod
            rm := 4
            sib := ss ||| (idx_reg <<< 3) ||| base_reg
            rex := (bit3_idx <<< 1) + bit3_base
            rip := b.cls == .rip }

/-- parser.c 1769-1785 and 1788-1800: adrsiz from the registers. -/
def adrSize (m : Mode) (base idx : Option Reg) : Except Err Bool := do
  let a ← match base with
    | none => .ok false
    | some b =>
      if sizeFits m b then .ok false
      else if b.cls = .r16 ∧ m = .u64 then .error .badMode
      else .ok true
  match idx with
  | none => .ok a
  | some i => .ok (!sizeFits m i)

/-- parser.c 1802-1855: check of the index register and the scale factor. -/
def scaleFactor (cx : Ctx) (adrsiz : Bool) (idx : Option Reg) (scale : Nat) : Except Err Nat :=
  match idx with
  | none => .ok 0
  | some i =>
    if i.no = 4 then (if scale ≠ 0 then .error .notIndex else .error .multipleBase)
    else if (cx.mode = .u16 ∧ adrsiz = true) ∨ cx.mode = .u64 ∨ (cx.mode = .u32 ∧ adrsiz = false) then
      if cx.cpu386 then
        match scale with
        | 0 => .ok 0x00
        | 1 => .ok 0x00
        | 2 => .ok 0x40
        | 4 => .ok 0x80
        | 8 => .ok 0xC0
        | _ => .error .badScale
      else .error .badMode
    else if scale ≠ 0 then .error .invalidUse
    else .ok 0

/-- process_address (parser.c 1946-1966) and memory_operand (1591-1943) for an operand without types. -/
def memoryOperand (cx : Ctx) (o : Opnd) : Except Err CI := do
  if (o.base.isSome ∨ o.idx.isSome) ∧ cx.mode = .u64 ∧ hi32 o.value ≠ 0 ∧ (hi32 o.value ≠ -1 ∨ lo32 o.value ≥ 0) then
    .error .constTooLarge
  else
    let adrsiz ← adrSize cx.mode o.base o.idx
    let ss ← scaleFactor cx adrsiz o.idx o.scale
    setRmSib cx adrsiz ss o.idx o.base o.value

/-! ### Combination with the other operand, and output -/

/-- The other operand: a register in the first place (the memory operand is the second one), a register in the second place,
or no register (then the instruction table gives the reg field). -/
inductive Other | regFirst (no : Nat) | regSecond (no : Nat) | digit (d : Nat)
  deriving DecidableEq, Repr

/-- rm_byte and rex: process_register 2233-2275, the end of set_rm_sib 887-906, and the exchange in output_opc, codegen.c
516-523 (instructions with a register first have `opnd_dir`). -/
def combine (ci : CI) (other : Other) : Nat × Nat :=
  match other with
  | .digit d =>
    let mod := if ci.rip then ci.mod &&& 7 else ci.mod
    (mod ||| ci.rm ||| (d <<< 3), ci.rex)
  | .regSecond no =>
    let mod := if ci.rip then ci.mod &&& 7 else ci.mod
    let rm_byte := mod ||| ci.rm
    ((rm_byte &&& 0xC7) ||| ((no &&& 7) <<< 3), ci.rex ||| ((no &&& 8) >>> 1))
  | .regFirst no =>
    let rm_byte := 0xC0 ||| (no &&& 7)
    let rex := (no &&& 8) >>> 3
    let mod := if ci.rip then ci.mod &&& 7 else ci.mod
    let rm_byte := mod ||| (ci.rm <<< 3) ||| (rm_byte &&& 7)
    let rex := rex ||| ((ci.rex >>> 2) ||| (ci.rex &&& 2) ||| ((ci.rex &&& 1) <<< 2))
    ((rm_byte &&& 0xC0) ||| ((rm_byte >>> 3) &&& 7) ||| ((rm_byte <<< 3) &&& 0x38),
      (rex &&& 0xFA) ||| ((rex &&& 4) >>> 2) ||| ((rex &&& 1) <<< 2))

/-- Little endian bytes of a number. -/
def leBytes (v : Int) : Nat → List Nat
  | 0 => []
  | n + 1 => (v % 256).toNat :: leBytes (v / 256) n

/-- The size of the displacement, output_data, codegen.c 2754-2800. -/
def dispSize (m : Mode) (adrsiz : Bool) (rm_byte sib : Nat) : Nat :=
  let is16 : Bool := (m == .u16 && !adrsiz) || (m == .u32 && adrsiz)
  if rm_byte &&& 0xC0 = 0x40 then 1
  else if rm_byte &&& 0xC0 = 0x00 then
    if is16 then (if rm_byte &&& 7 = 6 then 2 else 0)
    else if rm_byte &&& 7 = 4 then (if sib &&& 7 ≠ 5 then 0 else 4)
    else if rm_byte &&& 7 = 5 then 4
    else 0
  else if rm_byte &&& 0xC0 = 0x80 then (if is16 then 2 else 4)
  else 0

/-- The test of codegen.c 2785: only where the displacement has no base register in 64-bit code. -/
def dispError (m : Mode) (rm_byte sib : Nat) (v : Int) : Bool :=
  m == .u64 && rm_byte &&& 0xC0 == 0 && (rm_byte &&& 7 == 5 || (rm_byte &&& 7 == 4 && sib &&& 7 == 5)) &&
    (decide (v % 2 ^ 64 ≥ 0x80000000) && decide (v % 2 ^ 64 < 0xffffffff80000000))

/-- SIB byte, codegen.c 2652-2668. -/
def sibBytes (m : Mode) (adrsiz : Bool) (tmp sib : Nat) : List Nat :=
  if m = .u16 ∧ adrsiz = false then []
  else if tmp &&& 0xC7 = 0x04 ∨ tmp &&& 0xC7 = 0x44 ∨ tmp &&& 0xC7 = 0x84 then [sib]
  else []

/-- What is emitted for the operand. -/
structure Enc where
  /-- prefix 67 -/
  p67 : Bool
  seg : Option Seg
  /-- REX prefix (without W), 0: none -/
  rex : Nat
  /-- ModRM, SIB, displacement -/
  bytes : List Nat
  deriving DecidableEq, Repr

/-- output_opc and output_data for the operand. -/
def output (cx : Ctx) (ci : CI) (other : Other) (v : Int) : Except Err Enc :=
  let (rm_byte, rex) := combine ci other
  let tmp := if ci.rip then rm_byte &&& 0x7F else rm_byte
  if rex ≠ 0 ∧ cx.mode ≠ .u64 then .error .operandSize
  else if dispError cx.mode rm_byte ci.sib v then .error .badOperands
  else .ok {
    p67 := ci.adrsiz && !ci.rip
    seg := ci.regOverride
    rex := rex
    bytes := tmp :: (sibBytes cx.mode ci.adrsiz tmp ci.sib ++ leBytes v (dispSize cx.mode ci.adrsiz rm_byte ci.sib)) }

/-- The whole way of a memory operand `[t + t + ...]`. -/
def assemble (cx : Ctx) (ts : List Term) (other : Other) : Except Err Enc := do
  let o ← evalTerms ts
  let ci ← memoryOperand cx o
  output cx ci other o.value

end Verif.ModRM
