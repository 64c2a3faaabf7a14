import Verif.Cgv2.Types
import Verif.Cgv2.RegTab

/-!
# codegenv2.c: the hashed instruction table and the lookup of an instruction form
-/

namespace Verif.Cgv2

/-- The FNV-1a loop of `hash`: codegenv2.c:40-45, on 64-bit unsigned integers. -/
def fnvLoop : List Nat → Nat → Nat
  | [], h => h
  | b :: bs, h => fnvLoop bs (((h ^^^ b) * 1099511628211) % 2 ^ 64)

/-- `hash`: codegenv2.c:34-47. -/
def hash (data : List Nat) : Nat :=
  let h := fnvLoop data 14695981039346656037
  ((h >>> 49) ^^^ h) &&& 0x3fff

/-- `tolower` on one character of a mnemonic (mnemonics are ASCII). -/
def lowerC (c : Char) : Nat :=
  if 65 ≤ c.toNat ∧ c.toNat ≤ 90 then c.toNat + 32 else c.toNat

/-- `GenerateInstrHash`: codegenv2.c:69-91.  The hash covers the lower-cased mnemonic and the
first four operand types (`len += 4`; the fifth is stored but not hashed). -/
def generateInstrHash (mnemonic : List Char) (op : Nat → OpType) : Nat :=
  hash (mnemonic.map lowerC ++ [(op 0).toByte, (op 1).toByte, (op 2).toByte, (op 3).toByte])

/-- `InstrHash[16384]`: every slot holds its chain, in `next` order. -/
abbrev HashTab := Nat → List Instr

/-- `InsertInstruction`: codegenv2.c:53-67, append at the end of the chain. -/
def insertInstruction (t : HashTab) (p : Instr) (h : Nat) : HashTab :=
  fun i => if i = h then t i ++ [p] else t i

/-- The loop of `BuildInstructionTable`: codegenv2.c:102-108. -/
def buildLoop : List Instr → HashTab → HashTab
  | [], t => t
  | p :: ps, t => buildLoop ps (insertInstruction t p (generateInstrHash p.mnemonic p.op))

/-- `BuildInstructionTable`: codegenv2.c:93-109. -/
def buildInstructionTable (tbl : List Instr) : HashTab := buildLoop tbl (fun _ => [])

/-- `strcasecmp(a, b) == 0`, character by character. -/
def strcaseeq : List Char → List Char → Bool
  | [], [] => true
  | a :: as, b :: bs => if lowerC a = lowerC b then strcaseeq as bs else false
  | _, _ => false

/-- What a lookup depends on: the arguments of `LookupInstruction` and the globals it reads. -/
structure Query where
  /-- `instr->mnemonic` -/
  mnemonic : List Char
  /-- `instr->operand_types[]` -/
  op : Nat → OpType
  /-- `memReg` -/
  memReg : Bool
  /-- `encodeMode`: X16, X32 or X64 -/
  mode : Nat
  srcRegNo : Nat
  dstRegNo : Nat
  /-- `CodeInfo->evex_flag` -/
  evexFlag : Bool
  /-- `broadflags`: 0 or 0x10, 0x20, 0x30, 0x40 -/
  broad : Nat
  /-- `CodeInfo->token == T_VCVTPD2PS || CodeInfo->token == T_VCVTTPD2DQ` -/
  cvtTok : Bool

/-- The test of one chain element: codegenv2.c:369-405. -/
def tryEntry (p : Instr) (q : Query) : Bool :=
  if strcaseeq p.mnemonic q.mnemonic && p.op 0 == q.op 0 && p.op 1 == q.op 1 &&
     p.op 2 == q.op 2 && p.op 3 == q.op 3 && has p.validModes q.mode then
    if q.memReg && has p.flags NO_MEM_REGF then false
    else if has p.flags SRCHDSTLF &&
        ((q.srcRegNo ≤ 7 && q.dstRegNo > 7) || (q.srcRegNo ≤ 7 && q.dstRegNo ≤ 7) ||
         (q.srcRegNo > 7 && q.dstRegNo > 7) || q.evexFlag) then false
    else if q.broad != 0 && q.cvtTok then
      (p.opElements == 2 && q.broad == 0x10) || (p.opElements == 4 && q.broad == 0x20) ||
      (p.opElements == 8 && q.broad == 0x30)
    else true
  else false

/-- The walk along the chain: codegenv2.c:367-413. -/
def walk : List Instr → Query → Option Instr
  | [], _ => none
  | p :: ps, q => if tryEntry p q then some p else walk ps q

/-- `LookupInstruction`: codegenv2.c:359-417. -/
def lookupInstruction (t : HashTab) (q : Query) : Option Instr :=
  walk (t (generateInstrHash q.mnemonic q.op)) q

/-- `DemoteOperand`: codegenv2.c:116-145. -/
def demoteOperand (op : OpType) : OpType :=
  if op = .R8_AL then .R8
  else if op = .R16_AX then .R16
  else if op = .R32_EAX then .R32
  else if op = .R64_RAX then .R64
  else if op = .R8_CL then .R8
  else if op = .R16_CX then .R16
  else if op = .R32_ECX then .R32
  else if op = .R64_RCX then .R64
  else if op = .R16_DX then .R16
  else if op = .M8 ∨ op = .M16 ∨ op = .M32 ∨ op = .M48 ∨ op = .M64 ∨ op = .M80 ∨
      op = .M128 ∨ op = .M256 ∨ op = .M512 then .M_ANY
  else op

/-- The two lookups of `CodeGenV2`: codegenv2.c:1602-1611.  `opCount` is at most 4; the types
beyond it are `OP_N` (the structure is cleared, codegenv2.c:1561), which demotion keeps. -/
def findForm (t : HashTab) (q : Query) : Option Instr :=
  match lookupInstruction t q with
  | some p => some p
  | none => lookupInstruction t { q with op := fun i => demoteOperand (q.op i) }

/-- `OP_M`: H/operands.h:143. -/
abbrev OP_M : Nat := 0x8f800000

/-- `MatchOperand`: codegenv2.c:147-357.  `type` is `op.type` (H/operands.h), `tok` and `name`
are the token value and the text of `opExpr.base_reg` (only read for register operands).
`none` is the uninitialised `result` of the operand classes without a `case`. -/
def matchOperand (type tok : Nat) (name : String) : Option OpType :=
  let special (names : List String) : Bool := names.any (fun s => strcaseeq name.toList s.toList)
  let drs := ["dr0", "dr1", "dr2", "dr3", "dr4", "dr5", "dr6", "dr7"]
  if type = OP_M then some .M_ANY
  else if type = 0x00800000 then some .M8
  else if type = 0x01000000 then some .M16
  else if type = 0x02000000 then some .M32
  else if type = 0x04000000 then some .M64
  else if type = 0x40000000 then some .M48
  else if type = 0x80000000 then some .M80
  else if type = 0x08000000 then some .M128
  else if type = 0x10000000 then some .M256
  else if type = 0x20000000 then some .M512
  else if type = 0x2000 then some .R_SEG
  else if type = 0x6000 then some .R_SEG
  else if type = 0x4000 then some .R_SEGE
  else if type = 0x1000 then  -- OP_RSPEC, codegenv2.c:188-213
    if special ["cr0", "cr2", "cr3", "cr4"] then some .R_CR
    else if special ["cr8"] then some .R_CR8
    else if special drs then some .R_DR
    else some .R_RIP
  else if type = 0x40 then some .R_K
  else if type = 0x1010 then  -- OP_RIP, codegenv2.c:217-243
    if special ["cr0", "cr2", "cr3", "cr4", "cr8"] then some .R_CR
    else if special ["cr8"] then some .R_CR8
    else if special drs then some .R_DR
    else some .R_RIP
  else if type = 0x201 then some .R8_AL
  else if type = 0x401 then some .R8_CL
  else if type = 0x202 then some .R16_AX
  else if type = 0x204 then some .R32_EAX
  else if type = 0x208 then some .R64_RAX
  else if type = 0 then some .OP_N
  else if type = 1 then  -- OP_R8, codegenv2.c:262-279
    if T_AH ≤ tok ∧ tok ≤ T_BH then some .R8H
    else if T_R8B ≤ tok ∧ tok ≤ T_R15B then some .R8E
    else if T_SPL ≤ tok ∧ tok ≤ T_DIL then some .R8U
    else if tok = T_AL then some .R8_AL
    else some .R8
  else if type = 0x802 then some .R16_DX
  else if type = 2 then
    if tok = T_AX then some .R16_AX
    else if T_R8W ≤ tok ∧ tok ≤ T_R15W then some .R16E
    else some .R16
  else if type = 4 then
    if tok = T_EAX then some .R32_EAX
    else if T_R8D ≤ tok ∧ tok ≤ T_R15D then some .R32E
    else some .R32
  else if type = 8 then
    if tok = T_RAX then some .R64_RAX
    else if T_R8 ≤ tok ∧ tok ≤ T_R15 then some .R64E
    else some .R64
  else if type = 0x00020000 then some .IMM8
  else if type = 0x00040000 then some .IMM16
  else if type = 0x00080000 then some .IMM32
  else if type = 0x00200000 then some .IMM48
  else if type = 0x00100000 then some .IMM64
  else if type = 0x20 then some .R_XMM
  else if type = 0x80 then some .R_YMM
  else if type = 0x100 then some .R_ZMM
  -- `case OP_MMX` has no break: it falls into `case OP_ST` (codegenv2.c:346-350)
  else if type = 0x10 then some .R_ST0
  else if type = 0x8000 then some .R_ST0
  else if type = 0x10000 then some .R_ST
  else none

end Verif.Cgv2
