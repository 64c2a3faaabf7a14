import Verif.ModRM.Model
/-!
# Model of ASSUME and of the choice of the segment register: `/repo/assume.c`, `/repo/parser.c` 521-660, 910-952, 1590-1770,
2150-2172, 2288-2400, `/repo/fixup.c` 148-187, `/repo/segment.c` 169-197, 485-495

Symbols for segments and groups are identified by a number (the code compares pointers). Text macros, the parsing of the
operands and the CPU check of ASSUME are not modelled.
-/
namespace Verif.Assume
open Verif.ModRM (Seg Mode Reg Cls)

/-- A symbol of state SYM_SEG or SYM_GRP. -/
inductive Area | seg (n : Nat) | grp (n : Nat)
  deriving DecidableEq, Repr

/-- The segments and groups of the module: `seginfo->group` of a segment, `ModuleInfo.flat_grp` (or NULL). -/
structure Env where
  groupOf : Nat → Option Nat
  flat : Option Nat

/-- `struct assume_info`, H/assume.h 43-48, of a segment register. -/
structure Entry where
  symbol : Option Area := none
  isFlat : Bool := false
  error : Bool := false
  deriving DecidableEq, Repr

/-- `SegAssumeTable`, assume.c 57. -/
abbrev Table := Seg → Entry

def Table.set (t : Table) (r : Seg) (e : Entry) : Table := fun s => if s = r then e else t s

/-- AssumeInit, assume.c 148-160: the segment registers at the start of a pass (without saved state) and after ASSUME NOTHING. -/
def initTable : Table := fun _ => {}

/-- `info->symbol == &ModuleInfo.flat_grp->sym` -/
def Env.isFlat (e : Env) (a : Area) : Bool :=
  match e.flat, a with
  | some f, .grp g => f == g
  | _, _ => false

/-! ### The directive -/

/-- What stands behind `segreg:` in ASSUME: ERROR, NOTHING, a segment or group, `SEG label` (the segment of the label),
another segment register, or something else. -/
inductive SegArg | error | nothing | area (a : Area) | segOf (segment : Option Nat) | reg (r : Seg) | other
  deriving DecidableEq, Repr

/-- An item of ASSUME for a segment register: assume.c 351-360 (ERROR), 361-369 (NOTHING), 409-440. `none`: error, nothing
is changed. -/
def segItem (e : Env) (t : Table) (r : Seg) : SegArg → Option Table
  | .error => some (t.set r { symbol := none, isFlat := false, error := true })
  | .nothing => some (t.set r { symbol := none, isFlat := false, error := false })
  | .area a => some (t.set r { symbol := some a, isFlat := e.isFlat a, error := false })
  | .segOf s => some (t.set r { symbol := s.map .seg, isFlat := false, error := false })
  | .reg r2 => some (t.set r { symbol := (t r2).symbol, isFlat := (t r2).isFlat, error := false })
  | .other => none

/-- UpdateCurrSegVars, segment.c 169-197: called when the current segment changes. -/
def updateCS (e : Env) (t : Table) : Option Nat → Table
  | none => t.set .cs { symbol := none, isFlat := false, error := true }
  | some s =>
    match e.groupOf s with
    | some g => t.set .cs { symbol := some (.grp g), isFlat := e.isFlat (.grp g), error := false }
    | none => t.set .cs { symbol := some (.seg s), isFlat := false, error := false }

/-- What happens to the table: an item of ASSUME, ASSUME NOTHING, another current segment (or none). -/
inductive Event | item (r : Seg) (a : SegArg) | nothing | segment (s : Option Nat)
  deriving DecidableEq, Repr

def step (e : Env) (t : Table) : Event → Table
  | .item r a => (segItem e t r a).getD t
  | .nothing => initTable
  | .segment s => updateCS e t s

/-- The table after a history. -/
def run (e : Env) (h : List Event) : Table := h.foldl (step e) initTable

/-! ### Search -/

/-- `searchtab`, assume.c 79-81 -/
def searchtab : List Seg := [.ds, .ss, .es, .fs, .gs, .cs]

/-- GetGroup, segment.c 485-495: for a segment its group; a group has no segment. -/
def getGroup (e : Env) : Area → Option Nat
  | .seg s => e.groupOf s
  | .grp _ => none

/-- The test for groups, assume.c 470-475 and 488-493. -/
def grpMatches (e : Env) (t : Table) (grp : Nat) (r : Seg) : Bool :=
  ((t r).isFlat && e.flat == some grp) || (t r).symbol == some (.grp grp)

/-- `search_grps && grp`, and the test for groups -/
def inGroup (e : Env) (t : Table) (grp : Option Nat) (r : Seg) : Bool :=
  match grp with
  | some g => grpMatches e t g r
  | none => false

/-- search_assume, assume.c 454-497. -/
def searchAssume (e : Env) (t : Table) (sym : Option Area) (deflt : Option Seg) (grps : Bool) : Option Seg :=
  match sym with
  | none => none
  | some a =>
    let grp := if grps then getGroup e a else none
    let isDefault : Bool :=
      match deflt with
      | some d => (t d).symbol == some a || inGroup e t grp d
      | none => false
    if isDefault then deflt
    else
      match searchtab.find? (fun r => (t r).symbol == some a) with
      | some r => some r
      | none => searchtab.find? (inGroup e t grp)

/-- States of the symbol of a memory operand. -/
inductive State | internal | external | stack | undefined
  deriving DecidableEq, Repr

/-- The symbol of a memory operand: state and segment. -/
structure MSym where
  state : State
  segment : Option Nat
  deriving DecidableEq, Repr

/-- GetAssume, assume.c 525-559: the register, and the symbol it is assumed to. -/
def getAssume (e : Env) (t : Table) (override : Option Area) (sym : Option MSym) (d : Seg) : Option Seg × Option Area :=
  if (t d).isFlat then (some d, e.flat.map .grp)
  else
    let reg : Option Seg :=
      match override, sym with
      | some o, _ => searchAssume e t (some o) (some d) false
      | none, some s => if s.state = State.stack then some .ss else searchAssume e t (s.segment.map .seg) (some d) true
      | none, none => none   -- not called
    let reg : Option Seg :=
      match reg, sym with
      | none, some s => if s.state = State.external ∧ s.segment = none then some d else none
      | r, _ => r
    match reg with
    | some r => (some r, (t r).symbol)
    | none => (none, none)

/-! ### Fixup frames -/

/-- Frame_Type and Frame_Datum -/
inductive Frame | none | area (a : Area)
  deriving DecidableEq, Repr

/-- SetFixupFrame, fixup.c 148-187, for a SEG or GRP symbol (or NULL). -/
def setFrameArea (old : Frame) : Option Area → Frame
  | some a => .area a
  | none => old

/-- SetFixupFrame for the symbol of the operand, `ign_grp == FALSE`. -/
def setFrameSym (e : Env) (old : Frame) (s : MSym) : Frame :=
  match s.state, s.segment with
  | .internal, some n | .external, some n =>
    match e.groupOf n with
    | some g => .area (.grp g)
    | none => .area (.seg n)
  | _, _ => old

/-! ### parser.c -/

inductive Err | cannotAccess | assumedToError | illegalSegReg | invalidOperands
  deriving DecidableEq, Repr

/-- Segment part of an operand in the source: none, a register, or the name of a segment or group. -/
inductive Override | none | reg (r : Seg) | area (a : Area)
  deriving DecidableEq, Repr

/-- The part of CodeInfo and of the global variables that is set: prefix.RegOverride, SegOverride, Frame_Type/Frame_Datum. -/
structure S where
  regOverride : Option Seg := none
  segOverride : Option Area := none
  frame : Frame := .none
  deriving DecidableEq, Repr

/-- GetOverrideAssume, assume.c 505-513. -/
def getOverrideAssume (e : Env) (t : Table) (r : Seg) : Option Area :=
  if (t r).isFlat then e.flat.map .grp else (t r).symbol

/-- FS and GS: `temp >= ASSUME_FS` -/
def Seg.high : Seg → Bool
  | .fs | .gs => true
  | _ => false

/-- segm_override, parser.c 919-951; not MOVABS. -/
def segmOverride (e : Env) (t : Table) (mode : Mode) (ov : Override) (st : S) : Except Err S :=
  match ov with
  | .none => .ok st
  | .reg r =>
    if (t r).error then .error .assumedToError
    else if mode = .u64 ∧ Seg.high r = false then .error .illegalSegReg
    else
      .ok { st with regOverride := some r
                    segOverride := match getOverrideAssume e t r with | some a => some a | none => st.segOverride }
  | .area a => .ok { st with segOverride := some a }

/-- check_assume, parser.c 521-558. -/
def checkAssume (e : Env) (t : Table) (sym : Option MSym) (d : Seg) (st : S) : Except Err S :=
  match sym with
  | some ⟨.undefined, _⟩ => .ok st
  | _ =>
    let (reg, assume) := getAssume e t st.segOverride sym d
    let st := { st with frame := setFrameArea st.frame assume }
    match reg with
    | some r => .ok { st with regOverride := some r }
    | none =>
      match sym with
      | some s => if s.segment.isSome then .error .cannotAccess else .ok { st with regOverride := some d }
      | none => .error .cannotAccess

/-- `default_seg` in seg_override, parser.c 584-594. -/
def defaultSeg : Option Reg → Seg
  | some ⟨.r16, 5⟩ => .ss
  | some ⟨.r32, 5⟩ => .ss
  | some ⟨.r32, 4⟩ => .ss
  | _ => .ds

/-- Kinds of instructions that seg_override distinguishes. -/
inductive Kind | lea | string | other
  deriving DecidableEq, Repr

/-- seg_override, parser.c 560-628, up to the last test (628-630 remove the prefix of the default register; that test is
`Verif.ModRM.segOverride`). The address size is in `Verif.ModRM`. -/
def segOverride (e : Env) (t : Table) (kind : Kind) (r : Option Reg) (sym : Option MSym) (st : S) : Except Err S :=
  match kind with
  | .string => .ok st
  | .lea => .ok { st with regOverride := none, frame := match sym with | some s => setFrameSym e st.frame s | none => st.frame }
  | .other =>
    match st.regOverride with
    | some ro =>
      match sym with
      | some s =>
        .ok { st with frame := match getOverrideAssume e t ro with
                               | some a => setFrameArea st.frame (some a)
                               | none => setFrameSym e st.frame s }
      | none => .ok st
    | none =>
      if sym.isSome ∨ st.segOverride.isSome then checkAssume e t sym (defaultSeg r) st
      else .ok st

/-- The register that set_rm_sib passes to seg_override, parser.c 720 (direct), 801 (base), 821 (index), 851 (16-bit index BX or
BP), 858, 880 (base). -/
def overrideReg (idx base : Option Reg) : Option Reg :=
  match idx, base with
  | none, none => none
  | none, some b => some b
  | some _, none => none
  | some i, some b => if i = ⟨.r16, 3⟩ ∨ i = ⟨.r16, 5⟩ then some i else some b

/-- Segment register and frame for a memory operand: memory_operand, parser.c 1605-1612 (segm_override) and 1935 (set_rm_sib).
ParseLine sets Frame_Type = FRAME_NONE, SegOverride = NULL and RegOverride = EMPTY before (3222, 3358). -/
def operand (e : Env) (t : Table) (mode : Mode) (kind : Kind) (ov : Override) (sym : Option MSym) (idx base : Option Reg) :
    Except Err S := do
  let st ← segmOverride e t mode ov {}
  segOverride e t kind (overrideReg idx base) sym st

/-! ### String instructions -/

/-- The string instructions, by what HandleStringInstructions distinguishes: CMPS, MOVS, OUTS and LODS, the others (INS, SCAS,
STOS). -/
inductive Str | cmps | movs | lods | stos
  deriving DecidableEq, Repr

/-- prefix.RegOverride (and LastRegOverride) after both operands: segm_override 938-943 for each of them; seg_override does
nothing for these instructions. -/
def strPrefix (o1 o2 : Option Seg) : Option Seg × Option Seg :=
  match o1, o2 with
  | r1, some r2 => (some r2, r1)
  | r1, none => (r1, none)

/-- HandleStringInstructions, parser.c 2315-2399: the prefix that is emitted. `o1`, `o2`: segment registers in the operands
(LODS, STOS: the first one only). -/
def stringInstr (k : Str) (o1 o2 : Option Seg) : Except Err (Option Seg) :=
  let (ro, last) := strPrefix o1 o2
  match k with
  | .cmps =>
    match ro with
    | none => .ok none
    | some r =>
      if o2.isSome then
        if r = .es then .ok (if last = some .ds then none else last)
        else .error .invalidOperands
      else if r = .ds then .ok none
      else .ok (some r)
  | .movs =>
    match ro with
    | none => .ok none
    | some r =>
      if o2.isNone then .error .invalidOperands
      else if r = .ds then .ok none
      else .ok (some r)
  | .lods => .ok (if ro = some .ds then none else ro)
  | .stos =>
    match ro with
    | none => .ok none
    | some r => if r = .es then .ok none else .error .invalidOperands

/-! ### General registers -/

/-- General registers for ASSUME; `hi`: AH, CH, DH, BH (numbers 4-7). -/
inductive GCls | lo | hi | w | d | q
  deriving DecidableEq, Repr

structure GReg where
  cls : GCls
  no : Nat
  deriving DecidableEq, Repr

/-- `( reg >= T_AH && reg <= T_BH ) ? RH_ERROR : ( flags & OP_R )` as the number of a bit; H/assume.h 34-40,
H/operands.h 45-48. -/
def errBit : GCls → Nat
  | .lo => 0 | .w => 1 | .d => 2 | .q => 3 | .hi => 4

/-- `StdAssumeTable[].error`, by register number and bit. The table has NUM_STDREGS = 16 entries. -/
abbrev StdTable := Nat → Nat → Bool

inductive GArg | error | nothing | type
  deriving DecidableEq, Repr

/-- Items of ASSUME for general registers: assume.c 355, 366, 391 (a type that fits). -/
inductive GEvent | item (r : GReg) (a : GArg) | nothing
  deriving DecidableEq, Repr

/-- assume.c 351-391 and AssumeInit( -1 ). -/
def gstep (t : StdTable) : GEvent → StdTable
  | .item r .error => fun i b => if i = r.no ∧ b = errBit r.cls then true else t i b
  | .item r _ => fun i b => if i = r.no ∧ b = errBit r.cls then false else t i b
  | .nothing => fun _ _ => false

def grun (h : List GEvent) : StdTable := h.foldl gstep (fun _ _ => false)

/-- The test in process_register, parser.c 2157-2171: a register as operand is refused. -/
def regRefused (t : StdTable) (r : GReg) : Bool := t r.no (errBit r.cls)

/-- The tests in memory_operand, parser.c 1759-1767, for a base or index register; `none`: the index is outside of the table
(RIP has number 16, vector registers up to 31). -/
def eaRefused (t : StdTable) (no : Nat) : Option Bool :=
  if no < 16 then some (t no 0 || t no 1 || t no 2 || t no 3 || t no 4) else none

end Verif.Assume
