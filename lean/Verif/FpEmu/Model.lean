/-! # Model: floating point emulation fixups (fpfixup.c, codegen.c output_opc) -/
namespace Verif.FpEmu

/-- `MAX_LEDATA_THRESHOLD`.  Models H/omf.h 9. -/
def maxLedata : Nat := 1014

/-- `ins->allowed_prefix` of a floating point instruction.  Models H/instruct.h 542-721: 0, AP_FWAIT, AP_NO_FWAIT. -/
inductive Wait | implicit | fwait | noFwait
deriving DecidableEq

/-- A floating point instruction as it reaches `output_opc`.  Models codegen.c 152-300, 455-520.
Simplified: the bytes behind the opcode (ModRM, displacement) are given; LOCK and REP are rejected for these instructions. -/
structure Ins where
  /-- the instruction is FWAIT -/
  isWait : Bool
  /-- `ModuleInfo.emulator` in a 16-bit segment -/
  emu : Bool
  /-- the CPU is below the 80286 -/
  cpu86 : Bool
  wait : Wait
  /-- `prefix.adrsiz` -/
  adrsiz : Bool
  /-- `prefix.opsiz` -/
  opsiz : Bool
  /-- `prefix.RegOverride`: ES, CS, SS, DS, FS, GS -/
  seg : Option (Fin 6)
  /-- low three bits of the opcode D8..DF -/
  k : Nat
  rest : List Nat

/-- A piece of a code segment: other bytes, or a floating point instruction. -/
inductive Item
  | code (bs : List Nat)
  | fp (i : Ins)

/-- The segment while the object file is written: finished LEDATA records with their fixups, the buffer and its fixups.
Models segment.c seginfo and fixup.c 194-300; fixup locations are relative to `start_loc`, as FIXUPP has them. -/
structure St where
  recs : List (List Nat × List (Nat × String))
  buf : List Nat
  fix : List (Nat × String)
  ext : List String

/-- `omf_FlushCurrSeg`.  Models omf.c 501-519 and `omf_write_ledata`; no record is written for an empty buffer. -/
def flush (s : St) : St :=
  if s.buf.length = 0 then s else { s with recs := s.recs ++ [(s.buf, s.fix)], buf := [], fix := [] }

/-- `OutputByte`.  Models assemble.c 240-274. -/
def outputByte (s : St) (b : Nat) : St :=
  let s := if maxLedata ≤ s.buf.length then flush s else s
  { s with buf := s.buf ++ [b] }

/-- `sr_prefix`.  Models codegen.c 149-150. -/
def srPrefix (r : Fin 6) : Nat := [0x26, 0x2E, 0x36, 0x3E, 0x64, 0x65][r.1]!

/-- `patchmask`.  Models fpfixup.c 60. -/
def patchmask : Nat := 0xF8FF

/-- `patchchr2`.  Models fpfixup.c 62-64. -/
def patchchr2 : List Char := ['W', 'D', 'E', 'C', 'S', 'A', 'F', 'G']

/-- The patch.  Models fpfixup.c 78-84. -/
def patch (i : Ins) : Nat :=
  if i.isWait then 0 else match i.seg with
  | none => 1
  | some r => r.1 + 2

/-- The symbol of round `n`.  Models fpfixup.c 87-92. -/
def patchName (n p : Nat) : Option String :=
  if patchmask.testBit (n * 8 + p) then
    some (String.ofList ['F', (if n = 0 then 'I' else 'J'), patchchr2[p]!, 'R', 'Q', 'Q'])
  else none

/-- SymSearch and MakeExtern.  Models fpfixup.c 93-97; the names are used for nothing else in the program. -/
def declare (ext : List String) (n : Option String) : List String :=
  match n with
  | none => ext
  | some x => if x ∈ ext then ext else ext ++ [x]

/-- The fixup of round `n`.  Models fpfixup.c 112-123. -/
def storeFix (s : St) (n : Nat) (x : Option String) : St :=
  match x with
  | none => s
  | some x => { s with fix := s.fix ++ [(s.buf.length + n, x)] }

/-- `AddFloatingPointEmulationFixup`.  Models fpfixup.c 66-125. -/
def addFpFixup (s : St) (i : Ins) : St :=
  let s0 := patchName 0 (patch i)
  let s1 := patchName 1 (patch i)
  let s := { s with ext := declare (declare s.ext s0) s1 }
  let s := if s.buf.length + 3 > maxLedata then flush s else s
  storeFix (storeFix s 0 s0) 1 s1

/-- `fpfix`.  Models codegen.c 227-234. -/
def fpfix (i : Ins) : Bool := i.emu && i.wait != .noFwait

/-- NOP or FWAIT in front.  Models codegen.c 271-292. -/
def waitBytes (i : Ins) : List Nat :=
  if i.isWait then (if fpfix i then [0x90] else [])
  else if fpfix i || i.wait == .fwait then [0x9B]
  else if i.wait != .noFwait then (if i.cpu86 then [0x9B] else [])
  else []

/-- Prefixes, opcode and the rest.  Models codegen.c 455-515. -/
def opBytes (i : Ins) : List Nat :=
  if i.isWait then [0x9B]
  else (if i.adrsiz then [0x67] else []) ++ (if i.opsiz then [0x66] else [])
    ++ (match i.seg with | some r => [srPrefix r] | none => []) ++ [0xD8 + i.k] ++ i.rest

/-- An instruction or other bytes. -/
def step (s : St) : Item → St
  | .code bs => bs.foldl outputByte s
  | .fp i => (waitBytes i ++ opBytes i).foldl outputByte (if fpfix i then addFpFixup s i else s)

/-- A segment. -/
def init : St := ⟨[], [], [], []⟩

/-- The records of a segment: all, with the last buffer.  Models omf.c: the segments are flushed at the end. -/
def records (l : List Item) : List (List Nat × List (Nat × String)) := (flush (l.foldl step init)).recs

/-- The external symbols. -/
def externs (l : List Item) : List String := (l.foldl step init).ext

end Verif.FpEmu
