import Verif.Branch.Model
import Verif.Align.Model
/-!
# The pass loop (`/repo/assemble.c` AssembleModule) over one code segment

Source items: bytes, code labels, data labels, ALIGN and branches to labels of the segment. Pass 1 assumes forward branches to be
short and adjusts label offsets when it meets the label (`/repo/backptch.c`); later passes use the offsets of the previous pass.
Not modelled: several segments, ORG, PUSH of forward references, FAR labels.
-/
namespace Verif.Passes
open Verif.Branch

inductive Item
  | bytes (bs : List (BitVec 8))
  | label (l : Nat)
  /-- data definition with a label; `fs` is the third byte of the symbol's `first_size` -/
  | data (l : Nat) (fs : BitVec 8) (bs : List (BitVec 8))
  | align (k : Nat)
  | branch (b : Br) (l : Nat)
  deriving DecidableEq, Repr

/-- A label's symbol, `H/symbols.h` 150-205. `asmpass` overlays the third byte of `first_size`. -/
structure Lab where
  offset : BitVec 32
  asmpass : BitVec 8
  defined : Bool
  deriving DecidableEq, Repr

abbrev Labs := Nat → Lab

def upd (f : Labs) (l : Nat) (v : Lab) : Labs := fun n => if n = l then v else f n

inductive PErr
  | branch (e : BErr)
  | redefined     -- SYMBOL_ALREADY_DEFINED
  | undefined     -- SYMBOL_NOT_DEFINED
  deriving DecidableEq, Repr

/-- The address a branch to a known label is computed with, `branch.c` 204-226: the current offset if the label was not met in this
pass and lies (by its old offset) before the branch. `q` is `Parse_Pass & 0xFF`. -/
def branchAddr (q : BitVec 8) (cur : BitVec 32) (s : Lab) : BitVec 32 :=
  if s.asmpass ≠ q ∧ s.offset.slt cur then cur else s.offset

def alignMode : Ofs → Align.Mode | .use16 => .use16 | .use32 => .use32 | .use64 => .use64

/-- Padding of ALIGN, `posndir.c` 259-272 (the checks of the operand are in `Verif.Align`). -/
def padding (c : Ctx) (cur : BitVec 32) (k : Nat) : List (BitVec 8) :=
  let r := cur.toNat % k
  if r ≠ 0 then Align.fillCode (alignMode c.ofs) (k - r) else []

/-- State of a pass: `current_loc`, labels, `ModuleInfo.PhaseError`. -/
structure St where
  cur : BitVec 32
  labs : Labs
  phase : Bool

def St.put (s : St) (bs : List (BitVec 8)) : St := { s with cur := s.cur + BitVec.ofNat 32 bs.length }

/-- A label definition in pass 2 and later: `label.c` 171-199 (code labels, `asm := some pass`), `data.c` 1461-1492 (data labels,
whose `asmpass` byte belongs to `first_size`). There are no fixups to backpatch after pass 1. -/
def define (s : St) (l : Nat) (ap : BitVec 8) : St :=
  { s with labs := upd s.labs l ⟨s.cur, ap, true⟩, phase := s.phase || (s.labs l).offset != s.cur }

/-- One source item in pass 2 and later: new state and the bytes written. -/
def stepN (c : Ctx) (q : BitVec 8) (s : St) : Item → Except PErr (St × List (BitVec 8))
  | .bytes bs => .ok (s.put bs, bs)
  | .label l => .ok (define s l q, [])
  | .data l fs bs => .ok ((define s l fs).put bs, bs)
  | .align k => let bs := padding c s.cur k; .ok (s.put bs, bs)
  | .branch b l =>
    match assemble c b s.cur (branchAddr q s.cur (s.labs l)) with
    | .error e => .error (.branch e)
    | .ok bs => .ok (s.put bs, bs)

/-- All items of the source. -/
def itemsN (c : Ctx) (q : BitVec 8) : St → List Item → Except PErr (St × List (List (BitVec 8)))
  | s, [] => .ok (s, [])
  | s, i :: is =>
    match stepN c q s i with
    | .error e => .error e
    | .ok (s1, bs) =>
      match itemsN c q s1 is with
      | .error e => .error e
      | .ok (s2, cs) => .ok (s2, bs :: cs)

/-- A pass after the first: `OnePass`, `assemble.c` 1300-1420. -/
def passN (c : Ctx) (p : Nat) (labs : Labs) (prog : List Item) : Except PErr (St × List (List (BitVec 8))) :=
  itemsN c (BitVec.ofNat 8 p) ⟨0, labs, false⟩ prog

/-! ## Pass 1 -/

/-- Fixup options, `H/fixup.h`. -/
inductive Opt | none | explicit | extend | jxx | call
  deriving DecidableEq, Repr

/-- A fixup of a forward reference; `short` is FIX_RELOFF8. `id` identifies it. -/
structure Fix where
  id : Nat
  sym : Nat
  locofs : BitVec 32
  short : Bool
  opt : Opt
  org : Bool
  deriving DecidableEq, Repr

/-- State of pass 1: also the segment's fixups and labels, both latest first. -/
structure St1 where
  cur : BitVec 32
  labs : Labs
  fixs : List Fix
  order : List Nat
  next : Nat

/-- The part of `process_branch` for undefined labels, `branch.c` 390-640: operand type, fixup type, option. -/
def fwdForm (c : Ctx) (b : Br) (k : Kind) : OpType × Bool × Opt :=
  let near : OpType := match b.dist with
    | .near (some o) => if o = .use16 then .i16 else .i32
    | _ => if c.ofs ≠ .use16 then .i32 else .i16
  match k, b.dist with
  | .call, .near _ => (near, false, .explicit)
  | .call, _ => (near, false, .call)
  | .jmp, .near _ => (near, false, .explicit)
  | .jmp, .short => (.i8, true, .explicit)
  | .jmp, .none => (.i8, true, .none)
  | .xcx _ _, _ => (.i8, true, .explicit)
  | .jcc _, .near o => (near, o.isSome, .explicit)
  | .jcc _, .short => (.i8, true, .explicit)
  | .jcc _, .none => (.i8, true, if c.cpu386 then .jxx else .extend)

/-- Offsets of labels behind the fixup are moved, `backptch.c` 181-192. -/
def moveLabs (labs : Labs) (loc : BitVec 32) (size : BitVec 32) : List Nat → Labs
  | [] => labs
  | l :: ls =>
    if (labs l).offset.ule loc then labs
    else moveLabs (upd labs l { labs l with offset := (labs l).offset + size }) loc size ls

/-- Fixup locations behind the fixup are moved, `backptch.c` 197-204. -/
def moveFixs (sym : Nat) (loc size : BitVec 32) : List Fix → List Fix
  | [] => []
  | f :: fs =>
    if f.sym = sym then f :: moveFixs sym loc size fs
    else if f.locofs.ule loc then f :: fs
    else { f with locofs := f.locofs + size } :: moveFixs sym loc size fs

/-- Is there an ALIGN between the reference and the label? `backptch.c` 163-172. -/
def orgBetween (loc : BitVec 32) : List Fix → Bool
  | [] => false
  | f :: fs => if f.org then true else if f.locofs.ule loc then false else orgBetween loc fs

def Opt.grow (c : Ctx) : Opt → Nat
  | .extend => 2 + (if c.ofs ≠ .use16 then 2 else 0) + 1
  | .jxx => 1 + (if c.ofs ≠ .use16 then 2 else 0) + 1
  | _ => (if c.ofs ≠ .use16 then 2 else 0) + 1

/-- `DoPatch`, `backptch.c` 52-230, for the fixup with the given id. -/
def doPatch (c : Ctx) (sym : Nat) (s : St1) (id : Nat) : St1 :=
  match s.fixs.find? (·.id = id) with
  | .none => s
  | .some f =>
    let free := { s with fixs := s.fixs.filter (·.id ≠ id) }
    if !f.short then free
    else
      let disp := (s.labs sym).offset - f.locofs - 2
      if disp.sle 127#32 && (-128#32).sle disp then free
      else if f.opt = .explicit then s
      else if orgBetween f.locofs s.fixs then s
      else
        let size := BitVec.ofNat 32 (f.opt.grow c)
        { s with
          labs := moveLabs s.labs f.locofs size s.order
          fixs := (moveFixs sym f.locofs size s.fixs).filter (·.id ≠ id)
          cur := s.cur + size }

/-- `BackPatch`, `backptch.c` 232-270. -/
def backPatch (c : Ctx) (sym : Nat) (s : St1) : St1 :=
  ((s.fixs.filter (·.sym = sym)).map (·.id)).foldl (doPatch c sym) s

/-- A label definition in pass 1, `label.c` 108-201. The check of data labels for a redefinition at the same address (`data.c` 1442-1457)
is simplified to an error. -/
def define1 (c : Ctx) (s : St1) (l : Nat) (ap : BitVec 8) : Except PErr St1 :=
  if (s.labs l).defined then .error .redefined
  else .ok (backPatch c l { s with labs := upd s.labs l ⟨s.cur, ap, true⟩, order := l :: s.order })

def setOrg : List Fix → List Fix
  | [] => []
  | f :: fs => { f with org := true } :: fs

/-- One source item in pass 1. -/
def step1 (c : Ctx) (s : St1) : Item → Except PErr St1
  | .bytes bs => .ok { s with cur := s.cur + BitVec.ofNat 32 bs.length }
  | .label l => define1 c s l 0
  | .data l fs bs =>
    match define1 c s l fs with
    | .error e => .error e
    | .ok s => .ok { s with cur := s.cur + BitVec.ofNat 32 bs.length }
  | .align k => .ok { s with fixs := setOrg s.fixs, cur := s.cur + BitVec.ofNat 32 (padding c s.cur k).length }
  | .branch b l =>
    if (s.labs l).defined then
      match assemble c b s.cur (branchAddr 0 s.cur (s.labs l)) with
      | .error e => .error (.branch e)
      | .ok bs => .ok { s with cur := s.cur + BitVec.ofNat 32 bs.length }
    else
      match processBranch c b s.cur s.cur with
      | .error e => .error (.branch e)
      | .ok o =>
        let (t, short, opt) := fwdForm c b o.kind
        match emit c b { o with type := t } with
        | .error e => .error (.branch e)
        | .ok bs => .ok { s with
            cur := s.cur + BitVec.ofNat 32 bs.length
            fixs := ⟨s.next, l, s.cur + BitVec.ofNat 32 o.pre.length, short, opt, false⟩ :: s.fixs
            next := s.next + 1 }

def items1 (c : Ctx) : St1 → List Item → Except PErr St1
  | s, [] => .ok s
  | s, i :: is =>
    match step1 c s i with
    | .error e => .error e
    | .ok s => items1 c s is

/-- Labels that the source refers to. -/
def refs (prog : List Item) : List Nat := prog.filterMap fun | .branch _ l => some l | _ => none

/-- Pass 1 with the check for undefined symbols at its end, `assemble.c` PassOneChecks. -/
def pass1 (c : Ctx) (prog : List Item) : Except PErr St1 :=
  match items1 c ⟨0, fun _ => ⟨0, 0, false⟩, [], [], 0⟩ prog with
  | .error e => .error e
  | .ok s => if (refs prog).all (fun l => (s.labs l).defined) then .ok s else .error .undefined

/-! ## The driver -/

/-- Result of the assembly: the number of passes and the bytes written for every item in the last pass. -/
structure Result where
  passes : Nat
  chunks : List (List (BitVec 8))
  deriving DecidableEq, Repr

/-- The pass loop after pass 1, `assemble.c` 1628-1735. `p` is `Parse_Pass`, `prev` the size of the segment in the previous pass. -/
def drive (c : Ctx) (prog : List Item) (p : Nat) (labs : Labs) (prev : BitVec 32) : Option (Except PErr Result) :=
  match passN c p labs prog with
  | .error e => some (.error e)
  | .ok (s, chunks) =>
    if s.phase = false ∧ s.cur = prev then some (.ok ⟨p + 1, chunks⟩)
    else drive c prog (p + 1) s.labs s.cur
partial_fixpoint

/-- The assembly of a source: `none` if it does not terminate. After pass 1 `prev_written` is -1, so there is always a second pass. -/
def run (c : Ctx) (prog : List Item) : Option (Except PErr Result) :=
  match pass1 c prog with
  | .error e => some (.error e)
  | .ok s => drive c prog 1 s.labs s.cur

end Verif.Passes
