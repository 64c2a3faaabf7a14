/-! # Model: ORG in binaries of OPTION FLAT — orgfixup.c, posndir.c OrgDirective, assemble.c OutputByte and
SetCurrOffset, bin.c bin_write_module (C83)

One segment (`_flat`).  Offsets are natural numbers: no wrap at 2^32. -/
namespace Verif.OrgFlat

/-- Statements: a byte, `ORG` with a constant, `ORG` with a label (its offset) plus a constant. -/
inductive Op
  | emit (b : UInt8)
  | org (v : Nat)
  | orgLabel (sym : Nat) (add : Nat)
  deriving DecidableEq, Repr

/-- The target of an ORG: `opndx.value`, or `opndx.sym->offset + opndx.value` (posndir.c:127, 133). -/
def Op.dest : Op → Option Nat
  | .emit _ => none
  | .org v => some v
  | .orgLabel s a => some (s + a)

/-- The value compared with the location counter (posndir.c:125, 131): `opndx.value`, without the label. -/
def Op.cmp : Op → Nat
  | .emit _ => 0
  | .org v => v
  | .orgLabel _ a => a

/-- Pass 1: `current_loc`, `start_loc`, `bytes_written != 0` (assemble.c:260-266, 476-490). -/
structure P1 where
  loc : Nat
  start : Nat
  written : Bool

/-- Pass 1, one statement: OutputByte with `write_to_file == FALSE` lowers `start_loc` (assemble.c:260-265);
SetCurrOffset sets it while nothing is written (assemble.c:477-486). -/
def p1Step (s : P1) (o : Op) : P1 :=
  match o.dest with
  | none => { loc := s.loc + 1, start := if s.loc < s.start then s.loc else s.start, written := true }
  | some v => { s with loc := v, start := if s.written then s.start else v }

def startLoc (l : List Op) : Nat := (l.foldl p1Step ⟨0, 0, false⟩).start

/-- The last pass: `current_loc`, `max_offset`, `CodeBuffer`, `pOrgTable` (reset for each pass, assemble.c:1633). -/
structure P2 where
  loc : Nat
  max : Nat
  buf : Nat → UInt8
  table : List (Nat × Nat)

/-- The last pass, one statement: OutputByte (assemble.c:243-272), OrgDirective (posndir.c:123-134) with AddOrgFixup
(orgfixup.c:12-31, appends), SetCurrOffset (assemble.c:491-495). -/
def p2Step (start : Nat) (s : P2) (o : Op) : P2 :=
  match o with
  | .emit b => { s with
      loc := s.loc + 1
      max := if s.max < s.loc + 1 then s.loc + 1 else s.max
      buf := fun i => if i = s.loc - start then b else s.buf i }
  | o =>
    let v := o.dest.getD 0
    { s with
      loc := v
      max := if s.max < v then v else s.max
      table := if s.loc < o.cmp ∧ start < s.loc then s.table ++ [(s.loc, v)] else s.table }

/-- InOrgRange (orgfixup.c:52-68). -/
def inOrgRange (t : List (Nat × Nat)) (p : Nat) : Bool := t.any (fun r => decide (r.1 ≤ p) && decide (p < r.2))

/-- The bytes written (bin.c:1766-1780): `size = max_offset - start_loc` bytes of the buffer, which starts with
zeros, without those in a range. -/
def file (l : List Op) : List UInt8 :=
  let start := startLoc l
  let s := l.foldl (p2Step start) ⟨0, 0, fun _ => 0, []⟩
  ((List.range (s.max - start)).filter (fun i => !inOrgRange s.table i)).map s.buf

end Verif.OrgFlat
