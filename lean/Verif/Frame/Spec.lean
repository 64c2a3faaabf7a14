import Verif.Frame.Model
/-! # Specification: what a prologue and an epilogue have to do, and how Windows reads unwind data

Written from the x64 exception handling ABI, independently of the model. -/
namespace Verif.Frame

/-! ## Prologue, body, epilogue -/

/-- `m1` is a possible state at the end of the body of a procedure entered in state `m0`: the body may do anything but it leaves the
bytes written by the prologue alone, keeps the frame pointer if there is one, and otherwise has a balanced stack. -/
structure BodyEnd (ws : Nat) (pro : List Ins) (fp : Option Nat) (m0 m1 : M) : Prop where
  kept : ∀ a, written ws m0 a pro → m1.mem a = (run ws m0 pro).mem a
  frame : match fp with
    | some b => m1.gpr b = (run ws m0 pro).gpr b
    | none => m1.sp = (run ws m0 pro).sp

/-- After the epilogue the stack pointer is that of the entry, the listed general registers and the listed bytes of the listed vector
registers have their values of the entry; every other register (results, in particular) and the memory are as the body left them. -/
structure Undone (saved : List Nat) (savedVec : List (Nat × Nat)) (m0 m1 m2 : M) : Prop where
  sp : m2.sp = m0.sp
  gpr : ∀ r ∈ saved, m2.gpr r = m0.gpr r
  vec : ∀ p ∈ savedVec, m2.vec p.1 % 256 ^ p.2 = m0.vec p.1 % 256 ^ p.2
  otherGpr : ∀ r, r ∉ saved → m2.gpr r = m1.gpr r
  otherVec : ∀ r, r ∉ savedVec.map (·.1) → m2.vec r = m1.vec r
  mem : m2.mem = m1.mem

/-! ## UNWIND_INFO -/

/-- Unwind operations. -/
inductive UOp
  | pushNonvol (r : Nat)
  | alloc (n : Nat)
  | setFpreg
  | saveNonvol (r ofs : Nat)
  | saveXmm128 (r ofs : Nat)
  | pushMachframe (errcode : Bool)
  deriving DecidableEq, Repr

structure UInfo where
  version : Nat
  flags : Nat
  sizeOfProlog : Nat
  frameReg : Nat
  frameOfs : Nat
  /-- (offset in prolog, operation), in array order -/
  codes : List (Nat × UOp)
  /-- RVA of the handler, if flags say there is one -/
  handler : Option Nat
  deriving DecidableEq, Repr

/-- Unwind code array: slots to operations. Offsets of UWOP_SAVE_NONVOL and UWOP_SAVE_XMM128 are scaled by 8 and 16, those of the FAR
forms are unscaled 32-bit numbers, low word first. -/
def decode : List Nat → Option (List (Nat × UOp))
  | [] => some []
  | s :: r =>
    let ofs := s % 256
    let op := s / 256 % 16
    let info := s / 4096
    match op, info, r with
    | 0, _, r => (decode r).map ((ofs, .pushNonvol info) :: ·)
    | 1, 0, n :: r => (decode r).map ((ofs, .alloc (n * 8)) :: ·)
    | 1, 1, n :: h :: r => (decode r).map ((ofs, .alloc (n + 65536 * h)) :: ·)
    | 2, _, r => (decode r).map ((ofs, .alloc (info * 8 + 8)) :: ·)
    | 3, _, r => (decode r).map ((ofs, .setFpreg) :: ·)
    | 4, _, n :: r => (decode r).map ((ofs, .saveNonvol info (n * 8)) :: ·)
    | 5, _, n :: h :: r => (decode r).map ((ofs, .saveNonvol info (n + 65536 * h)) :: ·)
    | 8, _, n :: r => (decode r).map ((ofs, .saveXmm128 info (n * 16)) :: ·)
    | 9, _, n :: h :: r => (decode r).map ((ofs, .saveXmm128 info (n + 65536 * h)) :: ·)
    | 10, 0, r => (decode r).map ((ofs, .pushMachframe false) :: ·)
    | 10, 1, r => (decode r).map ((ofs, .pushMachframe true) :: ·)
    | _, _, _ => none

/-- `n` little endian words. -/
def words : Nat → List Nat → Option (List Nat × List Nat)
  | 0, l => some ([], l)
  | n + 1, a :: b :: l => (words n l).map (fun q => ((a + 256 * b) :: q.1, q.2))
  | _ + 1, _ => none

/-- The UNWIND_INFO at the head of a byte sequence. -/
def readInfo (l : List Nat) : Option UInfo :=
  match l with
  | vf :: size :: count :: fr :: rest =>
    match words count rest with
    | none => none
    | some (slots, rest) =>
      match decode slots with
      | none => none
      | some codes =>
        let rest := if count % 2 = 1 then rest.drop 2 else rest
        match (if vf / 8 % 4 ≠ 0 then (match rest with
            | a :: b :: c :: d :: _ => some (some (a + 256 * b + 65536 * c + 16777216 * d))
            | _ => none) else some none) with
        | none => none
        | some h => some ⟨vf % 8, vf / 8, size, fr % 16, fr / 16, codes, h⟩
  | _ => none

/-! ## The unwinder (RtlVirtualUnwind, without epilogue detection and chained information) -/

/-- Undo one operation. `frame` is the establisher frame, the base of the save areas. -/
def undo (frameReg frameOfs : Nat) (frame : Int) (m : M) : UOp → M
  | .pushNonvol r => exec 8 m (.pop r)
  | .alloc n => { m with sp := m.sp + n }
  | .setFpreg => { m with sp := m.gpr frameReg - frameOfs * 16 }
  | .saveNonvol r ofs => { m with gpr := setG m.gpr r (load m.mem (frame + ofs) 8) }
  | .saveXmm128 r ofs => { m with vec := setG m.vec r (load m.mem (frame + ofs) 16) }
  | .pushMachframe e => { m with sp := load m.mem (m.sp + (if e then 32 else 24)) 8 }

/-- The operations that have been executed at offset `pos` (relative to the start of the procedure). -/
def active (i : UInfo) (pos : Nat) : List UOp := (i.codes.filter (fun c => c.1 ≤ pos)).map (·.2)

/-- The establisher frame: the frame pointer minus its offset once it has been set, else the stack pointer. -/
def frameBase (i : UInfo) (pos : Nat) (m : M) : Int :=
  if i.frameReg ≠ 0 ∧ .setFpreg ∈ active i pos then m.gpr i.frameReg - i.frameOfs * 16 else m.sp

/-- The state of the caller, with the stack pointer still pointing to the return address. -/
def unwind (i : UInfo) (pos : Nat) (m : M) : M :=
  (active i pos).foldl (undo i.frameReg i.frameOfs (frameBase i pos m)) m

/-! ## What the directives announce -/

/-- The operation a directive announces (as documented for the unwind directives of MASM for x64). -/
inductive Announces : Dir → UOp → Prop
  | alloc (n : Nat) : Announces (.alloc n) (.alloc n)
  | pushframe (c : Bool) : Announces (.pushframe c) (.pushMachframe c)
  | pushreg (r : Nat) : Announces (.pushreg r) (.pushNonvol r)
  | savereg (r n : Nat) : Announces (.savereg r n) (.saveNonvol r n)
  | savexmm (r n : Nat) : Announces (.savexmm r n) (.saveXmm128 r n)
  | setframe (r : Nat) (n : Nat) : Announces (.setframe r n) .setFpreg

/-- The operations are those the directives announce, at the same offsets and in the same order; `.ENDPROLOG` announces nothing. -/
inductive Matches : List (Nat × Dir) → List (Nat × UOp) → Prop
  | nil : Matches [] []
  | skip (p : Nat) (ds : List (Nat × Dir)) (os : List (Nat × UOp)) : Matches ds os → Matches ((p, .endprolog) :: ds) os
  | cons (p : Nat) (d : Dir) (o : UOp) (ds : List (Nat × Dir)) (os : List (Nat × UOp)) :
      Announces d o → Matches ds os → Matches ((p, d) :: ds) ((p, o) :: os)

/-- The directives of a list of lines with their offsets from the start of the procedure. -/
def dirsAt (len : Ins → Nat) : Nat → List Line → List (Nat × Dir)
  | _, [] => []
  | pos, .ins i :: l => dirsAt len (pos + len i) l
  | pos, .dir d :: l => (pos, d) :: dirsAt len pos l

/-! ## What unwinding has to do -/

/-- Length of the instructions among the lines. -/
def codeLen (len : Ins → Nat) (ls : List Line) : Nat := ((code ls).map len).sum

/-- An instruction boundary of a prologue: the lines `ls1` have been passed, the next one is an
instruction; or, with `ls2 = []`, somewhere in the body. -/
def Boundary (len : Ins → Nat) (ls1 ls2 : List Line) (pos : Nat) : Prop :=
  (ls2 = [] ∧ codeLen len ls1 ≤ pos) ∨ (∃ i r, ls2 = .ins i :: r ∧ pos = codeLen len ls1)

/-- The result of unwinding: the stack pointer, the pushed registers and the low 128 bits of the stored vector registers. -/
structure Unwound (rs : List Nat) (vs : List (Nat × Nat)) (m0 m1 m2 : M) : Prop where
  sp : m2.sp = m0.sp
  gpr : ∀ r ∈ rs, m2.gpr r = m0.gpr r
  vec : ∀ p ∈ vs, m2.vec p.1 = m0.vec p.1 % 256 ^ 16
  otherGpr : ∀ r, r ∉ rs → m2.gpr r = m1.gpr r
  otherVec : ∀ r, r ∉ vs.map (·.1) → m2.vec r = m1.vec r
  mem : m2.mem = m1.mem

/-- Every general register and the low 128 bits of every vector register have their values of the entry. -/
structure IsCaller (m0 m2 : M) : Prop where
  sp : m2.sp = m0.sp
  gpr : ∀ r, m2.gpr r = m0.gpr r
  vec : ∀ r, m2.vec r % 256 ^ 16 = m0.vec r % 256 ^ 16

end Verif.Frame
