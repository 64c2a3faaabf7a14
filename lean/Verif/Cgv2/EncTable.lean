import Verif.Cgv2.EncOther
import Verif.Cgv2.EncEvex

/-!
# The shipped instruction table, row by row
-/

namespace Verif.Cgv2

open Isa

/-- Rows without a form in the manual: `mpsadbw` without its immediate, and rows whose operand types
no operand ever gets. -/
def noForm (r : Instr) : Bool :=
  r.mnemonic == ['m','p','s','a','d','b','w'] || r.op 1 == .R_XMME || r.op 1 == .R_YMME

/-- Rows whose EVEX one-byte displacement is not scaled as the processor does it. -/
def badDisp (r : Instr) : Bool :=
  (r.mnemonic == ['v','p','m','o','v','z','x','b','q'] && r.op 0 != .R_ZMM) ||
  (r.mnemonic == ['v','b','r','o','a','d','c','a','s','t','s','d'] && r.op 0 == .R_YMM) ||
  r.mnemonic == ['v','c','v','t','d','q','2','p','d']

/-- The gathers of AVX2. -/
def isGather (r : Instr) : Bool := r.mnemonic == ['v','g','a','t','h','e','r','d','p','s']

/-- Static part of `SrcLow`. -/
def srcLowOk (r : Instr) (f : Form) : Bool :=
  isGather r && f.reg == some 0 && r.opDir == REG_DST && isMem (r.op f.rm) && r.srcidx == 2 &&
  f.v == some 2

/-- The displacement multiplier of the row is the one of the manual. -/
def dispOk (r : Instr) (f : Form) : Bool :=
  f.n == r.opSize / (if has r.evexflags EVEX_BRDF then 1 else r.opElements) && decide (0 < f.n) &&
  (!has r.evexflags EVEX_BRDF || (f.nb == r.opSize / r.opElements && decide (0 < f.nb)))

/-- The row agrees with its form. -/
def rowMatch (r : Instr) : Bool :=
  match manual r with
  | none => noForm r
  | some (.fixed b) => okFixed r b
  | some (.plusR op s k) => okPlusR r op s k
  | some (.moffs op s m) => okMoffs r op s m
  | some (.rm f) =>
    (f.legacy.isSome || f.vex.isSome || f.evex.isSome) &&
    (match f.legacy with
     | none => true
     | some e => okLegacy r f e) &&
    (match f.vex with
     | none => true
     | some e => okVex r f e && (srcOk r f || srcLowOk r f)) &&
    (match f.evex with
     | none => !has r.vexflags EVEXF
     | some e => okEvex r f e && (!isMem (r.op f.rm) || badDisp r || dispOk r f))

/-- What is checked for every row. -/
def rowCheck (r : Instr) : Bool :=
  (!has r.vexflags EVEXF || decide (r.opElements ∈ [1, 2, 4, 8, 16])) && rowMatch r

set_option maxRecDepth 100000 in
theorem table_check : instrTable.all rowCheck = true := by decide +kernel

theorem row_ok {r : Instr} (h : r ∈ instrTable) : rowMatch r = true := by
  have := List.all_eq_true.mp table_check r h
  unfold rowCheck at this
  simp only [Bool.and_eq_true] at this
  exact this.2

theorem row_elements {r : Instr} (h : r ∈ instrTable) (he : has r.vexflags EVEXF = true) :
    r.opElements ∈ [1, 2, 4, 8, 16] := by
  have := List.all_eq_true.mp table_check r h
  unfold rowCheck at this
  simp only [Bool.and_eq_true, he] at this
  simpa using this.1

end Verif.Cgv2
