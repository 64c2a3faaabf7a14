import Verif.Switch.Model
/-
  The meaning of a switch block, without labels, tables and sorting: the statements behind the `.CASE` that has the
  value (or behind `.DEFAULT`) are executed up to the first `.BREAK`, as in C.
-/
namespace Verif.Switch

variable {σ : Type}

/-- the number of the operand and the constant of a `.CASE` are the same number of 32 (64) bits -/
def same (m : Mode) (v : BitVec 64) (c : Int) : Bool :=
  match m with
  | .m64q => v == BitVec.ofInt 64 c
  | _ => v.setWidth 32 == BitVec.ofInt 32 c

/-- the mode an operand asks for: 64-bit operands are compared with 64-bit numbers, all others with 32-bit numbers -/
def modeFor (is64 : Bool) (k : OpKind) : Mode :=
  if is64 then (if k = .rax ∨ k = .reg64 ∨ k = .memOther 8 then .m64q else .m64d) else .m32

/-- the lines behind the `.CASE` with the value `v` -/
def seekCase (m : Mode) (v : BitVec 64) : List (Dir σ) → Option (List (Dir σ))
  | [] => none
  | .case vs :: r => if vs.any (same m v) then some r else seekCase m v r
  | _ :: r => seekCase m v r

/-- the lines behind `.DEFAULT` -/
def seekDflt : List (Dir σ) → Option (List (Dir σ))
  | [] => none
  | .dflt :: r => some r
  | _ :: r => seekDflt r

/-- where a switch on `v` continues -/
def entry (m : Mode) (v : BitVec 64) (ds : List (Dir σ)) : List (Dir σ) :=
  match seekCase m v ds with
  | some r => r
  | none => (seekDflt ds).getD []

/-- the statements are executed up to a `.BREAK` or the end of the block -/
def run : List (Dir σ) → X σ → X σ
  | [], x => x
  | .case _ :: r, x => run r x
  | .dflt :: r, x => run r x
  | .brk :: _, x => x
  | .brkIf p :: r, x => if p x then x else run r x
  | .stm f :: r, x => run r (f x)

/-- the value of the operand, zeros above its size -/
def opVal (k : OpKind) (val : X σ → BitVec 64) (x : X σ) : BitVec 64 :=
  match k with
  | .eax | .rax => x.1 .ax
  | _ => val x

/-- all constants of the block -/
def consts : List (Dir σ) → List Int
  | [] => []
  | .case vs :: r => vs ++ consts r
  | _ :: r => consts r

/-- `stm`: there was a statement behind the last `.CASE`; `brk`: there was a `.BREAK` (with or without `.IF`).
    Between two `.CASE`s with a statement between them there must be a `.BREAK`. -/
def sepFrom (stm brk : Bool) : List (Dir σ) → Bool
  | [] => true
  | .case _ :: r => (!stm || brk) && sepFrom false false r
  | .dflt :: r => sepFrom stm brk r
  | .brk :: r => sepFrom stm true r
  | .brkIf _ :: r => sepFrom stm true r
  | .stm _ :: r => sepFrom true brk r

def Separated (ds : List (Dir σ)) : Prop := sepFrom false true ds = true

/-- the last line of the block is an unconditional `.BREAK` -/
def EndsWithBreak (ds : List (Dir σ)) : Prop := ∃ p, ds = p ++ [.brk]

/-- the number in `w` bytes that contain `v` -/
def enc (w : Nat) (v : Int) : BitVec 64 := (BitVec.ofInt (8 * w) v).setWidth 64

/-- the tables of the block are in memory at their labels -/
structure Placed (env : Env) (o : Out σ) : Prop where
  t1 : ∀ (i : Nat) (l : Lbl), o.t1[i]? = some l →
    env.rd (trunc o.mode (env.adr .data1 + BitVec.ofNat 64 i * (if o.mode.is64 then 8 else 4)))
      (if o.mode.is64 then 8 else 4) = env.adr l
  t2 : ∀ (i : Nat) (v : Int), o.t2[i]? = some v →
    env.rd (trunc o.mode (env.adr .data2 + BitVec.ofNat 64 i * BitVec.ofNat 64 o.w2)) o.w2 = enc o.w2 v

/-- the lines with the labels in front removed -/
def strip : List (Line σ) → List (Line σ)
  | .lab _ :: r => strip r
  | r => r

/-- labels with the same address mark the same instruction -/
def Layout (env : Env) (prog : List (Line σ)) : Prop :=
  ∀ l l' r r', after l prog = some r → after l' prog = some r' → env.adr l = env.adr l' → strip r = strip r'

/-- a constant of a `.CASE` as a signed number of 32 (64) bits -/
def valueOf (m : Mode) (c : Int) : Int :=
  match m with
  | .m64q => (BitVec.ofInt 64 c).toInt
  | _ => (BitVec.ofInt 32 c).toInt

/-- the size of the tables: `n` constants spread over `span + 1` numbers -/
def TablesFit (n span : Int) : Prop :=
  n % 75 ≠ 0 ∧ (span + 1 = n ∨ 2 * (span + 1) - n ≤ 75 ∨ 2 * span > 3 * n)

/-- the constants of a block for which the tables are written correctly (see `TablesFit`) -/
structure GoodConsts (m : Mode) (cs : List Int) : Prop where
  /-- 64-bit operands: the constants have 32 bits -/
  small : ∀ c ∈ cs, -2147483648 ≤ valueOf m c ∧ valueOf m c < 2147483648
  span : ∀ a ∈ cs, ∀ b ∈ cs, valueOf m a - valueOf m b < 536870912
  fit : ∀ a ∈ cs, ∀ b ∈ cs, (∀ c ∈ cs, valueOf m b ≤ valueOf m c ∧ valueOf m c ≤ valueOf m a) →
    TablesFit cs.length (valueOf m a - valueOf m b)

end Verif.Switch
