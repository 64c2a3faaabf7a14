/-!
# Model of INVOKE for Windows 64-bit procedures

`/repo/invoke.c`: ms64_fcstart (424-458), ms64_fcend (460-468), ms64_param (485-1350, the part for LANG_FASTCALL), and what
PushInvokeParam (3190-3700) and InvokeDirective (4259-4705) do for a 64-bit FASTCALL procedure. The generated source lines are a
list of instructions. Not modelled (and counted as refused): VECTORCALL, SYSVCALL, string literals, OFFSET operators, parameters
of other sizes than 1, 2, 4, 8 or more than 8 bytes; registers, constants and typed variables at index 4 or above for parameters of
more than 8 bytes; floating-point constants for parameters other than REAL4 and REAL8; addresses with 32-bit registers. A constant that is too
large for the parameter is not refused here (the assembler refuses most of them when the line is assembled). -/
namespace Verif.Invoke64

/-- Part of a general register: AL, AH, AX, EAX, RAX. -/
inductive Part | b | h | w | d | q
  deriving DecidableEq, Repr

/-- A general register by number (RAX 0, RCX 1, RDX 2, RSP 4, R8 8, R9 9); AH is `⟨0, h⟩`. -/
structure Reg where
  num : Nat
  part : Part
  deriving DecidableEq, Repr

/-- `SizeFromRegister` -/
def partSize : Part → Nat
  | .b => 1 | .h => 1 | .w => 2 | .d => 4 | .q => 8

/-- The `switch (psize)` for the register to use, invoke.c 631-636, 646-651, 1268-1275. -/
def partOf : Nat → Option Part
  | 1 => some .b | 2 => some .w | 4 => some .d | 8 => some .q | _ => none

/-- An address: registers by number (the index with its factor), and a displacement; a label is its address. -/
structure EA where
  base : Option Nat
  index : Option (Nat × Nat)
  disp : Int
  deriving DecidableEq, Repr

/-- How a constant is written: a number, the name of an equate, or the name NULL or FALSE. -/
inductive Name | number | equate | null
  deriving DecidableEq, Repr

inductive Arg
  /-- a variable of that many bytes, signed or not -/
  | mem (x : EA) (size : Nat) (signed : Bool)
  /-- memory without type, like `[rbx]` -/
  | memU (x : EA)
  /-- `signed`: with a cast like `sdword ptr eax` -/
  | reg (r : Reg) (signed : Bool)
  | xmm (n : Nat)
  | const (v : Int) (name : Name)
  /-- a floating-point constant: its REAL4 and its REAL8 form -/
  | float (f4 f8 : Nat)
  | addr (x : EA)
  deriving DecidableEq, Repr

/-- `mem_type` of a parameter, as far as it matters: MT_PTR, REAL4 and REAL8, MT_TYPE, any other. -/
inductive Kind | int | ptr | real | struct
  deriving DecidableEq, Repr

structure Param where
  psize : Nat
  kind : Kind := .int
  vararg : Bool := false
  deriving DecidableEq, Repr

inductive Src
  | mem (x : EA)
  | reg (r : Reg)
  deriving DecidableEq, Repr

/-- The generated instructions. -/
inductive Ins
  /-- `sub rsp, -n` / `add rsp, n` -/
  | addSp (n : Int)
  | lea (dst : Reg) (x : EA)
  | mov (dst : Reg) (s : Src)
  /-- `movsx/movzx/movsxd dst, s`, of `size` bytes -/
  | movx (signed : Bool) (dst : Reg) (size : Nat) (s : Src)
  | movImm (dst : Reg) (v : Int)
  /-- `xor dst, dst` -/
  | xor (dst : Reg)
  /-- `mov [rsp+d], r` -/
  | put (d : Nat) (r : Reg)
  /-- `mov <size> ptr [rsp+d], v` -/
  | putImm (size : Nat) (d : Nat) (v : Int)
  /-- `movss/movsd [rsp+d], xmm` -/
  | putX (size : Nat) (d : Nat) (n : Nat)
  /-- `movaps xmm, xmm` -/
  | movaps (n k : Nat)
  /-- `movd/movq xmm, <size> ptr x` -/
  | getX (size : Nat) (n : Nat) (x : EA)
  /-- `movd xmm, eax` / `movq xmm, rax` -/
  | movX (n : Nat) (r : Reg)
  deriving DecidableEq, Repr

/-- `psize`, invoke.c 509-526. -/
def psizeOf (p : Param) (a : Arg) : Nat :=
  if p.vararg then
    max 4 (match a with
      | .const v _ => if v > 2147483647 ∨ v < -2147483648 then 8 else 0
      | .addr _ => 8
      | .reg r _ => partSize r.part
      | .xmm _ => 16
      | .mem _ size _ => size
      | .memU _ => 0
      | .float _ _ => 0)
  else p.psize

/-- Number in ms64_regs of the register for parameter `i`, invoke.c 237-242. -/
def preg : Nat → Nat
  | 0 => 1 | 1 => 2 | 2 => 8 | _ => 9

/-- Registers in an address: base, index. -/
def eaRegs (x : EA) : List Nat := x.base.toList ++ (x.index.map (·.1)).toList

/-- The registers that are looked up in `regs_used`, invoke.c 541-571: GetRegNo is 4 to 7 for AH, CH, DH and BH, so that of these only
AH is found. -/
def checked : Arg → List Nat
  | .mem x _ _ => eaRegs x
  | .memU x => eaRegs x
  | .addr x => eaRegs x
  | .reg r _ => if r.part = .h then (if r.num = 0 then [0] else []) else [r.num]
  | _ => []

/-- AH, BH, CH, DH cannot be used in an instruction with a REX prefix (refused by the assembler). -/
def highOk (dst : Reg) (r : Reg) : Bool := r.part != .h || (dst.part != .q && dst.num < 8)

abbrev Out := Option (List Ins × List Nat)

/-- Extension to a wider register: invoke.c 683-692 and 1299-1310. `mov rax, eax` and `mov rax, dword ptr x` are refused when
assembled. -/
def widen (dst : Reg) (size : Nat) (signed : Bool) (s : Src) : Option (List Ins) :=
  if size = 4 ∧ signed = false then none else some [.movx signed dst size s]

/-- Parameters behind the first four, invoke.c 576-703. -/
def stackArg (i : Nat) (p : Param) (a : Arg) (used : List Nat) : Out :=
  let n := psizeOf p a
  match a with
  | .addr x =>
    if n = 4 then some ([.lea ⟨0, .d⟩ x, .put (8 * i) ⟨0, .d⟩], 0 :: used)
    else if n < 8 then none
    else some ([.lea ⟨0, .q⟩ x, .put (8 * i) ⟨0, .q⟩], 0 :: used)
  | .const v _ =>
    if n = 8 ∧ (v > 2147483647 ∨ v < -2147483648) then
      some ([.putImm 4 (8 * i) v, .putImm 4 (8 * i + 4) (v / 2 ^ 32)], used)
    else (partOf n).bind fun _ => some ([.putImm n (8 * i) v], used)
  | .float f4 f8 =>
    if p.kind = .real ∧ p.vararg = false then
      if n = 8 then some ([.putImm 4 (8 * i) f8, .putImm 4 (8 * i + 4) ((f8 : Int) / 2 ^ 32)], used)
      else some ([.putImm 4 (8 * i) f4], used)
    else none
  | .xmm k => if p.kind = .real ∧ p.vararg = false then some ([.putX n (8 * i) k], used) else none
  | .reg r signed =>
    (partOf n).bind fun pt =>
      let size := partSize r.part
      if size = n then some ([.put (8 * i) r], used)
      else if size > n ∨ p.kind = .ptr then none
      else if highOk ⟨0, pt⟩ r = false then none
      else (widen ⟨0, pt⟩ size signed (.reg r)).bind fun l => some (l ++ [.put (8 * i) ⟨0, pt⟩], 0 :: used)
  | .mem x size signed =>
    (partOf n).bind fun pt =>
      if size > n ∨ (size < n ∧ p.kind = .ptr) then none
      else if (partOf size).isNone then none
      else if size = n then some ([.mov ⟨0, pt⟩ (.mem x), .put (8 * i) ⟨0, pt⟩], 0 :: used)
      else (widen ⟨0, pt⟩ size signed (.mem x)).bind fun l => some (l ++ [.put (8 * i) ⟨0, pt⟩], 0 :: used)
  | .memU x =>
    if n > 8 then some ([.mov ⟨0, .q⟩ (.mem x), .put (8 * i) ⟨0, .q⟩], 0 :: used)
    else (partOf n).bind fun pt =>
      if 4 > n ∨ (4 < n ∧ p.kind = .ptr) then none
      else some ([.mov ⟨0, pt⟩ (.mem x), .put (8 * i) ⟨0, pt⟩], 0 :: used)

/-- The test for zero, invoke.c 1318-1319: the name of an equate with `value` (the low 32 bits) 0, the text "0", NULL or FALSE. -/
def isZero (v : Int) : Name → Bool
  | .number => v = 0
  | .equate => v % 2 ^ 32 = 0
  | .null => true

/-- The first four parameters in general registers, invoke.c 1003 and 1218-1345. `mov r32, r32` clears the upper half. -/
def intArg (i : Nat) (p : Param) (a : Arg) (used : List Nat) : Out :=
  let n := psizeOf p a
  let used' := preg i :: used
  match a with
  | .addr x =>
    if n < 4 then none
    else some ([.lea ⟨preg i, if n > 4 then .q else .d⟩ x], used')
  | .const v name =>
    (partOf n).bind fun pt =>
      if isZero v name then some ([.xor ⟨preg i, if pt = .q then .d else pt⟩], used') else some ([.movImm ⟨preg i, pt⟩ v], used')
  | .float _ _ => none
  | .xmm _ => none
  | .reg r signed =>
    (partOf n).bind fun pt =>
      let size := partSize r.part
      if size > n ∨ (size < n ∧ p.kind = .ptr) then none
      else if r = ⟨preg i, pt⟩ then some ([], used)
      else if size < n then
        if size = 4 ∧ signed = false then some ([.mov ⟨preg i, .d⟩ (.reg r)], used')
        else if highOk ⟨preg i, pt⟩ r = false then none
        else some ([.movx signed ⟨preg i, pt⟩ size (.reg r)], used')
      else if highOk ⟨preg i, pt⟩ r = false then none
      else some ([.mov ⟨preg i, pt⟩ (.reg r)], used')
  | .mem x size signed =>
    if n > 8 then some ([.lea ⟨preg i, .q⟩ x], used')
    else (partOf n).bind fun pt =>
      if size > n ∨ (size < n ∧ p.kind = .ptr) then none
      else if (partOf size).isNone then none
      else if size < n then
        if size = 4 ∧ signed = false then some ([.mov ⟨preg i, .d⟩ (.mem x)], used')
        else some ([.movx signed ⟨preg i, pt⟩ size (.mem x)], used')
      else some ([.mov ⟨preg i, pt⟩ (.mem x)], used')
  | .memU x =>
    if n > 8 then some ([.lea ⟨preg i, .q⟩ x], used')
    else (partOf n).bind fun pt => some ([.mov ⟨preg i, pt⟩ (.mem x)], used')

/-- The first four parameters if of type REAL4 or REAL8, invoke.c 705-778: registers and constants are left to the code for
integers. ADDR is not looked at. -/
def realArg (i : Nat) (p : Param) (a : Arg) (used : List Nat) : Out :=
  match a with
  | .xmm k => some (if k = i then [] else [.movaps i k], used)
  | .float f4 f8 =>
    if p.psize = 4 then some ([.movImm ⟨0, .d⟩ f4, .movX i ⟨0, .d⟩], 0 :: used)
    else some ([.movImm ⟨0, .q⟩ f8, .movX i ⟨0, .q⟩], 0 :: used)
  | .mem x _ _ => some ([.getX p.psize i x], used)
  | .memU x => some ([.getX p.psize i x], used)
  | .addr x => some ([.getX p.psize i x], used)
  | _ => intArg i p a used

/-- ADDR -/
def isAddr : Arg → Bool
  | .addr _ => true
  | _ => false

/-- ms64_param: structures of 3, 5, 6 or 7 bytes (529-535) and registers that have been overwritten already (541-571) are errors; so is
ADDR for a parameter of more than 10 bytes (PushInvokeParam, 3482). -/
def param (i : Nat) (p : Param) (a : Arg) (used : List Nat) : Out :=
  let n := psizeOf p a
  if p.kind = .struct ∧ (n = 3 ∨ n = 5 ∨ n = 6 ∨ n = 7) then none
  else if isAddr a = true ∧ p.vararg = false ∧ p.psize > 10 then none
  else if (checked a).any (fun r => used.contains r) then none
  else if i ≥ 4 then stackArg i p a used
  else if p.kind = .real ∧ p.vararg = false then realArg i p a used
  else intArg i p a used

/-- The prototype: the declared parameters and whether VARARG follows. -/
structure Proto where
  params : List Param
  vararg : Bool := false
  deriving DecidableEq, Repr

/-- The descriptor for argument `k`. -/
def paramAt (pr : Proto) (k : Nat) : Param := (pr.params[k]?).getD { psize := 0, vararg := true }

/-- InvokeDirective 4417-4520: first the VARARG arguments, from the last to the first, then the declared ones from the first to the last. -/
def order (pr : Proto) (args : List Arg) : List (Arg × Nat) :=
  (args.zipIdx.drop pr.params.length).reverse ++ args.zipIdx.take pr.params.length

def steps (pr : Proto) : List (Arg × Nat) → List Nat → Option (List Ins)
  | [], _ => some []
  | (a, i) :: l, used => (param i (paramAt pr i) a used).bind fun o => (steps pr l o.2).map (o.1 ++ ·)

/-- ms64_fcstart 428-446: the number of stack slots. -/
def slots (pr : Proto) (args : List Arg) : Nat :=
  let n := if pr.vararg then args.length else pr.params.length
  if n < 4 then 4 else if n % 2 = 1 then n + 1 else n

/-- What is generated in front of the call and behind it. -/
structure Code where
  before : List Ins
  after : List Ins
  deriving DecidableEq, Repr

/-- InvokeDirective; `auto` is `win64_flags & W64F_AUTOSTACKSP`. `none`: an error message. -/
def invoke (auto : Bool) (pr : Proto) (args : List Arg) : Option Code :=
  if args.length < pr.params.length ∨ (pr.vararg = false ∧ args.length ≠ pr.params.length) then none
  else (steps pr (order pr args) []).map fun l =>
    { before := (if auto then [] else [.addSp (-(8 * slots pr args : Nat))]) ++ l
      after := if auto then [] else [.addSp (8 * slots pr args : Nat)] }

/-- `sym_ReservedStack->value` after an INVOKE with automatic stack space, ms64_fcstart 448-452. -/
def reserve (old : Nat) (pr : Proto) (args : List Arg) : Nat :=
  if 8 * slots pr args > old then 8 * slots pr args else old

end Verif.Invoke64
