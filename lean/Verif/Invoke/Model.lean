import Verif.Proc.Model
/-!
# Model of INVOKE: pushing the arguments of a 32-bit procedure

`/repo/invoke.c`: PushInvokeParam (3190-4256) and InvokeDirective (4259-4705), for 32-bit code (80386 or better) and a NEAR
32-bit procedure with C, SYSCALL, STDCALL or (PASCAL, BASIC, FORTRAN) calling convention. The generated source lines are a list of
instructions. Not modelled: FAR pointers, `reg::reg` pairs, string literals, floating-point constants, FASTCALL, VECTORCALL,
SYSVCALL, DELPHICALL, 16- and 64-bit code; segment registers as arguments.
-/
namespace Verif.Invoke

/-- Part of a general register: EAX, AX, AL, AH. -/
inductive Part | full | word | low | high
  deriving DecidableEq, Repr

/-- A general register by number; AH is `⟨0, high⟩`. -/
structure Reg where
  num : Nat
  part : Part
  deriving DecidableEq, Repr

/-- An address: registers by number (the index with its factor), and a displacement; a label is its address, a local or a
parameter of the current procedure has EBP as base register. -/
structure EA where
  base : Option Nat
  index : Option (Nat × Nat)
  disp : Int
  deriving DecidableEq, Repr

/-- `x+n` or `x[n]` -/
def EA.plus (x : EA) (n : Int) : EA := { x with disp := x.disp + n }

/-- Type of a memory operand: an integer or any other simple type (`opnd.mem_type`), a structure (MT_TYPE), or none (MT_EMPTY). -/
inductive Ty
  | int (size : Nat) (signed : Bool)
  | struct (size : Nat)
  | untyped
  deriving DecidableEq, Repr

inductive Arg
  | mem (x : EA) (ty : Ty)
  /-- `signed`: with a cast like `sbyte ptr al` -/
  | reg (r : Reg) (signed : Bool)
  | xmm (n : Nat)
  | const (v : Int)
  /-- `ADDR label` -/
  | addrDirect (v : Int)
  /-- `ADDR` of an address with registers (also of locals) -/
  | addrIndirect (x : EA)
  deriving DecidableEq, Repr

/-- `curr`: `psize` is `total_size` (0 for VARARG), `isPtr` is `mem_type == MT_PTR`, `isFword` is `mem_type == MT_FWORD`. -/
structure Param where
  psize : Nat
  isPtr : Bool := false
  isFword : Bool := false
  vararg : Bool := false
  deriving DecidableEq, Repr

inductive Src
  | mem (x : EA)
  | reg (r : Reg)
  deriving DecidableEq, Repr

/-- The generated instructions. -/
inductive Ins
  /-- `push word/dword ptr x` -/
  | pushMem (size : Nat) (x : EA)
  /-- `push eax` (4), `push ax` (2) -/
  | pushReg (size : Nat) (r : Nat)
  /-- `push v` (4), `pushw v` (2) -/
  | pushImm (size : Nat) (v : Int)
  /-- `sub esp, n` -/
  | subSp (n : Nat)
  /-- `mov al, x` -/
  | movAl (s : Src)
  /-- `movsx/movzx eax, x` -/
  | movx (signed : Bool) (size : Nat) (s : Src)
  /-- `lea eax, x` -/
  | lea (x : EA)
  /-- `movd eax, xmm` -/
  | movd (n : Nat)
  deriving DecidableEq, Repr

structure Cfg where
  /-- `Options.masm_compat_gencode` -/
  masm : Bool := false
  /-- OPTION STACKBASE:ESP, inside of a procedure -/
  espBase : Bool := false
  deriving DecidableEq, Repr

/-- What PushInvokeParam does: the lines, `r0flags & R0_USED` afterwards (the other flags have no effect in 32-bit code) and
what is added to `size_vararg`. `none`: an error message. -/
structure Out where
  ins : List Ins
  used : Bool
  sv : Nat
  deriving DecidableEq, Repr

/-- The address uses EAX, invoke.c 3709-3722. -/
def usesEax (x : EA) : Bool := x.base == some 0 || (x.index.map (·.1)) == some 0

/-- The loop `while (asize > 0)`, invoke.c 3770-3806: lines and what is added to `size_vararg`. `asize - pushsize` is printed as
an unsigned number, which is the same address modulo 2^32. -/
def bigLoop (c : Cfg) (x : EA) (asize : Int) : List Ins × Nat :=
  if 0 < asize then
    if asize / 2 % 2 = 1 then
      let r := bigLoop c x (asize - 2)
      ([.subSp 2, .pushMem 2 (x.plus (asize - 2))] ++ r.1, 2 + r.2)
    else
      let r := bigLoop c x (asize - 4)
      ([.pushMem 4 (x.plus (if c.espBase then 4 else asize - 4))] ++ r.1, r.2)
  else ([], 0)
termination_by asize.toNat

/-- A memory argument that is larger than a dword, invoke.c 3726-3810. -/
def bigMem (c : Cfg) (p : Param) (x : EA) (asize : Nat) : List Ins × Nat :=
  if asize = 5 then ([.subSp 2, .movAl (.mem (x.plus 7)), .pushReg 2 0, .pushMem 4 x], 0)
  else if asize = 6 ∧ p.isFword = false then ([.subSp 2, .pushMem 2 (x.plus 6), .pushMem 4 x], 0)
  else if asize = 7 then ([.movAl (.mem (x.plus 6)), .pushReg 2 0, .pushMem 2 (x.plus 10), .pushMem 4 (x.plus 6)], 0)
  else bigLoop c x asize

/-- A memory argument that is smaller than a dword, invoke.c 3812-3901; `psize` is the size of the parameter, for VARARG that of
the argument. Structures of 1 or 2 bytes (`push` of the structure) are not modelled. -/
def smallMem (c : Cfg) (p : Param) (psize : Nat) (x : EA) (ty : Ty) (used : Bool) : Option (List Ins × Bool) :=
  if psize > 4 then none
  else
    match ty with
    | .int size signed =>
      if psize > 2 ∧ signed then some ([.movx true size (.mem x), .pushReg 4 0], true)
      else if size = 1 then
        if psize = 1 ∧ p.vararg = false then some ([.movAl (.mem x), .pushReg 4 0], true)
        else some ([.movx signed 1 (.mem x), .pushReg 4 0], true)
      else if size = 2 then
        if signed = false ∧ (c.masm ∨ psize = 2) then
          some ([if p.vararg ∨ psize ≠ 2 then .pushImm 2 0 else .subSp 2, .pushMem 2 x], used)
        else some ([.movx signed 2 (.mem x), .pushReg 4 0], true)
      else none
    | .struct size =>
      if size = 3 then some ([.movAl (.mem (x.plus 2)), .pushReg 2 0, .pushMem 2 (x.plus 2)], used) else none
    | .untyped =>
      if psize = 3 then some ([.movAl (.mem (x.plus 2)), .pushReg 2 0, .pushMem 2 (x.plus 2)], used)
      else some ([.pushMem 4 x], used)

/-- `asize` of a memory argument, invoke.c 3637-3668. -/
def memSize (p : Param) : Ty → Nat
  | .int size _ => size
  | .struct size => size
  | .untyped => p.psize

def isSigned : Ty → Bool
  | .int _ s => s
  | _ => false

/-- A memory argument, invoke.c 3695-3945. -/
def pushMemArg (c : Cfg) (p : Param) (x : EA) (ty : Ty) (used : Bool) : Option Out :=
  let asize := memSize p ty
  if p.psize = 0 ∧ p.vararg = false then none
  else
    let psize := if p.vararg then asize else p.psize
    if asize > psize ∨ (asize < psize ∧ p.isPtr) then none
    else
      let used := if used ∧ usesEax x then false else used
      let sv := if p.vararg then (if asize > 4 then asize else 4) else 0
      if asize > 4 then
        let r := bigMem c p x asize
        some ⟨r.1, used, sv + r.2⟩
      else if asize < 4 then
        (smallMem c p psize x ty used).map fun r => ⟨r.1, r.2, sv⟩
      else if isSigned ty ∧ psize > 4 then none -- `movsx eax, dword` is no instruction
      else some ⟨[.pushMem 4 x], used, sv⟩

def partSize : Part → Nat
  | .full => 4
  | .word => 2
  | _ => 1

/-- A register argument, invoke.c 3946-4122. -/
def pushRegArg (p : Param) (r : Reg) (signed : Bool) (used : Bool) : Option Out :=
  let asize := partSize r.part
  let psize0 := if p.vararg then asize else p.psize
  if asize > psize0 ∨ (asize < psize0 ∧ p.isPtr) then none
  else
    let psize := if p.vararg ∧ psize0 < 4 then 4 else psize0
    let sv := if p.vararg then psize else 0
    if used ∧ r.num = 0 then none
    else if asize ≠ psize ∨ asize < 4 then
      if psize > 4 then none
      else if asize = psize then
        if asize = 2 ∨ r.part = .low then some ⟨[.pushReg 4 r.num], used, sv⟩
        else some ⟨[.movAl (.reg r), .pushReg 4 0], true, sv⟩
      else if asize = 2 then
        if signed then some ⟨[.movx true 2 (.reg r), .pushReg 4 0], true, sv⟩
        else some ⟨[.pushImm 2 0, .pushReg 2 r.num], used, sv⟩
      else some ⟨[.movx signed 1 (.reg r), .pushReg 4 0], true, sv⟩
    else some ⟨[.pushReg 4 r.num], used, sv⟩

/-- An XMM register, invoke.c 3958 and 4107-4111. -/
def pushXmmArg (p : Param) (n : Nat) (used : Bool) : Option Out :=
  let psize := if p.vararg then 16 else p.psize
  if 16 > psize ∨ (16 < psize ∧ p.isPtr) then none
  else if 16 ≠ psize then none -- psize > 4
  else some ⟨[.movd n, .pushReg 4 0], used, if p.vararg then psize else 0⟩

/-- Bytes needed for a constant, invoke.c 4129-4139. -/
def constSize (v : Int) : Nat :=
  if v ≤ 255 ∧ -255 ≤ v then 1
  else if v ≤ 65535 ∧ -65535 ≤ v then 2
  else if v ≤ 0xFFFFFFFF ∧ -0x100000000 ≤ v then 4
  else 8

/-- A constant, invoke.c 4126-4250. A dword push of more than 32 bits is an error of the PUSH line; parameters of 6 bytes are
not modelled. -/
def pushConstArg (p : Param) (v : Int) (used : Bool) : Option Out :=
  if p.psize = 0 ∧ p.vararg = false then none
  else if p.vararg = false ∧ p.psize < constSize v then none
  else
    let psize := if p.vararg then 4 else if p.psize < 4 then 4 else p.psize
    if psize = 4 then
      if constSize v ≤ 4 then some ⟨[.pushImm 4 v], used, if p.vararg then psize else 0⟩ else none
    else if psize = 8 then some ⟨[.pushImm 4 (v / 2 ^ 32), .pushImm 4 v], used, 0⟩
    else none

/-- ADDR, invoke.c 3489-3590; for parameters of more than a dword only the errors are modelled (they may be FAR pointers). -/
def pushAddrArg (p : Param) (a : Int ⊕ EA) (used : Bool) : Option Out :=
  if p.psize > 4 then none
  else
    let sv := if p.vararg then 4 else 0
    match a with
    | .inr x => some ⟨[.lea x, .pushReg 4 0], true, sv⟩
    | .inl v => some ⟨[.pushImm 4 v], used, sv⟩

/-- PushInvokeParam, invoke.c 3190-4256. -/
def pushArg (c : Cfg) (p : Param) (a : Arg) (used : Bool) : Option Out :=
  match a with
  | .mem x ty => pushMemArg c p x ty used
  | .reg r signed => pushRegArg p r signed used
  | .xmm n => pushXmmArg p n used
  | .const v => pushConstArg p v used
  | .addrDirect v => pushAddrArg p (.inl v) used
  | .addrIndirect x => pushAddrArg p (.inr x) used

/-- The calls of PushInvokeParam for a list in push order, invoke.c 4453-4461 and 4508-4516. -/
def pushAll (c : Cfg) : List (Param × Arg) → Bool → Option Out
  | [], used => some ⟨[], used, 0⟩
  | (p, a) :: l, used =>
    match pushArg c p a used with
    | none => none
    | some o =>
      match pushAll c l o.used with
      | none => none
      | some r => some ⟨o.ins ++ r.ins, r.used, o.sv + r.sv⟩

inductive Lang | c | syscall | stdcall | pascal
  deriving DecidableEq, Repr

structure Proto where
  lang : Lang
  /-- in the order of declaration, without VARARG -/
  params : List Param
  vararg : Bool
  deriving DecidableEq, Repr

/-- `parasize`, proc.c 1106. -/
def parasize (pr : Proto) : Nat := (pr.params.map fun p => Proc.roundUp p.psize 4).sum

/-- The arguments with their parameters, in the order of declaration; `none`: too many or too few arguments
(invoke.c 4408-4447, 4459). -/
def pair (pr : Proto) (args : List Arg) : Option (List (Param × Arg)) :=
  if args.length < pr.params.length then none
  else if pr.vararg = false ∧ args.length ≠ pr.params.length then none
  else some ((pr.params ++ List.replicate (args.length - pr.params.length) ({ psize := 0, vararg := true } : Param)).zip args)

/-- InvokeDirective, invoke.c 4404-4520 and 4666-4678: the lines in front of the CALL, and the number added to ESP behind it. -/
def invoke (c : Cfg) (pr : Proto) (args : List Arg) : Option (List Ins × Nat) :=
  match pair pr args with
  | none => none
  | some l =>
    match pushAll c (if pr.lang = .pascal then l else l.reverse) false with
    | none => none
    | some o =>
      some (o.ins, if pr.lang = .c ∨ pr.lang = .syscall then parasize pr + (if pr.vararg then o.sv else 0) else 0)

/-- RET of a procedure, proc.c 5482-5506: the number of bytes it removes. -/
def calleePops (pr : Proto) : Nat :=
  match pr.lang with
  | .c => 0
  | .syscall => 0
  | .pascal => parasize pr
  | .stdcall => if pr.vararg then 0 else parasize pr

end Verif.Invoke
