import Verif.Invoke64.Props
/-! # Examples and findings -/
namespace Verif.Invoke64
open Frame (store load)

def q8 : Param := { psize := 8 }
def d4 : Param := { psize := 4 }
def r8 : Param := { psize := 8, kind := .real }
def rax : Reg := ⟨0, .q⟩
def rcx : Reg := ⟨1, .q⟩

/-- Registers with their number times 0x1111, RSP = 0x10000; memory cells with the low byte of their address. -/
def mEx : M := { gpr := fun r => if r = 4 then 0x10000 else 0x1111 * r + 0x7000000000, xmm := fun k => 1000 + k, mem := fun x => x % 256 }

/-- A call with a mixture: `invoke f, rbx, sdword ptr [1000h], xmm2, 0, addr [rsi+8], -5, [rdi]` for QWORD, QWORD, REAL8, DWORD,
QWORD, QWORD, QWORD. -/
def prEx : Proto := { params := [q8, q8, r8, d4, q8, q8, q8] }
def argsEx : List Arg := [.reg ⟨3, .q⟩ false, .mem ⟨none, none, 0x1000⟩ 4 true, .xmm 2, .const 0 .number, .addr ⟨some 6, none, 8⟩,
  .const (-5) .number, .memU ⟨some 7, none, 0⟩]

example : invoke false prEx argsEx = some
  { before := [.addSp (-64), .mov ⟨1, .q⟩ (.reg ⟨3, .q⟩), .movx true ⟨2, .q⟩ 4 (.mem ⟨none, none, 0x1000⟩), .xor ⟨9, .d⟩,
      .lea rax ⟨some 6, none, 8⟩, .put 32 rax, .putImm 8 40 (-5), .mov rax (.mem ⟨some 7, none, 0⟩), .put 48 rax]
    after := [.addSp 64] } := by decide +kernel

/-- The hypotheses of `C66_arguments_partial` hold for it. -/
example : WfProto prEx ∧ ∀ k a, argsEx[k]? = some a → Sound (paramAt prEx k) k a ∧ (false = false → 4 ∉ argRegs a) ∧
      ∀ x, reads mEx (paramAt prEx k) a x → x < callSp false prEx argsEx mEx + 32 ∨ callSp false prEx argsEx mEx + 8 * slots prEx argsEx ≤ x := by
  refine ⟨?_, ?_⟩
  · simp [WfProto, prEx, WfParam, q8, d4, r8]
  · intro k a h
    have hk : k < 7 := by have := (List.getElem?_eq_some_iff.1 h).1; simpa [argsEx] using this
    have : k = 0 ∨ k = 1 ∨ k = 2 ∨ k = 3 ∨ k = 4 ∨ k = 5 ∨ k = 6 := by omega
    rcases this with rfl | rfl | rfl | rfl | rfl | rfl | rfl <;> simp [argsEx] at h <;> subst h <;>
      simp [Sound, paramAt, prEx, argRegs, eaRegs, reads, q8, d4, r8, callSp, slots, mEx, argsEx, eaVal, psz, width] <;> omega

/-- A VARARG call with the order of its arguments. -/
example : (invoke true { params := [q8], vararg := true } [.addr ⟨none, none, 0x5000⟩, .reg ⟨3, .d⟩ false, .const 7 .number, .reg ⟨6, .q⟩ false,
    .mem ⟨none, none, 0x6000⟩ 2 true]).map (·.before) = some
  [.movx true ⟨0, .d⟩ 2 (.mem ⟨none, none, 0x6000⟩), .put 32 ⟨0, .d⟩, .mov ⟨9, .q⟩ (.reg ⟨6, .q⟩), .movImm ⟨8, .d⟩ 7, .mov ⟨2, .d⟩ (.reg ⟨3, .d⟩),
    .lea rcx ⟨none, none, 0x5000⟩] := by decide +kernel

/-- An overwritten register is found: `invoke f, rbx, rcx`. -/
theorem C66_overwritten_register_is_refused : invoke true { params := [q8, q8] } [.reg ⟨3, .q⟩ false, .reg rcx false] = none := by
  decide +kernel

/-- Every general register (other than CH and DH) or address that needs a register overwritten by an earlier argument is refused. -/
theorem C66_overwritten_is_refused (i : Nat) (p : Param) (a : Arg) (used : List Nat) (r : Nat) (hr : r ∈ argRegs a) (hu : r ∈ used)
    (hh : ∀ q s, a = .reg q s → q.part = .h → q.num = 0) : param i p a used = none := by
  cases h : param i p a used with
  | none => rfl
  | some o =>
    exfalso
    have hc := (param_cases i p a used o h).1
    refine hc r ?_ hu
    cases a with
    | reg q s =>
      simp [argRegs] at hr; subst hr
      have := hh q s rfl
      simp only [checked]
      split
      · simp [this ‹_›]
      · simp
    | mem x n s => exact hr
    | memU x => exact hr
    | addr x => exact hr
    | xmm k => simp [argRegs] at hr
    | const v nm => simp [argRegs] at hr
    | float f4 f8 => simp [argRegs] at hr

/-! ## Findings: the conditions of `Sound` are needed -/

/-- The value found for argument `k` when the code is run from `mEx`, and the one the argument had. -/
def outcome (auto : Bool) (pr : Proto) (args : List Arg) (k : Nat) : Option (Int × Int) := do
  let c ← invoke auto pr args
  let a ← args[k]?
  some (found (run mEx c.before) (paramAt pr k) k (width (paramAt pr k) a),
    argVal mEx (paramAt pr k) a % 256 ^ width (paramAt pr k) a)

/-- `invoke f, xmm1, xmm0`: the second argument is lost without a message. -/
theorem C66_finding_xmm : outcome true { params := [r8, r8] } [.xmm 1, .xmm 0] 1 = some (1001, 1000) := by decide +kernel

/-- `invoke f, 5500h, ch` for DWORD and BYTE: CH has been overwritten, without a message. -/
theorem C66_finding_ch : outcome true { params := [d4, { psize := 1 }] } [.const 0x5500 .number, .reg ⟨1, .h⟩ false] 1 = some (0x55, 0x11) := by
  decide +kernel

/-- `BIG equ 100000000h`, `invoke f, BIG`: 0 is passed. -/
theorem C66_finding_equate : outcome true { params := [q8] } [.const 0x100000000 .equate] 0 = some (0, 0x100000000) := by decide +kernel

/-- `NULL equ 7` (or FALSE): 0 is passed in a register, 7 in the stack. -/
theorem C66_finding_null : outcome true { params := [q8, q8, q8, q8, q8] } (List.replicate 5 (.const 7 .null)) 0 = some (0, 7) ∧
    outcome true { params := [q8, q8, q8, q8, q8] } (List.replicate 5 (.const 7 .null)) 4 = some (7, 7) := by decide +kernel

/-- `invoke f, rbx` for a REAL8 parameter: nothing is put into XMM0; the value goes to RCX. -/
theorem C66_finding_real_gpr : (invoke true { params := [r8] } [.reg ⟨3, .q⟩ false]).map (·.before) = some [.mov rcx (.reg ⟨3, .q⟩)] ∧
    outcome true { params := [r8] } [.reg ⟨3, .q⟩ false] 0 = some (1000, 0x7000003333) := by decide +kernel

/-- An integer constant for a REAL8 parameter likewise. -/
theorem C66_finding_real_const : (invoke true { params := [r8] } [.const 1 .number]).map (·.before) = some [.movImm rcx 1] := by
  decide +kernel

/-- A REAL4 variable for a REAL8 parameter: 8 bytes are read from it. -/
theorem C66_finding_real_size : outcome true { params := [r8] } [.mem ⟨none, none, 0x1000⟩ 4 false] 0 =
    some (0x0706050403020100, 0x03020100) := by decide +kernel

/-- ADDR for a REAL8 parameter: the contents are passed. -/
theorem C66_finding_real_addr : outcome true { params := [r8] } [.addr ⟨none, none, 0x1000⟩] 0 = some (0x0706050403020100, 0x1000) := by
  decide +kernel

/-- Without automatic stack space, `[rsp+n]` is read after RSP has been lowered; the same for RSP itself. -/
theorem C66_finding_rsp : outcome false { params := [q8] } [.reg ⟨4, .q⟩ false] 0 = some (0xFFE0, 0x10000) := by decide +kernel

/-- Untyped memory for a structure of 16 bytes: by address as one of the first four, its first 8 bytes as the fifth. -/
theorem C66_finding_struct : outcome true { params := [q8, q8, q8, q8, { psize := 16, kind := .struct }] }
    [.const 0 .number, .const 0 .number, .const 0 .number, .const 0 .number, .memU ⟨none, none, 0x1000⟩] 4 =
    some (0x0706050403020100, 0x1000) := by decide +kernel

/-- `invoke f (in rcx), 5`: the address to call is overwritten without a message. -/
theorem C66_finding_target : ((invoke true { params := [q8] } [.const 5 .number]).map fun c => targetVal (run mEx c.before) (.reg 1)) = some 5 ∧
    targetVal mEx (.reg 1) = 0x7000001111 := by decide +kernel

/-- A DWORD register cannot be passed as the fifth parameter of 8 bytes, though it can be as one of the first four. -/
theorem C66_finding_fifth : invoke true { params := [q8, q8, q8, q8, q8] } (List.replicate 4 (.const 1 .number) ++ [.reg ⟨3, .d⟩ false]) = none ∧
    (invoke true { params := [q8] } [.reg ⟨3, .d⟩ false]).isSome = true := by decide +kernel

/-- Seven arguments: 64 bytes; three: 32. -/
example : slots prEx argsEx = 8 ∧ slots { params := [q8, q8, q8] } [] = 4 := by decide

example : ([({ params := [q8] }, []), (prEx, argsEx), ({ params := [q8, q8, q8, q8, q8] }, [])] : List (Proto × List Arg)).foldl
    (fun s q => reserve s q.1 q.2) 0 = 64 := by decide

end Verif.Invoke64
