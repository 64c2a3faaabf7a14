import Verif.Invoke.Balance
/-! # INVOKE: a call that meets the hypotheses, and arguments that are passed wrongly -/
namespace Verif.Invoke
open Frame (store load)

/-- `f proto c a:dword, b:byte, d:word, e:qword, v:vararg` -/
def exProto : Proto := ⟨.c, [{ psize := 4 }, { psize := 1 }, { psize := 2 }, { psize := 8 }], true⟩

/-- `invoke f, addr loc, ah, w, q, ecx, sbyte ptr [ebx+2]` with a local `loc` at EBP-8, `w`, `q` at 5000, 6000 -/
def exArgs : List Arg :=
  [.addrIndirect ⟨some 5, none, -8⟩, .reg ⟨0, .high⟩ false, .mem ⟨none, none, 5000⟩ (.int 2 false), .mem ⟨none, none, 6000⟩ (.int 8 false),
   .reg ⟨1, .full⟩ false, .mem ⟨some 3, none, 2⟩ (.int 1 true)]

def exM : M := ⟨fun r => 0x1000 * (r + 1) + 0x80, fun _ => 0x123456789, 0x3000, fun x => x * 7⟩

/-- The same call but with AL for AH, and no EAX behind ADDR. -/
def exArgs2 : List Arg :=
  [.addrIndirect ⟨some 5, none, -8⟩, .reg ⟨1, .high⟩ false, .mem ⟨none, none, 5000⟩ (.int 2 false), .mem ⟨none, none, 6000⟩ (.int 8 false),
   .reg ⟨1, .full⟩ false, .mem ⟨some 3, none, 2⟩ (.int 1 true)]

/-- AH behind an argument that needs EAX is refused. -/
example : invoke {} exProto exArgs = none := by decide +kernel

example : invoke {} exProto exArgs2 = some
    ([.movx true 1 (.mem ⟨some 3, none, 2⟩), .pushReg 4 0, .pushReg 4 1, .pushMem 4 ⟨none, none, 6004⟩, .pushMem 4 ⟨none, none, 6000⟩,
      .subSp 2, .pushMem 2 ⟨none, none, 5000⟩, .movAl (.reg ⟨1, .high⟩), .pushReg 4 0, .lea ⟨some 5, none, -8⟩, .pushReg 4 0], 28) := by
  decide +kernel

/-- The hypotheses of C62 and C63 are met. -/
theorem ex_hyps : ∀ k a, exArgs2[k]? = some a → Tame a ∧ Sound (paramAt exProto k) a ∧
    ∀ x, reads exM (paramAt exProto k) a x → ¬ (exM.sp - (slots exProto exArgs2).sum ≤ x ∧ x < exM.sp) := by
  have hs : (slots exProto exArgs2).sum = 28 := by decide
  intro k a hk
  rw [hs]
  rcases k with _ | _ | _ | _ | _ | _ | k
  · cases hk; exact ⟨by simp [Tame, eaRegs], trivial, fun x hx => hx.elim⟩
  · cases hk; exact ⟨by simp [Tame], trivial, fun x hx => hx.elim⟩
  · cases hk
    refine ⟨by simp [Tame, eaRegs], by simp [Sound, memSize], fun x hx => ?_⟩
    have h2 := hx.2
    simp only [readSize, memSize, eaVal] at h2
    simp only [exM]; omega
  · cases hk
    refine ⟨by simp [Tame, eaRegs], by simp [Sound, memSize, paramAt, exProto], fun x hx => ?_⟩
    have h2 := hx.2
    simp only [readSize, memSize, eaVal] at h2
    simp only [exM]; omega
  · cases hk; exact ⟨by simp [Tame], trivial, fun x hx => hx.elim⟩
  · cases hk
    refine ⟨by simp [Tame, eaRegs], by simp [Sound, memSize], fun x hx => ?_⟩
    have h1 := hx.1
    simp only [eaVal, exM] at h1
    simp only [exM]; omega
  · simp [exArgs2] at hk

/-- What the procedure finds, and the stack pointer behind the call. -/
example : let m' := run exM ((invoke {} exProto exArgs2).getD ([], 0)).1
    m'.sp = exM.sp - 28 ∧ load m'.mem m'.sp 4 = 0x6078 ∧ load m'.mem (m'.sp + 4) 1 = 0x20 ∧
    load m'.mem (m'.sp + 24) 4 = (if (0x4082 * 7 : Int) % 256 < 128 then 0x4082 * 7 % 256 else 0xffffff00 + 0x4082 * 7 % 256) := by decide +kernel

def exS (n : Nat) : Proto := ⟨.c, [{ psize := n }], false⟩
def exV : EA := ⟨none, none, 5000⟩

/-- The value that the procedure finds for a structure of `n` bytes at 5000, and the right one. -/
def found (n : Nat) : Int := let m' := run exM ((invoke {} (exS n) [.mem exV (.struct n)]).getD ([], 0)).1; load m'.mem m'.sp n
def wanted (n : Nat) : Int := load exM.mem 5000 n

/-- Structures of 3, 5, 6, 7, 9, 11, 13 bytes are passed wrongly; those of 4, 8, 10, 12, 14, 16 bytes are passed correctly. -/
theorem C62_struct_counterexample : (∀ n ∈ [3, 5, 6, 7, 9, 11, 13], found n ≠ wanted n) ∧
    (∀ n ∈ [4, 8, 10, 12, 14, 16], found n = wanted n) := by decide +kernel

/-- A structure of 11 bytes: 16 bytes are pushed, 12 are removed. -/
theorem C63_struct_counterexample : (invoke {} (exS 11) [.mem exV (.struct 11)]).map (fun r => (exM.sp - (run exM r.1).sp, r.2)) = some (16, 12) := by
  decide +kernel

/-- A DWORD variable for a QWORD parameter: for every variable only 4 bytes are pushed and 8 are removed. -/
theorem C63_dword_for_qword_counterexample (x : EA) (m : M) :
    ∃ r, invoke {} (exS 8) [.mem x (.int 4 false)] = some r ∧ spAfter (exS 8) m r.1 r.2 = m.sp + 4 := by
  refine ⟨([.pushMem 4 x], 8), ?_, ?_⟩
  · simp [invoke, pair, exS, pushAll, pushArg, pushMemArg, memSize, isSigned, parasize, Proc.roundUp_4]
  · simp only [spAfter, run, List.foldl_cons, List.foldl_nil, exec, calleePops, exS]; omega

/-- An XMM register for a parameter of 16 bytes: only 4 bytes are pushed and 16 are removed. -/
theorem C63_xmm_counterexample (n : Nat) (m : M) :
    ∃ r, invoke {} (exS 16) [.xmm n] = some r ∧ spAfter (exS 16) m r.1 r.2 = m.sp + 12 := by
  refine ⟨([.movd n, .pushReg 4 0], 16), ?_, ?_⟩
  · simp [invoke, pair, exS, pushAll, pushArg, pushXmmArg, parasize, Proc.roundUp_4]
  · simp only [spAfter, run, List.foldl_cons, List.foldl_nil, exec, setEax, calleePops, exS]; omega

/-- OPTION STACKBASE:ESP: the high dword of a QWORD variable is pushed twice. -/
theorem C62_stackbase_counterexample : invoke { espBase := true } (exS 8) [.mem exV (.int 8 false)] =
    some ([.pushMem 4 (exV.plus 4), .pushMem 4 (exV.plus 4)], 8) := by decide +kernel

/-- `invoke f, eax-relative argument, addr local`: EAX was changed by the second argument and `[eax]` is read without a message. -/
theorem C62_eax_address_counterexample :
    let p : Proto := ⟨.c, [{ psize := 4 }, { psize := 4 }], false⟩
    let r := invoke {} p [.mem ⟨some 0, none, 0⟩ (.int 4 false), .addrIndirect ⟨some 5, none, -8⟩]
    r = some ([.lea ⟨some 5, none, -8⟩, .pushReg 4 0, .pushMem 4 ⟨some 0, none, 0⟩], 8) ∧
    (let m' := run exM (r.getD ([], 0)).1
     load m'.mem m'.sp 4 ≠ load exM.mem (exM.gpr 0) 4) := by decide +kernel

/-- Behind such an argument EAX itself is not refused, although it was changed. -/
theorem C62_eax_register_counterexample :
    let p : Proto := ⟨.c, [{ psize := 4 }, { psize := 4 }, { psize := 4 }], false⟩
    let r := invoke {} p [.reg ⟨0, .full⟩ false, .mem ⟨some 0, none, 0⟩ (.int 4 false), .addrIndirect ⟨some 5, none, -8⟩]
    r.isSome ∧ (let m' := run exM (r.getD ([], 0)).1; load m'.mem m'.sp 4 ≠ exM.gpr 0) := by decide +kernel

/-- STDCALL with VARARG: nobody removes the arguments. -/
theorem C63_stdcall_vararg_counterexample (v : Int) (m : M) (hv : 0 ≤ v ∧ v < 256) :
    let p : Proto := ⟨.stdcall, [], true⟩
    ∃ r, invoke {} p [.const v] = some r ∧ spAfter p m r.1 r.2 = m.sp - 4 := by
  refine ⟨([.pushImm 4 v], 0), ?_, ?_⟩
  · have : constSize v = 1 := by unfold constSize; rw [if_pos (by omega)]
    simp [invoke, pair, pushAll, pushArg, pushConstArg, this]
  · simp only [spAfter, run, List.foldl_cons, List.foldl_nil, exec, calleePops, if_true]; omega

/-- A REAL10 (10 bytes) variable for a declared parameter of a VARARG procedure: 2 bytes too many are removed. -/
theorem C63_real10_counterexample : let p : Proto := ⟨.c, [{ psize := 10 }], true⟩
    (invoke {} p [.mem exV (.int 10 false)]).map (fun r => spAfter p exM r.1 r.2 - exM.sp) = some 2 := by decide +kernel

/-- A structure of 6 bytes behind the declared parameters: 8 bytes are pushed, 6 are removed. -/
theorem C63_vararg_struct_counterexample : let p : Proto := ⟨.c, [], true⟩
    (invoke {} p [.mem exV (.struct 6)]).map (fun r => spAfter p exM r.1 r.2 - exM.sp) = some (-2) := by decide +kernel

end Verif.Invoke
