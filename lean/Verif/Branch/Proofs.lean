import Verif.Branch.Spec
namespace Verif.Branch

theorem dec_pfx_f2 (m p bs) : decode m p (0xF2#8 :: bs) = decode m { p with count := p.count + 1 } bs := by
  rw [decode]; simp
theorem dec_pfx_66 (m p bs) : decode m p (0x66#8 :: bs) = decode m { p with opsize := true, count := p.count + 1 } bs := by
  rw [decode]; simp
theorem dec_pfx_67 (m p bs) : decode m p (0x67#8 :: bs) = decode m { p with addrsize := true, count := p.count + 1 } bs := by
  rw [decode]; simp

theorem dec_jmp_short (m p bs) : decode m p (0xEB#8 :: bs) = mk m p .jmp 1 1 bs := by
  rw [decode]; simp [decodeOp]
theorem dec_jmp_near (m p bs) : decode m p (0xE9#8 :: bs) = mk m p .jmp 1 (nearSize m p) bs := by
  rw [decode]; simp [decodeOp]
theorem dec_call (m p bs) : decode m p (0xE8#8 :: bs) = mk m p .call 1 (nearSize m p) bs := by
  rw [decode]; simp [decodeOp]
theorem dec_xcx (m p bs) (x : Xop) : decode m p (x.opcode :: bs) = mk m p (.xcx x.opcode (addrWidth m p)) 1 1 bs := by
  cases x <;> (rw [decode]; simp [decodeOp, Xop.opcode])

theorem jccShort_hi (c : BitVec 4) : (jccShort c).extractLsb' 4 4 = 7#4 := by revert c; decide
theorem jccShort_ne (c : BitVec 4) : ∀ k : BitVec 8, k.extractLsb' 4 4 ≠ 7#4 → jccShort c ≠ k := by
  intro k hk h
  apply hk
  rw [← h]
  exact jccShort_hi c
theorem jccShort_lo (c : BitVec 4) : (jccShort c).extractLsb' 0 4 = c := by revert c; decide
theorem jccShort_inv (c : BitVec 4) : jccShort c ^^^ 1#8 = jccShort (c ^^^ 1#4) := by revert c; decide
theorem jccNear_hi (c : BitVec 4) : (0x80#8 + c.setWidth 8).extractLsb' 4 4 = 8#4 := by revert c; decide
theorem jccNear_lo (c : BitVec 4) : (0x80#8 + c.setWidth 8).extractLsb' 0 4 = c := by revert c; decide

theorem dec_jcc_short (m p bs) (c : BitVec 4) : decode m p (jccShort c :: bs) = mk m p (.jcc c) 1 1 bs := by
  rw [decode]
  rw [if_neg, if_neg, if_neg, decodeOp.eq_def]
  simp only
  rw [if_neg, if_neg, if_neg, if_neg, if_pos, jccShort_lo]
  · exact jccShort_hi c
  · exact jccShort_ne c _ (by decide)
  · exact jccShort_ne c _ (by decide)
  · exact jccShort_ne c _ (by decide)
  · exact jccShort_ne c _ (by decide)
  · exact jccShort_ne c _ (by decide)
  · exact jccShort_ne c _ (by decide)
  · exact jccShort_ne c _ (by decide)

theorem dec_jcc_near (m p bs) (c : BitVec 4) :
    decode m p (0x0F#8 :: (0x80#8 + c.setWidth 8) :: bs) = mk m p (.jcc c) 2 (nearSize m p) bs := by
  rw [decode]
  simp only [decodeOp, jccNear_hi, jccNear_lo]
  simp

theorem cc_inv (e : Env) (c : BitVec 4) : e.cc (c ^^^ 1#4) = !e.cc c := by
  have h1 : (c ^^^ 1#4).extractLsb' 1 3 = c.extractLsb' 1 3 := by revert c; decide
  have h2 : (c ^^^ 1#4).getLsbD 0 = !c.getLsbD 0 := by revert c; decide
  unfold Env.cc
  rw [h1, h2]
  cases e.cond _ <;> cases c.getLsbD 0 <;> rfl

/-- The displacement bytes read back. -/
theorem sint_i8 (d : BitVec 32) : sint 1 (dispBytes .i8 d) = some (d.setWidth 8).toInt := rfl
theorem sint_i16 (d : BitVec 32) : sint 2 (dispBytes .i16 d) = some (d.setWidth 16).toInt := by
  simp only [dispBytes, sint]
  congr 2
  apply BitVec.eq_of_toNat_eq
  simp [Nat.shiftRight_eq_div_pow]
  omega
theorem sint_i32 (d : BitVec 32) : sint 4 (dispBytes .i32 d) = some d.toInt := by
  simp only [dispBytes, sint]
  congr 2
  apply BitVec.eq_of_toNat_eq
  have := d.isLt
  simp [Nat.shiftRight_eq_div_pow]
  omega

theorem small8 (d : BitVec 32) (h1 : (-128#32).sle d = true) (h2 : d.sle 127#32 = true) : (d.setWidth 8).toInt = d.toInt := by
  simp [BitVec.sle, BitVec.toInt_eq_toNat_bmod, Int.bmod_def] at h1 h2
  rw [BitVec.toInt_eq_toNat_bmod, BitVec.toInt_eq_toNat_bmod]
  simp [Int.bmod_def]
  have := d.isLt
  omega

theorem toInt_trunc16 (d : BitVec 32) : ∃ k : Int, (d.setWidth 16).toInt = d.toInt + k * 2 ^ 16 := by
  refine ⟨((d.setWidth 16).toInt - d.toInt) / 2 ^ 16, ?_⟩
  rw [BitVec.toInt_eq_toNat_bmod, BitVec.toInt_eq_toNat_bmod]
  simp [Int.bmod_def]
  omega
end Verif.Branch

namespace Verif.Branch

def opOf (m : Ofs) (p : Pfx) : Kind → Op
  | .jmp => .jmp
  | .call => .call
  | .jcc c => .jcc c
  | .xcx x _ => .xcx x.opcode (addrWidth m p)

def dispVal (t : OpType) (d : BitVec 32) : Int :=
  match t with
  | .i8 => (d.setWidth 8).toInt
  | .i16 => (d.setWidth 16).toInt
  | .i32 => d.toInt

def dispSize : OpType → Nat | .i8 => 1 | .i16 => 2 | .i32 => 4

theorem sint_disp (t : OpType) (d : BitVec 32) : sint (dispSize t) (dispBytes t d) = some (dispVal t d) := by
  cases t
  · exact sint_i8 d
  · exact sint_i16 d
  · exact sint_i32 d

theorem decode_core (m : Ofs) (p : Pfx) (k : Kind) (t : OpType) (d : BitVec 32)
    (h8 : k = .call → t ≠ .i8) (hx : k.isXcx = true → t = .i8) (hn : t ≠ .i8 → dispSize t = nearSize m p) :
    decode m p (opcode k t ++ dispBytes t d) =
      some ⟨opOf m p k, p.count + (opcode k t).length + dispSize t, dispVal t d, ipWidth m p⟩ := by
  have sd := sint_disp t d
  cases k with
  | jmp =>
    cases t with
    | i8 => simp only [opcode, List.cons_append, List.nil_append]; rw [dec_jmp_short]; simp only [mk, sint_i8]; rfl
    | i16 => simp only [opcode, List.cons_append, List.nil_append]; rw [dec_jmp_near, ← hn (by simp)]; simp only [mk, sd]; rfl
    | i32 => simp only [opcode, List.cons_append, List.nil_append]; rw [dec_jmp_near, ← hn (by simp)]; simp only [mk, sd]; rfl
  | call =>
    have := h8 rfl
    simp only [opcode, List.cons_append, List.nil_append]; rw [dec_call, ← hn this]; simp only [mk, sd]; rfl
  | jcc c =>
    cases t with
    | i8 => simp only [opcode, List.cons_append, List.nil_append]; rw [dec_jcc_short]; simp only [mk, sint_i8]; rfl
    | i16 => simp only [opcode, List.cons_append, List.nil_append]; rw [dec_jcc_near, ← hn (by simp)]; simp only [mk, sd]; rfl
    | i32 => simp only [opcode, List.cons_append, List.nil_append]; rw [dec_jcc_near, ← hn (by simp)]; simp only [mk, sd]; rfl
  | xcx x a =>
    have := hx rfl
    subst this
    simp only [opcode, List.cons_append, List.nil_append]; rw [dec_xcx]; simp only [mk, sint_i8]; rfl

def pfxBytes (bnd adr ops : Bool) : List (BitVec 8) :=
  (if bnd then [0xF2#8] else []) ++ (if adr then [0x67#8] else []) ++ (if ops then [0x66#8] else [])

theorem decode_pfx (m : Ofs) (bnd adr ops : Bool) (bs : List (BitVec 8)) :
    decode m {} (pfxBytes bnd adr ops ++ bs) = decode m ⟨ops, adr, (pfxBytes bnd adr ops).length⟩ bs := by
  cases bnd <;> cases adr <;> cases ops <;> simp [pfxBytes, dec_pfx_f2, dec_pfx_66, dec_pfx_67]

/-- One instruction executed. -/
theorem exec_one (m : Ofs) (e : Env) (n : Nat) (code : List (BitVec 8)) (ip : Int) (i : Insn) (hd : decode m {} code = some i)
    (hl : i.len = code.length) :
    exec m e (n + 1) code ip =
      some (if e.taken i.op then wrapIp i.width (ip + i.len + i.disp) else wrapIp (ipWidth m {}) (ip + i.len)) := by
  rw [exec, hd]
  simp only [hl, Nat.le_refl, if_true]
  split <;> rfl

theorem dispLen (t : OpType) (d : BitVec 32) : (dispBytes t d).length = dispSize t := by cases t <;> rfl

/-- A single branch instruction with displacement value `d` goes to the end of the instruction plus `d`. -/
theorem exec_branch (m : Ofs) (e : Env) (n : Nat) (bnd adr ops : Bool) (k : Kind) (t : OpType) (d : BitVec 32) (ip : Int)
    (h8 : k = .call → t ≠ .i8) (hx : k.isXcx = true → t = .i8)
    (hn : t ≠ .i8 → dispSize t = nearSize m ⟨ops, adr, 0⟩) :
    exec m e (n + 1) (pfxBytes bnd adr ops ++ (opcode k t ++ dispBytes t d)) ip =
      some (if e.taken (opOf m ⟨ops, adr, 0⟩ k) then
          wrapIp (ipWidth m ⟨ops, adr, 0⟩) (ip + (pfxBytes bnd adr ops ++ (opcode k t ++ dispBytes t d)).length + dispVal t d)
        else wrapIp (ipWidth m {}) (ip + (pfxBytes bnd adr ops ++ (opcode k t ++ dispBytes t d)).length)) := by
  have hd : decode m {} (pfxBytes bnd adr ops ++ (opcode k t ++ dispBytes t d)) =
      some ⟨opOf m ⟨ops, adr, 0⟩ k, (pfxBytes bnd adr ops ++ (opcode k t ++ dispBytes t d)).length, dispVal t d, ipWidth m ⟨ops, adr, 0⟩⟩ := by
    rw [decode_pfx, decode_core _ _ _ _ _ h8 hx]
    · congr 1
      simp only [List.length_append, dispLen, Insn.mk.injEq, true_and]
      refine ⟨?_, by omega, ?_⟩
      · cases k <;> rfl
      · cases m <;> rfl
    · intro ht; rw [hn ht]; rfl
  rw [exec_one m e n _ ip _ hd rfl]

end Verif.Branch
