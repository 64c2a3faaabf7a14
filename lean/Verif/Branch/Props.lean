import Verif.Branch.Proofs
/-! # Property theorems: branches (C17) -/
namespace Verif.Branch

theorem ofInt_sub (x y : Int) : BitVec.ofInt 32 (x - y) = BitVec.ofInt 32 x - BitVec.ofInt 32 y := by
  rw [Int.sub_eq_add_neg, BitVec.ofInt_add, BitVec.ofInt_neg, BitVec.sub_eq_add_neg]

theorem addr_toInt (cur target a : BitVec 32) (k : Int) (hc : cur.toNat < 2 ^ 31 - 64) (ht : target.toNat < 2 ^ 31)
    (hd : 0 ≤ (target.toNat : Int) + a.toInt ∧ (target.toNat : Int) + a.toInt < 2 ^ 31) (hk : 0 ≤ k ∧ k ≤ 16)
    (x : BitVec 32) (hx : x = target - (cur + 2) + a - BitVec.ofInt 32 k) : x.toInt = target.toNat + a.toInt - cur.toNat - 2 - k := by
  subst hx
  have e : target - (cur + 2) + a - BitVec.ofInt 32 k = BitVec.ofInt 32 (target.toNat + a.toInt - cur.toNat - 2 - k) := by
    have r : (target.toNat : Int) + a.toInt - cur.toNat - 2 - k = (target.toNat : Int) - (cur.toNat + 2) + a.toInt - k := by omega
    rw [r, ofInt_sub, BitVec.ofInt_add, ofInt_sub, BitVec.ofInt_add, BitVec.ofInt_toInt]
    have h1 : BitVec.ofInt 32 (target.toNat : Int) = target := by simp
    have h2 : BitVec.ofInt 32 (cur.toNat : Int) = cur := by simp
    rw [h1, h2]
    rfl
  rw [e, BitVec.toInt_ofInt, Int.bmod_def]
  split <;> omega


def b2i (b : Bool) : Int := if b then 1 else 0

theorem wrap_add (w : Nat) (x k : Int) : wrapIp w (x + k * 2 ^ w) = wrapIp w x := by
  unfold wrapIp; exact Int.add_mul_emod_self_right ..

/-- Number of prefix bytes. -/
theorem pfx_len (bnd adr ops : Bool) : ((pfxBytes bnd adr ops).length : Int) = b2i bnd + b2i adr + b2i ops := by
  cases bnd <;> cases adr <;> cases ops <;> rfl

/-- A single instruction whose displacement field holds `dest - end of instruction`. -/
theorem single (m : Ofs) (e : Env) (n : Nat) (bnd adr ops : Bool) (k : Kind) (t : OpType) (d : BitVec 32) (ip dst : Int) (w : Nat)
    (h8 : k = .call → t ≠ .i8) (hx : k.isXcx = true → t = .i8) (hn : t ≠ .i8 → dispSize t = nearSize m ⟨ops, adr, 0⟩)
    (hd : d.toInt = dst - ip - (pfxBytes bnd adr ops ++ (opcode k t ++ dispBytes t d)).length)
    (hs : t = .i8 → (-128#32).sle d = true ∧ d.sle 127#32 = true) (hw : ipWidth m ⟨ops, adr, 0⟩ = w) :
    exec m e (n + 1) (pfxBytes bnd adr ops ++ (opcode k t ++ dispBytes t d)) ip =
      some (if e.taken (opOf m ⟨ops, adr, 0⟩ k) then wrapIp w dst
        else wrapIp (ipWidth m {}) (ip + (pfxBytes bnd adr ops ++ (opcode k t ++ dispBytes t d)).length)) := by
  rw [exec_branch m e n bnd adr ops k t d ip h8 hx hn, hw]
  congr 1
  split
  · cases t with
    | i8 =>
      have := small8 d (hs rfl).1 (hs rfl).2
      simp only [dispVal, this, hd]
      congr 1; omega
    | i32 =>
      simp only [dispVal, hd]
      congr 1; omega
    | i16 =>
      have hn' := hn (by simp)
      have h16 : w = 16 := by
        unfold nearSize at hn'
        rw [hw] at hn'
        simp only [dispSize] at hn'
        split at hn' <;> omega
      subst h16
      obtain ⟨q, hq⟩ := toInt_trunc16 d
      simp only [dispVal, hq, hd]
      rw [← wrap_add 16 dst q]
      congr 1; omega
  · rfl

theorem adr_eq (c : Ctx) (b : Br) (hv : Valid c b) : adrByteOut c b.kind = adrByte c b.kind := by
  unfold adrByteOut adrByte
  cases hk : b.kind with
  | xcx x a =>
    cases a with
    | a16 =>
      have := hv.2.1 x hk
      cases ho : c.ofs <;> simp_all
    | _ => rfl
  | _ => rfl

theorem taken_opOf (c : Ctx) (b : Br) (hv : Valid c b) (e : Env) (p : Bool) :
    e.taken (opOf c.ofs ⟨p, adrByte c b.kind, 0⟩ b.kind) = wants c.ofs e b.kind := by
  cases hk : b.kind with
  | xcx x a =>
    cases a with
    | none => cases ho : c.ofs <;> simp [opOf, Env.taken, wants, adrByte, addrWidth]
    | a16 =>
      have := hv.2.1 x hk
      cases ho : c.ofs <;> simp_all [opOf, Env.taken, wants, adrByte, addrWidth]
    | a32 => cases ho : c.ofs <;> simp [opOf, Env.taken, wants, adrByte, addrWidth, ho]
  | _ => rfl

theorem ipWidth_plain (m : Ofs) (adr : Bool) (n : Nat) : ipWidth m ⟨false, adr, n⟩ = m.width := by cases m <;> rfl


theorem subK (x : BitVec 32) (k : Int) (hk : 0 ≤ k ∧ k ≤ 16) (h : -(2 ^ 31 : Int) + 16 ≤ x.toInt) (y : BitVec 32)
    (hy : y = x - BitVec.ofInt 32 k) : y.toInt = x.toInt - k := by
  subst hy
  have h2 := BitVec.toInt_lt (x := x)
  rw [show x - BitVec.ofInt 32 k = BitVec.ofInt 32 (x.toInt - k) by rw [ofInt_sub, BitVec.ofInt_toInt], BitVec.toInt_ofInt, Int.bmod_def]
  split <;> omega

/-- The near form: operand type, prefix and displacement fit each other. -/
theorem nearForm_spec (c : Ctx) (b : Br) (hv : Valid c b) (A : BitVec 32) (hA : -(2 ^ 31 : Int) + 16 ≤ A.toInt) (adr : Bool) :
    let r := nearForm c b A
    r.1 ≠ .i8 ∧ dispSize r.1 = nearSize c.ofs ⟨r.2.2, adr, 0⟩ ∧ ipWidth c.ofs ⟨r.2.2, adr, 0⟩ = destWidth c b ∧
    r.2.1.toInt = A.toInt - (dispSize r.1 - 1) - b2i r.2.2 - b2i b.kind.isJcc ∧ (b.dist.isNear = false → r.2.2 = false) := by
  have h2 := BitVec.toInt_lt (x := A)
  cases hd : b.dist with
  | near o =>
    cases o with
    | some o =>
      have hv3 := hv.2.2 o hd
      cases ho : c.ofs <;> cases o <;> cases hj : b.kind.isJcc <;> simp_all [nearForm, destWidth, Ofs.width, dispSize, nearSize, ipWidth, b2i, Dist.isNear] <;>
        (rw [Int.bmod_def]; split <;> omega)
    | none =>
      cases ho : c.ofs <;> cases hj : b.kind.isJcc <;> simp_all [nearForm, destWidth, Ofs.width, dispSize, nearSize, ipWidth, b2i, Dist.isNear] <;>
        (rw [Int.bmod_def]; split <;> omega)
  | _ =>
      cases ho : c.ofs <;> cases hj : b.kind.isJcc <;> simp_all [nearForm, destWidth, Ofs.width, dispSize, nearSize, ipWidth, b2i, Dist.isNear] <;>
        (rw [Int.bmod_def]; split <;> omega)

theorem addrCalc (c : Ctx) (b : Br) (cur target : BitVec 32) (hc : cur.toNat < 2 ^ 31 - 64) (ht : target.toNat < 2 ^ 31)
    (hd : 0 ≤ dest b target ∧ dest b target < 2 ^ 31) :
    ∃ A : BitVec 32, A.toInt = dest b target - cur.toNat - 2 - (b2i (adrByte c b.kind) + b2i b.bnd) ∧
      (let addr := target - (cur + 2) + b.addend
       let addr := if adrByte c b.kind then addr - 1 else addr
       if b.bnd then addr - 1 else addr) = A := by
  refine ⟨_, ?_, rfl⟩
  unfold dest at hd ⊢
  apply addr_toInt cur target b.addend _ hc ht hd
  · cases adrByte c b.kind <;> cases b.bnd <;> simp [b2i]
  · cases adrByte c b.kind <;> cases b.bnd <;> simp [b2i]
    generalize target - (cur + 2#32) + b.addend = x
    rw [BitVec.sub_eq_add_neg, BitVec.sub_eq_add_neg, BitVec.add_assoc]
    exact (BitVec.sub_eq_add_neg x 2#32).symm

/-- The emitted bytes, if emission succeeds. -/
theorem emit_ok (c : Ctx) (b : Br) (o : Out) (code : List (BitVec 8)) (h : emit c b o = .ok code) :
    code = o.pre ++ (pfxBytes b.bnd (adrByteOut c o.kind) o.opsiz ++ (opcode o.kind o.type ++ dispBytes o.type o.disp)) ∧
      ¬ (b.bnd = true ∧ o.kind.isXcx = true) := by
  unfold emit at h
  split at h
  · simp at h
  · split at h
    · simp at h
    · simp only [Except.ok.injEq] at h
      refine ⟨?_, by assumption⟩
      rw [← h]; simp [pfxBytes, List.append_assoc]

theorem opcode_len (k : Kind) (t : OpType) : (opcode k t).length = if k.isJcc ∧ t ≠ .i8 then 2 else 1 := by
  cases k <;> cases t <;> rfl

/-- **C17** Whenever a branch to a label of the segment is assembled, executing the bytes at the address of the instruction
continues at the address of the operand if the condition of the source instruction holds, and right behind the bytes otherwise.
Offsets are below 2 GB. -/
theorem C17_reaches (c : Ctx) (b : Br) (cur target : BitVec 32) (code : List (BitVec 8)) (hv : Valid c b)
    (hc : cur.toNat < 2 ^ 31 - 64) (ht : target.toNat < 2 ^ 31) (hd : 0 ≤ dest b target ∧ dest b target < 2 ^ 31)
    (h : assemble c b cur target = .ok code) (e : Env) :
    exec c.ofs e 2 code cur.toNat =
      some (if wants c.ofs e b.kind then wrapIp (destWidth c b) (dest b target) else wrapIp c.ofs.width (cur.toNat + code.length)) := by
  unfold assemble at h
  have hadr := adr_eq c b hv
  obtain ⟨A, hA, hA'⟩ := addrCalc c b cur target hc ht hd
  have hAlo : -(2 ^ 31 : Int) + 16 ≤ A.toInt := by
    rw [hA]; cases adrByte c b.kind <;> cases b.bnd <;> simp [b2i] <;> omega
  have hip : ipWidth c.ofs {} = c.ofs.width := ipWidth_plain _ _ _
  unfold processBranch at h
  simp only [hA'] at h
  split at h
  · -- short form
    rename_i hs
    simp only [Bool.and_eq_true, Bool.not_eq_true'] at hs
    obtain ⟨hcode, -⟩ := emit_ok _ _ _ _ h
    simp only [List.nil_append, hadr] at hcode
    rw [hcode, single c.ofs e 1 b.bnd _ false b.kind .i8 A cur.toNat (dest b target) (destWidth c b)]
    · rw [taken_opOf c b hv, hip]
    · intro hk; rw [hk] at hs; simp [Kind.isCall] at hs
    · intro _; rfl
    · simp
    · rw [hA, List.length_append, List.length_append, opcode_len]
      have := pfx_len b.bnd (adrByte c b.kind) false
      simp [dispLen, dispSize, this, b2i] 
      omega
    · intro _; exact hs.2
    · rw [ipWidth_plain]; unfold destWidth
      cases hdd : b.dist with
      | near o => rw [hdd] at hs; simp [Dist.isNear] at hs
      | _ => rfl
  · split at h
    · split at h <;> simp [bind, Except.bind] at h
    · rename_i hs hx
      obtain ⟨n1, n2, n3, n4, n5⟩ := nearForm_spec c b hv A hAlo (adrByte c b.kind)
      generalize nearForm c b A = r at *
      obtain ⟨t, a, p⟩ := r
      simp only at n1 n2 n3 n4 n5 h
      have hxk : b.kind.isXcx = false := by
        cases hb : b.kind.isXcx
        · rfl
        · exact absurd (Or.inr hb) hx
      have ha0 : adrByte c b.kind = false := by
        cases hk : b.kind <;> simp_all [adrByte, Kind.isXcx]
      have hgen : ∀ code, emit c b ⟨[], b.kind, t, a, p⟩ = .ok code → 
          exec c.ofs e 2 code cur.toNat =
          some (if wants c.ofs e b.kind then wrapIp (destWidth c b) (dest b target) else wrapIp c.ofs.width (cur.toNat + code.length)) := by
        intro code h
        obtain ⟨hcode, -⟩ := emit_ok _ _ _ _ h
        simp only [List.nil_append, hadr] at hcode
        rw [hcode, single c.ofs e 1 b.bnd _ p b.kind t a cur.toNat (dest b target) (destWidth c b)]
        · rw [taken_opOf c b hv, hip]
        · intro _; exact n1
        · rw [hxk]; simp
        · intro _; exact n2
        · rw [n4, hA, List.length_append, List.length_append, opcode_len]
          have := pfx_len b.bnd (adrByte c b.kind) p
          rw [ha0] at this ⊢
          simp only [dispLen, Int.natCast_add, this]
          cases b.kind.isJcc <;> simp [b2i, n1] <;> omega
        · intro ht; exact absurd ht n1
        · exact n3
      cases hk : b.kind with
      | jcc cc =>
        rw [hk] at h hgen
        simp only at h
        split at h
        · exact hgen code h
        · rename_i hcpu
          split at h
          · rename_i hlj
            simp only [Bool.and_eq_true, Bool.not_eq_true'] at hlj
            have h16 := (hv.1 (by simpa using hcpu)).1
            have hbnd := (hv.1 (by simpa using hcpu)).2
            have hp := n5 hlj.1
            subst hp
            obtain ⟨hcode, -⟩ := emit_ok _ _ _ _ h
            simp only [adrByteOut, hbnd] at hcode
            simp only [pfxBytes, Bool.false_eq_true, if_false, List.nil_append, jumpExtend, h16, ne_eq, not_true_eq_false, jccShort_inv] at hcode
            have ht16 : t = .i16 := by
              rw [h16] at n2; cases t <;> simp_all [dispSize, nearSize, ipWidth]
            subst ht16
            have hcl : code.length = 5 := by rw [hcode]; rfl
            have hd1 : decode c.ofs {} code = some ⟨.jcc (cc ^^^ 1#4), 2, 3, 16⟩ := by
              rw [hcode, h16]
              simp only [List.cons_append, List.nil_append]
              rw [dec_jcc_short]; rfl
            rw [exec, hd1]
            simp only [Env.taken, cc_inv, wants]
            rcases Bool.eq_false_or_eq_true (e.cc cc) with hcc | hcc <;> simp only [hcc]
            rotate_left
            · 
              simp only [Bool.not_false, if_true, Bool.false_eq_true, if_false, h16, Ofs.width, hcl]
              congr 2
            · simp only [Bool.not_true, Bool.false_eq_true, if_false, if_true]
              rw [if_neg (by omega)]
              have hdrop : code.drop 2 = pfxBytes false false false ++ (opcode .jmp .i16 ++ dispBytes .i16 (a - 1)) := by rw [hcode]; rfl
              rw [hdrop, single c.ofs e 0 false false false .jmp .i16 (a - 1) _ (dest b target) (destWidth c b)]
              · simp [Env.taken, opOf]
              · simp
              · simp [Kind.isXcx]
              · intro _; rw [n2]; rfl
              · rw [subK a 1 (by omega) ?_ _ (by rfl), n4, hA, ha0, hbnd, hk]
                · simp [b2i, Kind.isJcc, opcode, dispLen, dispSize, pfxBytes]; omega
                · rw [n4, hA, ha0, hbnd, hk]; simp [b2i, Kind.isJcc, dispSize]; omega
              · simp
              · rw [← n3]; rfl
          · simp [bind, Except.bind] at h
      | _ => rw [hk] at h hgen; exact hgen code h


/-- Length of the short form: opcode, displacement byte, 67h if the counter register needs it, BND. -/
def shortLen (c : Ctx) (b : Br) : Nat :=
  2 + (match b.kind with
    | .xcx _ .a16 => if c.ofs.width = 16 then 0 else 1
    | .xcx _ .a32 => if c.ofs.width = 32 then 0 else 1
    | _ => 0) + (if b.bnd then 1 else 0)

/-- Does the operand lie within -128 .. 127 of the end of the short form? -/
def fits (c : Ctx) (b : Br) (cur target : BitVec 32) : Prop :=
  -128 ≤ dest b target - (cur.toNat + shortLen c b) ∧ dest b target - (cur.toNat + shortLen c b) ≤ 127

theorem shortLen_eq (c : Ctx) (b : Br) : (shortLen c b : Int) = 2 + b2i (adrByte c b.kind) + b2i b.bnd := by
  unfold shortLen adrByte
  cases b.bnd <;> cases b.kind with
  | xcx x a => cases a <;> cases c.ofs <;> rfl
  | _ => rfl

theorem fits_iff (c : Ctx) (b : Br) (cur target A : BitVec 32)
    (hA : A.toInt = dest b target - cur.toNat - 2 - (b2i (adrByte c b.kind) + b2i b.bnd)) :
    ((-128#32).sle A && A.sle 127#32) = true ↔ fits c b cur target := by
  unfold fits
  rw [shortLen_eq]
  simp only [BitVec.sle, Bool.and_eq_true, decide_eq_true_eq, hA]
  rw [show (-128#32).toInt = -128 by decide, show (127#32).toInt = 127 by decide]
  omega

/-- **C17** For branches other than CALL and without a NEAR coercion, the short form is used exactly if it reaches. -/
theorem C17_short_iff_fits (c : Ctx) (b : Br) (cur target : BitVec 32) (code : List (BitVec 8)) (hv : Valid c b)
    (hc : cur.toNat < 2 ^ 31 - 64) (ht : target.toNat < 2 ^ 31) (hd : 0 ≤ dest b target ∧ dest b target < 2 ^ 31)
    (hk : b.kind ≠ .call) (hn : ∀ o, b.dist ≠ .near o) (h : assemble c b cur target = .ok code) :
    (code.length = shortLen c b ↔ fits c b cur target) ∧ (¬ fits c b cur target → shortLen c b < code.length) := by
  unfold assemble at h
  have hadr := adr_eq c b hv
  have hcl : b.kind.isCall = false := by cases hkk : b.kind <;> simp_all [Kind.isCall]
  have hnr : b.dist.isNear = false := by cases hkk : b.dist <;> simp_all [Dist.isNear]
  obtain ⟨A, hA, hA'⟩ := addrCalc c b cur target hc ht hd
  have hAlo : -(2 ^ 31 : Int) + 16 ≤ A.toInt := by
    rw [hA]; cases adrByte c b.kind <;> cases b.bnd <;> simp [b2i] <;> omega
  have hf := fits_iff c b cur target A hA
  unfold processBranch at h
  simp only [hA'] at h
  have hsl := shortLen_eq c b
  split at h
  · rename_i hs
    simp only [hcl, hnr, Bool.not_false, Bool.true_and] at hs
    obtain ⟨hcode, -⟩ := emit_ok _ _ _ _ h
    simp only [List.nil_append, hadr] at hcode
    have hlen : code.length = shortLen c b := by
      rw [hcode, List.length_append, List.length_append, opcode_len]
      have := pfx_len b.bnd (adrByte c b.kind) false
      simp [dispLen, dispSize, b2i] at this ⊢
      simp only [b2i] at hsl
      omega
    simp only [hlen, true_iff]
    exact ⟨hf.mp hs, fun hn => absurd (hf.mp hs) hn⟩
  · rename_i hs
    simp only [hcl, hnr, Bool.not_false, Bool.true_and] at hs
    have hnf : ¬ fits c b cur target := fun h => hs (hf.mpr h)
    suffices shortLen c b < code.length by
      refine ⟨⟨fun h => ?_, fun h => absurd h hnf⟩, fun _ => this⟩
      omega
    split at h
    · split at h <;> simp [bind, Except.bind] at h
    · rename_i hx
      obtain ⟨n1, n2, n3, n4, n5⟩ := nearForm_spec c b hv A hAlo (adrByte c b.kind)
      generalize nearForm c b A = r at *
      obtain ⟨t, a, p⟩ := r
      simp only at n1 n2 n3 n4 n5 h
      have hxk : b.kind.isXcx = false := by
        cases hb : b.kind.isXcx
        · rfl
        · exact absurd (Or.inr hb) hx
      have ha0 : adrByte c b.kind = false := by
        cases hk : b.kind <;> simp_all [adrByte, Kind.isXcx]
      have hds : 2 ≤ dispSize t := (by intro t; cases t <;> simp [dispSize] : ∀ t, t ≠ .i8 → 2 ≤ dispSize t) t n1
      have hop : 1 ≤ (opcode b.kind t).length := by rw [opcode_len]; split <;> omega
      have hgen : ∀ code, emit c b ⟨[], b.kind, t, a, p⟩ = .ok code → shortLen c b < code.length := by
        intro code h
        obtain ⟨hcode, -⟩ := emit_ok _ _ _ _ h
        simp only [List.nil_append, hadr, ha0] at hcode
        rw [hcode, List.length_append, List.length_append, dispLen]
        have := pfx_len b.bnd false p
        rw [ha0] at hsl
        cases p <;> simp only [b2i] at this hsl <;> simp at this hsl <;> omega
      cases hk : b.kind with
      | jcc cc =>
        rw [hk] at h hgen
        simp only at h
        split at h
        · exact hgen code h
        · rename_i hcpu
          split at h
          · have hbnd := (hv.1 (by simpa using hcpu)).2
            obtain ⟨hcode, -⟩ := emit_ok _ _ _ _ h
            rw [hcode, ]
            simp only [List.length_append, dispLen]
            have : (jumpExtend c cc).length = 2 := rfl
            rw [ha0, hbnd] at hsl
            simp [b2i] at hsl
            omega
          · simp [bind, Except.bind] at h
      | _ => rw [hk] at h hgen; exact hgen code h

/-- **C17** SHORT, and the counter instructions: a target out of reach is an error, never a wrong byte. -/
theorem C17_out_of_reach (c : Ctx) (b : Br) (cur target : BitVec 32)
    (hc : cur.toNat < 2 ^ 31 - 64) (ht : target.toNat < 2 ^ 31) (hd : 0 ≤ dest b target ∧ dest b target < 2 ^ 31)
    (hs : b.dist = .short ∨ ∃ x a, b.kind = .xcx x a) (hf : ¬ fits c b cur target) :
    ∃ er, assemble c b cur target = .error er := by
  obtain ⟨A, hA, hA'⟩ := addrCalc c b cur target hc ht hd
  have hff := fits_iff c b cur target A hA
  unfold assemble processBranch
  simp only [hA']
  rw [if_neg, if_pos]
  · split <;> exact ⟨_, rfl⟩
  · rcases hs with hs | ⟨x, a, hs⟩
    · exact Or.inl hs
    · rw [hs]; exact Or.inr rfl
  · intro h
    simp only [Bool.and_eq_true] at h hff
    exact hf (hff.mp h.2)

/-- **C17** On a 386 or later, JMP, Jcc and CALL without SHORT always assemble: some form reaches every label; and before the 386
with OPTION LJMP as well, if no NEAR coercion is written. -/
theorem C17_always_assembles (c : Ctx) (b : Br) (cur target : BitVec 32)
    (hk : ∀ x a, b.kind ≠ .xcx x a) (hs : b.dist ≠ .short) (hcpu : c.cpu386 = true ∨ (c.ljmp = true ∧ ∀ o, b.dist ≠ .near o)) :
    ∃ code, assemble c b cur target = .ok code := by
  have hxk : b.kind.isXcx = false := by cases hh : b.kind <;> simp_all [Kind.isXcx]
  have em : ∀ o : Out, o.kind.isXcx = false → (c.cpu386 = true ∨ o.opsiz = false) → ∃ code, emit c b o = .ok code := by
    intro o h1 h2
    unfold emit
    rw [if_neg (by simp [h1]), if_neg]
    · exact ⟨_, rfl⟩
    · rcases h2 with h2 | h2 <;> simp [h2]
  have hp : ∀ A, c.cpu386 = true ∨ (nearForm c b A).2.2 = false := by
    intro A
    rcases hcpu with h | ⟨_, h⟩
    · exact Or.inl h
    · right
      unfold nearForm
      cases hdd : b.dist with
      | near o => exact absurd hdd (h o)
      | _ => simp only; split <;> rfl
  obtain ⟨A, hA'⟩ : ∃ A : BitVec 32, (let addr := target - (cur + 2) + b.addend
       let addr := if adrByte c b.kind then addr - 1 else addr
       if b.bnd then addr - 1 else addr) = A := ⟨_, rfl⟩
  unfold assemble processBranch
  simp only [hA']
  split
  · exact em ⟨[], b.kind, .i8, A, false⟩ hxk (Or.inr rfl)
  · rw [if_neg (by simp [hs, hxk])]
    have := hp A
    generalize nearForm c b A = r at *
    obtain ⟨t, a, p⟩ := r
    simp only at this ⊢
    cases hk' : b.kind with
    | jcc cc =>
      simp only
      split
      · exact em ⟨[], .jcc cc, t, a, p⟩ rfl this
      · rename_i h3
        rcases hcpu with h | ⟨h1, h2⟩
        · exact absurd h h3
        · rw [if_pos]
          · exact em ⟨jumpExtend c cc, .jmp, t, a - 1, p⟩ rfl this
          · rw [h1]; cases hdd : b.dist <;> simp_all [Dist.isNear]
    | xcx x a => exact absurd hk' (hk x a)
    | jmp => exact em ⟨[], .jmp, t, a, p⟩ rfl this
    | call => exact em ⟨[], .call, t, a, p⟩ rfl this

/-! Concrete cases meeting the hypotheses. -/

/-- `jz label` at 100h with the label at 1000h, 32-bit: near form. -/
example : assemble ⟨.use32, true, true⟩ ⟨.jcc 4, .none, false, 0⟩ 0x100 0x1000 = .ok [0x0F, 0x84, 0xFA, 0x0E, 0, 0] := by rfl
example : Valid ⟨.use32, true, true⟩ ⟨.jcc 4, .none, false, 0⟩ := by simp [Valid]
/-- 8086: `jz label` far away becomes `jnz $+5; jmp label`. -/
example : assemble ⟨.use16, false, true⟩ ⟨.jcc 4, .none, false, 0⟩ 0x100 0x1000 = .ok [0x75, 3, 0xE9, 0xFB, 0x0E] := by rfl
/-- `jcxz label` in 32-bit code, backwards by 100. -/
example : assemble ⟨.use32, true, true⟩ ⟨.xcx .cxz .a16, .none, false, 0⟩ 200 100 = .ok [0x67, 0xE3, 0x99] := by rfl
/-- `bnd jmp near16 ptr label-3` with all prefixes. -/
example : assemble ⟨.use32, true, true⟩ ⟨.jmp, .near (some .use16), true, -3⟩ 0 0x103 = .ok [0xF2, 0x66, 0xE9, 0xFB, 0] := by rfl
example : fits ⟨.use32, true, true⟩ ⟨.xcx .cxz .a16, .none, false, 0⟩ 200 100 := by unfold fits; decide
example : ¬ fits ⟨.use32, true, true⟩ ⟨.jcc 4, .short, false, 0⟩ 0x100 0x1000 := by unfold fits; decide

end Verif.Branch
