import Verif.Align.Model
/-!
# Specification: x86 instructions without effect

A small decoder written from the instruction set reference: it recognises one instruction at the front of a byte string
and accepts it only if it changes neither registers, flags nor memory.
-/
namespace Verif.Align

/-- Bytes of an effective address in 32/64-bit addressing after a ModRM byte with mod ≠ 3: (base register, has index, displacement bytes, rest). -/
def ea (modrm : Byte) (t : List Byte) : Option (Nat × Bool × List Byte × List Byte) :=
  let md := modrm.toNat / 64
  let rm := modrm.toNat % 8
  let disp (md : Nat) (base : Nat) (idx : Bool) (t : List Byte) : Option (Nat × Bool × List Byte × List Byte) :=
    let n := if md = 1 then 1 else if md = 2 then 4 else 0
    if n ≤ t.length then some (base, idx, t.take n, t.drop n) else none
  if md = 3 then none
  else if rm = 4 then
    match t with
    | sib :: t =>
      -- base 5 with mod 0 means disp32 without base: not accepted
      if md = 0 ∧ sib.toNat % 8 = 5 then none
      else disp md (sib.toNat % 8) (sib.toNat / 8 % 8 != 4) t
    | [] => none
  else if md = 0 ∧ rm = 5 then none
  else disp md rm false t

/-- One instruction without effect: returns the rest.
`nop` (90), `xchg ax,ax` (66 90), `mov r,r` (8B, register to itself; not in 64-bit mode, where it clears the upper half),
`lea r,[r+0]` (8D, 32-bit mode only), multi-byte nop (0F 1F /0, with or without 66). A CS prefix (2E) has no influence on them. -/
def eatNop (m : Mode) : List Byte → Option (List Byte)
  | 0x90#8 :: t => some t
  | 0x66#8 :: 0x90#8 :: t => if m = .use16 then none else some t
  | 0x66#8 :: 0x0f#8 :: 0x1f#8 :: mr :: t => if m = .use16 ∨ mr.toNat / 8 % 8 ≠ 0 then none else (ea mr t).map (·.2.2.2)
  | 0x0f#8 :: 0x1f#8 :: mr :: t => if m = .use16 ∨ mr.toNat / 8 % 8 ≠ 0 then none else (ea mr t).map (·.2.2.2)
  | 0x2e#8 :: 0x8b#8 :: mr :: t | 0x8b#8 :: mr :: t =>
    if m ≠ .use64 ∧ mr.toNat / 64 = 3 ∧ mr.toNat / 8 % 8 = mr.toNat % 8 then some t else none
  | 0x2e#8 :: 0x8d#8 :: mr :: t | 0x8d#8 :: mr :: t =>
    if m ≠ .use32 then none
    else match ea mr t with
      | some (base, false, d, r) => if base = mr.toNat / 8 % 8 ∧ d.all (· == 0) then some r else none
      | _ => none
  | _ => none

/-- The byte string is a sequence of complete instructions without effect. -/
inductive NopSeq (m : Mode) : List Byte → Prop
  | nil : NopSeq m []
  | cons {l r} : eatNop m l = some r → r.length < l.length → NopSeq m r → NopSeq m l

end Verif.Align
