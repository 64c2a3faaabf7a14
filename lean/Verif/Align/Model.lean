/-!
# Model of ALIGN / EVEN (`/repo/posndir.c`)
-/
namespace Verif.Align

abbrev Byte := BitVec 8

/-- Address sizes `USE16`, `USE32`, `USE64` (index into `NopLists`). -/
inductive Mode | use16 | use32 | use64
  deriving DecidableEq, Repr

/-- `NopList16`, `posndir.c` 48-55; the first entry is the size of the first pattern. -/
def nopList16 : List Byte := [3, 0x2E, 0x8b, 0xc0, 0x8b, 0xc0, 0x90]

/-- `NopList32`, `posndir.c` 62-76. -/
def nopList32 : List Byte :=
  [7, 0x8d, 0xa4, 0x24, 0, 0, 0, 0, 0x8d, 0x80, 0, 0, 0, 0, 0x2e, 0x8d, 0x44, 0x20, 0x00, 0x8d, 0x44, 0x20, 0x00,
   0x8d, 0x40, 0x00, 0x8b, 0xff, 0x90]

/-- `NopList64`, `posndir.c` 79-88. -/
def nopList64 : List Byte :=
  [7, 0x0f, 0x1f, 0x80, 0, 0, 0, 0, 0x66, 0x0f, 0x1f, 0x44, 0, 0, 0x0f, 0x1f, 0x44, 0, 0, 0x0f, 0x1f, 0x40, 0,
   0x0f, 0x1f, 0, 0x66, 0x90, 0x90]

/-- `NopLists`, `posndir.c` 91. -/
def nopLists : Mode → List Byte
  | .use16 => nopList16
  | .use32 => nopList32
  | .use64 => nopList64

/-- `NopLists[Ofssize][0]`. -/
def nopMax (m : Mode) : Nat := ((nopLists m).headD 0).toNat

/-- `while( size > NopLists[..][0] )`, `posndir.c` 165-170: emit the first pattern and subtract its size. `fuel` bounds the
loop (`size` suffices). Result: bytes, remaining size. -/
def bigNops (m : Mode) : Nat → Nat → List Byte × Nat
  | 0, size => ([], size)
  | fuel + 1, size =>
    if size > nopMax m then
      let (bs, r) := bigNops m fuel (size - nopMax m)
      ((List.range (nopMax m)).map (fun i => (nopLists m).getD (i + 1) 0) ++ bs, r)
    else ([], size)

/-- `for( nop_type = N[0]; nop_type > size; nop_type-- ) i += nop_type;`, `posndir.c` 173-176. -/
def findNop (size : Nat) : Nat → Nat → Nat × Nat
  | 0, i => (0, i)
  | n + 1, i => if n + 1 > size then findNop size n (i + (n + 1)) else (n + 1, i)

/-- Code branch of `fill_in_objfile_space`, `posndir.c` 162-181. -/
def fillCode (m : Mode) (size : Nat) : List Byte :=
  let (bs, r) := bigNops m size size
  if r = 0 then bs
  else
    let (n, i) := findNop r (nopMax m) 1
    bs ++ (List.range n).map fun k => (nopLists m).getD (i + k) 0

/-- What happens to the segment: bytes are output (initialised), or the location counter is moved without output. -/
inductive Fill | bytes (bs : List Byte) | skip (n : Nat)
  deriving DecidableEq, Repr

/-- `fill_in_objfile_space`, `posndir.c` 139-183. -/
def fill (written code : Bool) (m : Mode) (size : Nat) : Fill :=
  if !written then .skip size
  else if !code then .bytes (List.replicate size 0#8)
  else .bytes (fillCode m size)

def Fill.size : Fill → Nat
  | .bytes bs => bs.length
  | .skip n => n

/-- `for( power = 1; power < align_value; power <<= 1 );`, `posndir.c` 218, on 32-bit signed integers (shifting out of the
sign bit as all supported compilers do it). `none`: still running after `fuel` steps. -/
def powerLoop (v : BitVec 32) : Nat → BitVec 32 → Option (BitVec 32)
  | 0, _ => none
  | fuel + 1, p => if p.slt v then powerLoop v fuel (p <<< 1) else some p

inductive Res
  | ok (fill : Fill)
  | powerOf2 (v : Int)     -- error POWER_OF_2
  | looping                -- the loop has not ended within the given number of steps
  deriving DecidableEq, Repr

/-- `AlignDirective` with a constant argument inside a segment, `posndir.c` 200-276, `addr` = current offset.
Not modelled: the warning ALIGN_TOO_HIGH, the listing line. -/
def align (fuel : Nat) (written code : Bool) (m : Mode) (addr v : BitVec 32) : Res :=
  match powerLoop v fuel 1#32 with
  | none => .looping
  | some p =>
    if p ≠ v then .powerOf2 v.toInt
    else
      let r := addr % v
      .ok (if r ≠ 0#32 then fill written code m (v - r).toNat else .skip 0)

/-- `EVEN`: `align_value = 2` without the check. -/
def even (written code : Bool) (m : Mode) (addr : BitVec 32) : Fill :=
  let r := addr % 2#32
  if r ≠ 0#32 then fill written code m (2#32 - r).toNat else .skip 0

/-- `AlignCurrOffset`, `posndir.c` 187-200: `alignment` is `1 << value`. -/
def alignCurrOffset (written code : Bool) (m : Mode) (addr : BitVec 32) (value : Nat) : Fill :=
  let a := 1#32 <<< value
  let r := addr % a
  if r ≠ 0#32 then fill written code m (a - r).toNat else .skip 0

end Verif.Align
