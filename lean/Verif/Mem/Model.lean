/-!
# Model of the local heap (`/repo/memalloc.c`, FASTMEM, 64-bit host)
-/
namespace Verif.Mem

/-- `BLKSIZE`, `memalloc.c` 67. -/
def blkSize : Nat := 0x80000
/-- `sizeof( struct linked_list )` = `sizeof( void * )`. -/
def ptrSize : Nat := 8

/-- `pBase` list (address and size of the blocks obtained from the OS), `pCurr`, `currfree` (a `uint_32`), `memalloc.c` 79-84. -/
structure State where
  blocks : List (Nat × Nat)
  pCurr : Nat
  currfree : Nat
  deriving DecidableEq, Repr

/-- `MemInit`, `memalloc.c` 163-172. -/
def init : State := ⟨[], 0, 0⟩

/-- Rounding of the request, `memalloc.c` 198: `size_t` arithmetic. -/
def roundUp (size : BitVec 64) : BitVec 64 := (size + 7#64) &&& ~~~7#64

/-- Size of the block requested from the OS if the current one is too small, `memalloc.c` 201-202; the assignment to
`currfree` truncates to 32 bits. -/
def newFree (size : BitVec 64) : Nat :=
  (if size.toNat ≤ blkSize - ptrSize then blkSize - ptrSize else size.toNat) % 2 ^ 32

/-- `LclAlloc`, `memalloc.c` 192-216. `os` is the answer of the OS to a request (`none` = out of memory: `Fatal`).
Result: pointer and new state. -/
def lclAlloc (os : Nat → Option Nat) (s : State) (request : BitVec 64) : Option (Nat × State) :=
  let size := roundUp request
  if s.currfree < size.toNat then
    let cf := newFree size
    match os (cf + ptrSize) with
    | none => none
    | some base =>
      some (base + ptrSize, ⟨(base, cf + ptrSize) :: s.blocks, base + ptrSize + size.toNat, (cf + 2 ^ 32 - size.toNat % 2 ^ 32) % 2 ^ 32⟩)
  else some (s.pCurr, ⟨s.blocks, s.pCurr + size.toNat, s.currfree - size.toNat⟩)

/-- A history of requests; each step may see a different OS answer function. Returns the list of (pointer, requested size). -/
def runAll : State → List (BitVec 64 × (Nat → Option Nat)) → Option (List (Nat × Nat) × State)
  | s, [] => some ([], s)
  | s, (n, os) :: t => do
    let (p, s) ← lclAlloc os s n
    let (l, s) ← runAll s t
    pure ((p, n.toNat) :: l, s)

end Verif.Mem
