/-! # A small machine for prologues, epilogues and unwinding (specification side)

Addresses and register contents are integers (no wrap-around at the end of the address space); memory is an array of bytes.
Nothing here is taken from the assembler: it is the meaning of the few instructions a prologue or epilogue is made of. -/
namespace Verif.Frame

/-- General registers by number (`rsp` has its own field), vector registers by number (their whole contents as a number). -/
structure M where
  gpr : Nat → Int
  vec : Nat → Int
  sp : Int
  mem : Int → Int

/-- `size` bytes of `v`, little endian, at address `a`. -/
def store (mem : Int → Int) (a : Int) : Nat → Int → Int → Int
  | 0, _ => mem
  | n + 1, v => fun x => if x = a then v % 256 else store mem (a + 1) n (v / 256) x

/-- The number in the `size` bytes at address `a`. -/
def load (mem : Int → Int) (a : Int) : Nat → Int
  | 0 => 0
  | n + 1 => mem a % 256 + 256 * load mem (a + 1) n

/-- Instructions. `ws` (of `exec`) is the size of a stack slot. -/
inductive Ins
  | push (r : Nat)
  | pop (r : Nat)
  /-- `sub sp, n`, `add sp, -n`, `lea sp, [sp-n]` -/
  | sub (n : Int)
  /-- `lea r, [sp+d]` or `mov r, sp` -/
  | lea (r : Nat) (d : Int)
  /-- `lea sp, [r+d]` or `mov sp, r` -/
  | spFrom (r : Nat) (d : Int)
  /-- `mov [sp+d], r`, `size` bytes of r -/
  | put (r : Nat) (d : Int) (size : Nat)
  /-- `mov r, [sp+d]` -/
  | get (r : Nat) (d : Int)
  /-- vector register, `size` bytes, to [sp+d] -/
  | vput (r : Nat) (d : Int) (size : Nat)
  /-- vector register from [base+d], base = sp if `none` -/
  | vget (r : Nat) (base : Option Nat) (d : Int) (size : Nat)
  deriving DecidableEq, Repr

def setG (f : Nat → Int) (r : Nat) (v : Int) : Nat → Int := fun x => if x = r then v else f x

def exec (ws : Nat) (m : M) : Ins → M
  | .push r => { m with sp := m.sp - ws, mem := store m.mem (m.sp - ws) ws (m.gpr r) }
  | .pop r => { m with sp := m.sp + ws, gpr := setG m.gpr r (load m.mem m.sp ws) }
  | .sub n => { m with sp := m.sp - n }
  | .lea r d => { m with gpr := setG m.gpr r (m.sp + d) }
  | .spFrom r d => { m with sp := m.gpr r + d }
  | .put r d size => { m with mem := store m.mem (m.sp + d) size (m.gpr r) }
  | .get r d => { m with gpr := setG m.gpr r (load m.mem (m.sp + d) ws) }
  | .vput r d size => { m with mem := store m.mem (m.sp + d) size (m.vec r) }
  | .vget r base d size =>
    { m with vec := setG m.vec r (load m.mem ((match base with | none => m.sp | some b => m.gpr b) + d) size) }

def run (ws : Nat) (m : M) (l : List Ins) : M := l.foldl (exec ws) m

/-- The address is written by an instruction. -/
def writes (ws : Nat) (m : M) (a : Int) : Ins → Prop
  | .push _ => m.sp - ws ≤ a ∧ a < m.sp
  | .put _ d size => m.sp + d ≤ a ∧ a < m.sp + d + size
  | .vput _ d size => m.sp + d ≤ a ∧ a < m.sp + d + size
  | _ => False

/-- The address is written by a sequence of instructions. -/
def written (ws : Nat) (m : M) (a : Int) : List Ins → Prop
  | [] => False
  | i :: l => writes ws m a i ∨ written ws (exec ws m i) a l

/-- Registers of the machine fit their sizes: `ws` bytes, 64 bytes. -/
def fits (ws : Nat) (m : M) : Prop :=
  (∀ r, 0 ≤ m.gpr r ∧ m.gpr r < 256 ^ ws) ∧ ∀ r, 0 ≤ m.vec r ∧ m.vec r < 256 ^ 64

/-! ## Memory -/

theorem store_out (mem : Int → Int) (n : Nat) (a v x : Int) (h : x < a ∨ a + n ≤ x) : store mem a n v x = mem x := by
  induction n generalizing a v with
  | zero => rfl
  | succ n ih =>
    simp only [store]
    rw [if_neg (by omega)]
    exact ih _ _ (by omega)

theorem load_congr (mem mem' : Int → Int) (n : Nat) (a : Int) (h : ∀ x, a ≤ x → x < a + n → mem x = mem' x) :
    load mem a n = load mem' a n := by
  induction n generalizing a with
  | zero => rfl
  | succ n ih =>
    simp only [load]
    rw [h a (by omega) (by omega), ih (a + 1) (fun x h1 h2 => h x (by omega) (by omega))]

theorem load_store (mem : Int → Int) (n : Nat) (a v : Int) : load (store mem a n v) a n = v % 256 ^ n := by
  induction n generalizing a v mem with
  | zero => simp [load, Int.emod_one]
  | succ n ih =>
    simp only [load]
    have e1 : store mem a (n + 1) v a = v % 256 := by simp [store]
    have e2 : load (store mem a (n + 1) v) (a + 1) n = load (store mem (a + 1) n (v / 256)) (a + 1) n := by
      apply load_congr
      intro x h1 h2
      simp only [store]
      rw [if_neg (by omega)]
    rw [e1, e2, ih]
    have hp : (256 : Int) ^ (n + 1) = 256 * 256 ^ n := by rw [Int.pow_succ, Int.mul_comm]
    rw [hp, Int.emod_emod_of_dvd _ (by exact ⟨1, by omega⟩)]
    have hpos : (0 : Int) < 256 ^ n := Int.pow_pos (by omega)
    generalize hP : (256 : Int) ^ n = P at *
    have h1 := Int.emod_add_mul_ediv v 256
    have h2 := Int.emod_add_mul_ediv (v / 256) P
    have h3 : v = (v % 256 + 256 * (v / 256 % P)) + (256 * P) * (v / 256 / P) := by
      have : (256 * P) * (v / 256 / P) = 256 * (P * (v / 256 / P)) := Int.mul_assoc ..
      omega
    have h4 := Int.emod_nonneg v (show (256 : Int) ≠ 0 by omega)
    have h5 := Int.emod_lt_of_pos v (show (0 : Int) < 256 by omega)
    have h6 := Int.emod_nonneg (v / 256) (show P ≠ 0 by omega)
    have h7 := Int.emod_lt_of_pos (v / 256) hpos
    conv => rhs; rw [h3]
    rw [Int.add_mul_emod_self_left]
    exact (Int.emod_eq_of_lt (by omega) (by omega)).symm

theorem load_store_eq (mem : Int → Int) (n : Nat) (a v : Int) (h0 : 0 ≤ v) (h : v < 256 ^ n) :
    load (store mem a n v) a n = v := by
  rw [load_store, Int.emod_eq_of_lt h0 h]

end Verif.Frame
