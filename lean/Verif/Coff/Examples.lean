import Verif.Coff.Props
/-! Concrete modules: the hypotheses are met, and what happens without them. -/
namespace Verif.Coff.Example

def opt0 : Opt := ⟨false, false, false, false⟩

def sec (name : String) (size : Nat) (fix : List Fix) : Sec :=
  ⟨ascii name, size, 0, some (fun j => BitVec.ofNat 8 (j + 1)), false, false, some 4, 0, 0, true, false, false, false, false,
   false, 0, false, fix⟩

def sym (name : String) (st : SymState) (pub proc : Bool) (ofs : Nat) (sn : Option Nat) : Sym :=
  ⟨ascii name, st, pub, false, proc, true, ofs, 0, sn, false, false, none⟩

/-- Symbols: 0 an external with a long name, 1 a public procedure, 2 a private label, 3 the second section, 4 an alias. -/
def env : Nat → Sym
  | 0 => sym "_external_function" .external false true 0 none
  | 1 => sym "_main" .internal true true 4 (some 1)
  | 2 => sym "private_label" .internal false false 2 (some 2)
  | 3 => sym ".text$second" (.seg 1) false false 0 none
  | 4 => sym "_alias" .other false false 0 none
  | _ => sym "x" .internal false false 0 none

def fx (t : FixType) (l : Nat) (s : Option Nat) : Fix := ⟨t, l, 4, s, 0⟩

def m : Mod :=
  ⟨opt0, ascii "example_source.asm", [sec ".text" 17 [fx .relOff32 1 (some 0), fx .off32 5 (some 2), fx .off32 9 (some 3)],
     sec ".text$second" 6 [fx .relOff32 1 (some 1), fx .off32 0 (some 2)]],
   [0], [1], [1], [(4, some 1)], env, fun _ => false, 0, false, [1, 2, 3, 4, 5, 6, 7, 8]⟩

theorem nameOk_iff (n : List Byte) : NameOk n ↔ (!n.isEmpty && !n.contains 0) = true := by
  simp [NameOk, List.isEmpty_iff]

theorem env_names (id : Nat) : NameOk (env id).name := by
  match id with
  | 0 | 1 | 2 | 3 | 4 => all_goals (rw [nameOk_iff]; decide)
  | n + 5 => show NameOk (ascii "x"); rw [nameOk_iff]; decide

theorem m_ok : ModOk m where
  secs := by
    intro s hs
    simp only [m, List.mem_cons, List.not_mem_nil, or_false] at hs
    rcases hs with rfl | rfl
    · exact ⟨by rw [nameOk_iff]; decide, by decide, by decide, by decide, by
        intro f hf
        simp only [sec, List.mem_cons, List.not_mem_nil, or_false] at hf
        rcases hf with rfl | rfl | rfl
        · exact fun _ => ⟨0x14, rfl, by decide⟩
        · exact fun _ => ⟨6, rfl, by decide⟩
        · exact fun _ => ⟨6, rfl, by decide⟩, by decide, by intro a h; cases h; decide⟩
    · exact ⟨by rw [nameOk_iff]; decide, by decide, by decide, by decide, by
        intro f hf
        simp only [sec, List.mem_cons, List.not_mem_nil, or_false] at hf
        rcases hf with rfl | rfl
        · exact fun _ => ⟨0x14, rfl, by decide⟩
        · exact fun _ => ⟨6, rfl, by decide⟩, by decide, by intro a h; cases h; decide⟩
  nsecs := by decide
  noAuxComdat := by intro h; cases h
  names := env_names
  targets := by
    intro s hs
    simp only [m, List.mem_cons, List.not_mem_nil, or_false] at hs
    rcases hs with rfl | rfl
    · intro f hf id h
      simp only [sec, List.mem_cons, List.not_mem_nil, or_false] at hf
      rcases hf with rfl | rfl | rfl <;> cases h
      · exact ⟨by simp [m], rfl⟩
      · intro h; rcases h with h | h <;> cases h
      · show 1 < 2; omega
    · intro f hf id h
      simp only [sec, List.mem_cons, List.not_mem_nil, or_false] at hf
      rcases hf with rfl | rfl <;> cases h
      · intro _; simp [m]
      · intro h; rcases h with h | h <;> cases h
  pubNodup := by decide
  extNodup := by decide
  pubMarked := by intro id h; simp [m] at h; subst h; left; rfl
  extState := by intro id h; simp [m] at h; subst h; exact ⟨rfl, by simp [m]⟩
  file := by decide
  junk := rfl
  small := by decide +kernel

/-- The relocations of both sections, as read from the file: the private label was added behind the public. -/
theorem read_relocs : relocs (writeModule m).1 0 = [(1, 6, 0x14), (5, 8, 6), (9, 4, 6)] ∧
    relocs (writeModule m).1 1 = [(1, 7, 0x14), (0, 8, 6)] := by decide +kernel

theorem read_names : (symbols (writeModule m).1).map (fun x => (x.1, x.2.name)) =
    [(0, ascii ".file"), (2, ascii ".text"), (4, ascii ".text$second"), (6, ascii "_external_function"), (7, ascii "_main"),
     (8, ascii "private_label"), (9, ascii "_alias")] := by decide +kernel

theorem read_secs : secName (writeModule m).1 1 = ascii ".text$second" ∧
    slice (writeModule m).1 (secRawPtr (writeModule m).1 1) 6 = [1, 2, 3, 4, 5, 6] := by decide +kernel

/-! ## Findings -/

/-- With -zls (no section aux entries) a COMDAT section still gets an auxiliary record, which neither the aux count nor the
index computation knows of: the relocation's index is then that of another entry. -/
def zls : Mod := { m with opt := ⟨false, true, true, false⟩, secs := [{ sec ".text" 4 [fx .off32 0 (some 1)] with comdat := 2 }] }

theorem C41_zls_comdat_counterexample : relocs (writeModule zls).1 0 = [(0, 2, 6)] ∧
    ((symbols (writeModule zls).1).lookup 2).map (·.name) = some (ascii "_external_function") ∧
    (symbols (writeModule zls).1).length = 5 ∧ (expected zls [1]).length = 4 := by decide +kernel

/-- A BSS segment that is READONLY (or of class CONST): the section table reserves space for its contents but no contents are
written, so everything behind it is displaced. -/
def bss : Mod := { m with secs := [{ sec "bss" 4 [] with code := false, readonly := true, segBss := true }, sec ".text" 4 []] }

theorem C42_readonly_bss_counterexample :
    secRawPtr (writeModule bss).1 0 = 100 ∧ secRawPtr (writeModule bss).1 1 = 104 ∧
    slice (writeModule bss).1 100 4 = [1, 2, 3, 4] ∧ symPtr (writeModule bss).1 = 104 := by decide +kernel

/-- A section name of up to 8 characters that begins with '/' is taken for a string table reference. -/
def slash : Mod := { m with secs := [sec "/4" 4 []] }

theorem C26_slash_counterexample : secName (writeModule slash).1 0 ≠ ascii "/4" := by decide +kernel

end Verif.Coff.Example
