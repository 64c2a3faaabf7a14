import Verif.Elf.Props
/-! Concrete modules: the hypotheses are met in both classes, and what happens without them. -/
namespace Verif.Elf.Example
open Coff (Byte ascii)

def sec (name : String) (size start : Nat) (t : SegType) (fix : List Fix) : Sec :=
  ⟨ascii name, none, size, start, fun j => BitVec.ofNat 8 (j + 1), false, t, false, false, some 4, fix⟩

def sym (name : String) (st : SymState) (pub : Bool) (ofs : Nat) (sg : Option Nat) : Sym :=
  ⟨ascii name, st, pub, false, ofs, 0, sg, false, false, false⟩

/-- Symbols: 0 an external, 1 a public procedure, 2 a private label, 3 the data section, 4 a communal, 5 an assembly-time variable,
6 an unused externdef. -/
def env : Nat → Sym
  | 0 => sym "external_function" .external false 0 none
  | 1 => sym "main" .internal true 4 (some 0)
  | 2 => sym "private_label" .internal false 2 (some 1)
  | 3 => sym "_DATA" (.seg 1) false 0 none
  | 4 => ⟨ascii "common", .external, false, false, 0, 64, none, true, false, false⟩
  | 5 => ⟨ascii "var", .internal, false, true, 7, 0, some 1, false, false, false⟩
  | 6 => ⟨ascii "unused", .external, false, false, 0, 0, none, false, true, false⟩
  | _ => sym "x" .internal false 0 none

def fx (t : FixType) (l s : Nat) : Fix := ⟨t, l, 4, some s, 1⟩

def m (b : Bool) : Mod :=
  ⟨b, 0, ascii "example.asm",
   [sec "_TEXT" 33 0 .code [fx .relOff32 1 0, fx .off32 5 2, fx .off32 9 3, fx .off32 13 2, fx .relOff32 17 1, fx .off32 21 5],
    sec "_DATA$x" 10 3 .other [fx .off32 4 4], sec "_BSS" 100 0 .bss [], sec "CONST" 5 0 .other []],
   [0, 4, 6], [1], env, fun _ => false⟩

theorem secs_all {P : Sec → Prop} (b : Bool) (h1 : P ((m b).secs[0]'(by cases b <;> decide))) (h2 : P ((m b).secs[1]'(by cases b <;> decide)))
    (h3 : P ((m b).secs[2]'(by cases b <;> decide))) (h4 : P ((m b).secs[3]'(by cases b <;> decide))) : ∀ s ∈ (m b).secs, P s := by
  intro s hs
  simp only [m, List.mem_cons, List.not_mem_nil, or_false] at hs
  rcases hs with rfl | rfl | rfl | rfl <;> assumption

theorem env_names (id : Nat) : (0 : Byte) ∉ (env id).name := by
  match id with
  | 0 | 1 | 2 | 3 | 4 | 5 | 6 => all_goals decide
  | n + 7 => show (0 : Byte) ∉ ascii "x"; decide

theorem env_seg (id i : Nat) (h : (env id).seg = some i) : i < 4 := by
  match id with
  | 0 | 1 | 2 | 3 | 4 | 5 | 6 => all_goals (simp [env, sym] at h; try omega)
  | n + 7 => simp [env, sym] at h

theorem m_ok (b : Bool) : ModOk (m b) where
  src := by cases b <;> decide
  secNames := by
    refine secs_all b ?_ ?_ ?_ ?_ <;> exact ⟨by cases b <;> decide, fun a h => by cases h⟩
  names := env_names
  start := by cases b <;> decide
  sizes := by cases b <;> decide
  aligns := by refine secs_all b ?_ ?_ ?_ ?_ <;> (intro a h; cases h; decide)
  seg := env_seg
  nsecs := by cases b <;> decide
  fixSym := by
    intro s hs f hf
    simp only [m, List.mem_cons, List.not_mem_nil, or_false] at hs
    rcases hs with rfl | rfl | rfl | rfl
    · simp only [sec, List.mem_cons, List.not_mem_nil, or_false] at hf
      rcases hf with rfl | rfl | rfl | rfl | rfl | rfl
      · exact ⟨0, rfl, by exact ⟨by simp [m], rfl⟩⟩
      · exact ⟨2, rfl, rfl⟩
      · exact ⟨3, rfl, show 1 < 4 by omega⟩
      · exact ⟨2, rfl, rfl⟩
      · exact ⟨1, rfl, show 1 ∈ [1] by simp⟩
      · exact ⟨5, rfl, show 1 < 4 by omega⟩
    · simp only [sec, List.mem_cons, List.not_mem_nil, or_false] at hf
      rcases hf with rfl
      exact ⟨4, rfl, by exact ⟨by simp [m], rfl⟩⟩
    · simp [sec] at hf
    · simp [sec] at hf
  fixType := by cases b <;> decide
  fixLoc := by cases b <;> decide
  pubNodup := by cases b <;> decide
  extNodup := by cases b <;> decide
  pubMarked := by intro id h; simp [m] at h; subst h; rfl
  extState := by
    intro id h
    simp only [m, List.mem_cons, List.not_mem_nil, or_false] at h
    rcases h with rfl | rfl | rfl <;> exact ⟨rfl, by cases b <;> decide⟩
  small := by
    intro F h
    have : ((writeModule (m b)).map List.length).getD 0 < 2 ^ 32 := by cases b <;> decide +kernel
    rw [h] at this; exact this
  nsyms := by intro _; cases b <;> decide

/-- The symbol table as read back: null, file, 4 sections, 1 local, 2 externals, 1 public. -/
example : ((writeModule (m true)).map (fun F => (symbolsOf F 6).map (fun e => (e.bind, e.type, e.shndx, e.value)))) =
    some [(0, 0, 0, 0), (0, 4, 0xfff1, 0), (0, 3, 1, 0), (0, 3, 2, 0), (0, 3, 3, 0), (0, 3, 4, 0), (0, 1, 2, 2),
      (1, 0, 0, 0), (1, 5, 0xfff2, 64), (1, 2, 1, 4)] := by decide +kernel

/-- The relocations of .text. -/
example : ((writeModule (m true)).map (fun F => ((relocsOf F 8).map (fun r => (r.offset, r.sym, r.type))))) =
    some [(1, 7, 2), (5, 6, 10), (9, 3, 10), (13, 6, 10), (17, 9, 2), (21, 3, 10)] := by decide +kernel
example : ((writeModule (m false)).map (fun F => ((relocsOf F 8).map (fun r => (r.offset, r.sym, r.type))))) =
    some [(1, 7, 2), (5, 6, 1), (9, 3, 1), (13, 6, 1), (17, 9, 2), (21, 3, 1)] := by decide +kernel

/-- Names. -/
example : ((writeModule (m false)).map (fun F => (List.range 10).map (nameOf F))) =
    some [[], ascii ".text", ascii ".data$x", ascii ".bss", ascii ".rodata", ascii ".shstrtab", ascii ".symtab", ascii ".strtab",
      ascii ".rel.text", ascii ".rel.data$x"] := by decide +kernel

/-- A fixup without a symbol: no file (NULL dereference in set_symtab_values). -/
example : writeModule { m true with secs := [sec "_TEXT" 8 0 .code [⟨.off64, 0, 0, none, 0⟩]] } = none := by decide +kernel

/-- An unused externdef that a fixup refers to (not reachable: a reference clears `weak`) would get symbol index 0. -/
example : (writeModule { m true with secs := [sec "_TEXT" 8 0 .code [fx .off64 0 6]] }).map (fun F => (relocsOf F 5).map (·.sym)) =
    some [0] := by decide +kernel

end Verif.Elf.Example
