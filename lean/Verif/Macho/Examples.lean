import Verif.Macho.Props
/-! # Examples: a program with code, data, a local, a public and an external symbol -/
namespace Verif.Macho
open Coff (Byte ascii)

/-- `_TEXT`: lea rax,[val]; call _puts; ret - `_DATA`: two bytes. -/
def exMod : Mod :=
  ⟨true,
   [⟨ascii "_TEXT", 13, 0, 13, fun k => ([0x48, 0x8d, 0x05, 0, 0, 0, 0, 0xe8, 0, 0, 0, 0, 0xc3] : List Byte).getD k 0,
      [⟨.relOff32, .none, 4, 3, some (ascii "val")⟩, ⟨.relOff32, .call, 4, 8, some (ascii "_puts")⟩]⟩,
    ⟨ascii "_DATA", 3, 0, 3, fun k => ([1, 2, 3] : List Byte).getD k 0, []⟩],
   [⟨ascii "_puts", .external, false, true, false, false, 0, 0, none, false⟩,
    ⟨ascii "_main", .internal, true, false, false, false, 0, 0, some (ascii "_TEXT"), false⟩,
    ⟨ascii "val", .internal, false, true, false, false, 1, 0, some (ascii "_DATA"), false⟩,
    ⟨ascii "mac", .skipped, false, true, false, false, 0, 0, none, false⟩,
    ⟨ascii "eq1", .internal, false, true, false, true, 5, 0, none, false⟩]⟩

def exFile : List Byte := (writeModule exMod).getD []

theorem ex_written : writeModule exMod = some exFile := by decide +kernel
theorem ex_laid : Laid exMod := ⟨by decide +kernel, by decide +kernel, by decide +kernel⟩
theorem ex_dense : Dense exMod := by
  refine ⟨by decide +kernel, ?_, ?_⟩
  · intro s hs
    simp only [exMod, List.mem_cons, List.not_mem_nil, or_false] at hs
    rcases hs with rfl | rfl <;> exact ⟨rfl, rfl⟩
  · intro s hs hn
    simp only [exMod, List.mem_cons, List.not_mem_nil, or_false] at hs
    rcases hs with rfl | rfl
    · exact absurd hn (by decide)
    · exact absurd hn (by decide)
theorem ex_syms : SymsOk exMod := by
  refine ⟨by decide +kernel, by decide +kernel, ?_⟩
  have h : ∀ y ∈ locals exMod ++ publics exMod, y.offset < 2 ^ 31 ∧ y.seg ∈ exMod.secs.map (fun s => some s.name) := by decide +kernel
  intro y hy
  obtain ⟨h1, h2⟩ := h y hy
  obtain ⟨s, hs, he⟩ := List.mem_map.1 h2
  exact ⟨h1, s, hs, he.symm⟩
theorem ex_small : Small exMod exFile := by
  constructor
  · decide +kernel
  · decide +kernel

example : symbols exFile = [⟨ascii "val", 0xe, 2, 0, 14⟩, ⟨ascii "_main", 0xf, 1, 0, 0⟩, ⟨ascii "_puts", 1, 0, 0, 0⟩] := by decide +kernel
example : relocsAt exFile 0 = [⟨3, 0, 1, 2, 1, 1⟩, ⟨8, 2, 1, 2, 1, 2⟩] := by decide +kernel
example : nSects exFile = 2 ∧ (secAt exFile 1).addr = 13 ∧ (secAt exFile 1).sectname = ascii "__data" := by decide +kernel
example : ∀ f ∈ (exMod.secs.flatMap (·.fixups)), FixOk exMod f := by
  have h : ∀ f ∈ (exMod.secs.flatMap (·.fixups)), f.type = .relOff32 ∧ f.addbytes = 4 ∧ f.sym ∈ (listed exMod).map (fun y => some y.name) := by
    decide +kernel
  intro f hf
  obtain ⟨h1, h2, h3⟩ := h f hf
  obtain ⟨y, hy, he⟩ := List.mem_map.1 h3
  exact ⟨h1, h2, y, hy, he.symm⟩

/-- The same program with uninitialised data in `_BSS`, a segment of another name, `dq val` (absolute), `cmp byte ptr [val],1`
and an unused external. -/
def badMod : Mod :=
  ⟨true,
   [⟨ascii "_TEXT", 8, 0, 8, fun _ => 0x90, [⟨.relOff32, .none, 5, 2, some (ascii "val")⟩, ⟨.relOff32, .call, 4, 4, some (ascii "gone")⟩]⟩,
    ⟨ascii "_DATA", 8, 0, 8, fun _ => 0, [⟨.other, .none, 0, 0, some (ascii "val")⟩]⟩,
    ⟨ascii "_BSS", 64, 0, 0, fun _ => 0, []⟩,
    ⟨ascii "MYSEG", 4, 0, 4, fun _ => 7, []⟩],
   [⟨ascii "_puts", .external, false, false, false, false, 0, 0, none, false⟩,
    ⟨ascii "val", .internal, false, true, false, false, 1, 0, some (ascii "_DATA"), false⟩]⟩

def badFile : List Byte := (writeModule badMod).getD []
theorem bad_written : writeModule badMod = some badFile := by decide +kernel
theorem bad_laid : Laid badMod := ⟨by decide +kernel, by decide +kernel, by decide +kernel⟩
theorem bad_small : Small badMod badFile := by
  constructor
  · decide +kernel
  · decide +kernel

example : nSects badFile = 3 ∧ (secAt badFile 2).sectname = ascii "__bss" ∧ (secAt badFile 2).size = 0 := by decide +kernel
example : relocsAt badFile 1 = [⟨0, 0, 1, 0, 1, 1⟩] := by decide +kernel
example : relocsAt badFile 0 = [⟨2, 0, 1, 0, 1, 1⟩, ⟨4, 0xffffff, 1, 2, 1, 2⟩] := by decide +kernel
example : strOff badFile + strLen badFile = badFile.length + 16 := by decide +kernel

end Verif.Macho
