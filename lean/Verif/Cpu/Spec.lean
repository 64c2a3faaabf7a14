import Verif.Cpu.Model
/-!
# What the CPU directives mean
-/
namespace Verif.Cpu

inductive Level | i8086 | i186 | i286 | i386 | i486 | i586 | i686 | x64
  deriving DecidableEq, Repr

def Level.rank : Level → Nat
  | .i8086 => 0 | .i186 => 1 | .i286 => 2 | .i386 => 3 | .i486 => 4 | .i586 => 5 | .i686 => 6 | .x64 => 7

/-- coprocessors -/
inductive Fpu | none | i8087 | i287 | i387
  deriving DecidableEq, Repr

def Fpu.rank : Fpu → Nat
  | .none => 0 | .i8087 => 1 | .i287 => 2 | .i387 => 3

/-- extensions of the instruction set -/
inductive Ext | mmx | now3d | sse1 | sse2 | sse3 | ssse3 | sse4 | avx
  deriving DecidableEq, Repr

/-- The sets of extensions that can be selected. -/
inductive Exts | none | mmx | k3d | xmm | all
  deriving DecidableEq, Repr

/-- `.MMX`: MMX; `.K3D`: MMX and 3DNow; `.XMM`: MMX, SSE and AVX -/
def Exts.has : Exts → Ext → Bool
  | .none, _ => false
  | .mmx, e => e = .mmx
  | .k3d, e => e = .mmx || e = .now3d
  | .xmm, e => e ≠ .now3d
  | .all, _ => true

structure Setting where
  level : Level
  priv : Bool
  fpu : Fpu
  exts : Exts
  deriving DecidableEq, Repr

/-- the coprocessor that belongs to a processor -/
def Level.fpu : Level → Fpu
  | .i8086 => .i8087
  | .i186 => .i8087
  | .i286 => .i287
  | _ => .i387

/-- What a directive says: a processor, with or without privileged instructions, an extension, or a coprocessor. -/
inductive Meaning
  | cpu (l : Level) (priv : Bool)
  | ext (e : Exts)
  | fpu (f : Fpu)
  deriving DecidableEq, Repr

def Dir.meaning : Dir → Meaning
  | .d8086 => .cpu .i8086 false
  | .d186 => .cpu .i186 false
  | .d286 => .cpu .i286 false
  | .d286c => .cpu .i286 false
  | .d286p => .cpu .i286 true
  | .d386 => .cpu .i386 false
  | .d386c => .cpu .i386 false
  | .d386p => .cpu .i386 true
  | .d486 => .cpu .i486 false
  | .d486p => .cpu .i486 true
  | .d586 => .cpu .i586 false
  | .d586p => .cpu .i586 true
  | .d686 => .cpu .i686 false
  | .d686p => .cpu .i686 true
  | .x64 => .cpu .x64 false
  | .x64p => .cpu .x64 true
  | .amd64 => .cpu .x64 false
  | .mmx => .ext .mmx
  | .k3d => .ext .k3d
  | .xmm => .ext .xmm
  | .d8087 => .fpu .i8087
  | .d287 => .fpu .i287
  | .d387 => .fpu .i387
  | .no87 => .fpu .none

/-- A processor brings its coprocessor, unless there is none; the 64-bit processor has all extensions. A directive for the
coprocessor or for an extension changes nothing else. -/
def Setting.change (a : Setting) : Meaning → Setting
  | .cpu l p =>
    { level := l, priv := p, fpu := if a.fpu = .none then .none else l.fpu, exts := if l = .x64 then .all else a.exts }
  | .ext e => { a with exts := e }
  | .fpu f => { a with fpu := f }

/-- The setting after directives. -/
def Setting.after (a : Setting) (ds : List Dir) : Setting := ds.foldl (fun a d => a.change d.meaning) a

/-- What an instruction needs. -/
structure Need where
  level : Level
  priv : Bool
  /-- `none`: no coprocessor -/
  fpu : Fpu
  ext : Option Ext
  deriving DecidableEq, Repr

/-- An instruction may be used if the processor and the coprocessor are those that introduced it or later ones, and the
extension has been selected; privileged instructions only with a `P` directive. -/
def Setting.allows (a : Setting) (n : Need) : Prop :=
  n.level.rank ≤ a.level.rank ∧ (n.priv = true → a.priv = true) ∧ n.fpu.rank ≤ a.fpu.rank ∧ ∀ e, n.ext = some e → a.exts.has e = true

/-- The first processor with segments of this size. -/
def Ofs.firstLevel : Ofs → Level
  | .use16 => .i8086
  | .use32 => .i386
  | .use64 => .x64

/-! ## Bits -/

def Level.bits : Level → Info
  | .i8086 => P_86 | .i186 => P_186 | .i286 => P_286 | .i386 => P_386 | .i486 => P_486 | .i586 => P_586 | .i686 => P_686 | .x64 => P_64

/-- of a setting -/
def Fpu.bits : Fpu → Info
  | .none => P_NO87 | .i8087 => P_87 | .i287 => P_287 | .i387 => P_387

/-- of an instruction -/
def Fpu.needBits : Fpu → Info
  | .none => 0#16 | f => f.bits

def Ext.bits : Ext → Info
  | .mmx => P_MMX | .now3d => P_K3D | .sse1 => P_SSE1 | .sse2 => P_SSE2 | .sse3 => P_SSE3 | .ssse3 => P_SSSE3 | .sse4 => P_SSE4
  | .avx => P_AVX

def Exts.bits : Exts → Info
  | .none => 0#16
  | .mmx => P_MMX
  | .k3d => P_MMX ||| P_K3D
  | .xmm => P_MMX ||| P_SSEALL
  | .all => P_EXT_ALL

/-- How a setting is stored. -/
def Setting.bits (a : Setting) : Info :=
  a.level.bits ||| (if a.priv then P_PM else 0#16) ||| a.fpu.bits ||| a.exts.bits

/-- The `cpu` column of the instruction tables, e.g. `P_686|P_SSE2`. -/
def Need.bits (n : Need) : Info :=
  n.level.bits ||| (if n.priv then P_PM else 0#16) ||| n.fpu.needBits ||| (match n.ext with | none => 0#16 | some e => e.bits)

end Verif.Cpu
