/-!
# Model of name decoration (`/repo/mangle.c`)
-/
namespace Verif.Mangle

/-- `enum lang_type`, `H/globals.h` 303-315. -/
inductive Lang | none | c | syscall | stdcall | pascal | fortran | basic | fastcall | vectorcall | sysvcall | delphicall
  deriving DecidableEq, Repr

/-- `enum fastcall_type`, `H/globals.h` 479-483. -/
inductive FcType | msc | watcomc | win64
  deriving DecidableEq, Repr

/-- `enum stdcall_decoration` / `enum vectorcall_decoration`, `H/globals.h` 489-500. -/
inductive Deco | full | none | half
  deriving DecidableEq, Repr

/-- The options `Mangle` looks at: `Options.fctype` and `ModuleInfo.fctype` are distinct variables. -/
structure Opts where
  noCdecl : Bool
  stdcall : Deco
  vectorcall : Deco
  optFc : FcType
  modFc : FcType
  deriving DecidableEq, Repr

/-- Memory types as far as `ow_decorate` distinguishes them: `MT_NEAR`, `MT_FAR`, `MT_EMPTY` / any other. -/
inductive Mem | codeLike | data
  deriving DecidableEq, Repr

structure Sym where
  name : List Char
  lang : Lang
  isproc : Bool
  mem : Mem
  parasize : BitVec 32
  deriving DecidableEq, Repr

/-- Decimal digits (`sprintf` `%u`). -/
def decNat (n : Nat) : List Char :=
  if n < 10 then [Char.ofNat (48 + n)] else decNat (n / 10) ++ [Char.ofNat (48 + n % 10)]

/-- `sprintf` `%d`. -/
def decInt (i : Int) : List Char := if i < 0 then '-' :: decNat i.natAbs else decNat i.natAbs

/-- `_strupr` on one character (ASCII). -/
def upr (c : Char) : Char := if 97 ≤ c.toNat ∧ c.toNat ≤ 122 then Char.ofNat (c.toNat - 32) else c

/-- `VoidMangler`, `mangle.c` 72-77. -/
def voidMangler (s : Sym) : List Char := s.name
/-- `UCaseMangler`, `mangle.c` 81-87. -/
def ucaseMangler (s : Sym) : List Char := s.name.map upr
/-- `UScoreMangler`, `mangle.c` 91-97. -/
def uscoreMangler (s : Sym) : List Char := '_' :: s.name
/-- `StdcallMangler`, `mangle.c` 102-112. -/
def stdcallMangler (o : Opts) (s : Sym) : List Char :=
  if o.stdcall = .full ∧ s.isproc then ['_'] ++ s.name ++ ['@'] ++ decInt s.parasize.toInt else uscoreMangler s
/-- `ms32_decorate`, `mangle.c` 116-131. -/
def ms32 (o : Opts) (s : Sym) : List Char :=
  if s.lang = .vectorcall ∧ o.vectorcall = .full ∧ s.isproc then s.name ++ ['@', '@'] ++ decInt s.parasize.toInt
  else if o.optFc = .msc ∧ s.isproc then ['@'] ++ s.name ++ ['@'] ++ decNat s.parasize.toNat
  else s.name
/-- `ow_decorate`, `mangle.c` 147-180. -/
def ow (s : Sym) : List Char :=
  if s.isproc ∨ s.mem = .codeLike then s.name ++ ['_'] else '_' :: s.name
/-- `ms64_decorate`, `mangle.c` 186-198. -/
def ms64 (o : Opts) (s : Sym) : List Char :=
  if s.lang = .vectorcall ∧ o.vectorcall = .full ∧ s.isproc then s.name ++ ['@', '@'] ++ decInt s.parasize.toInt
  else s.name

/-- `Mangle`, `mangle.c` 229-269. -/
def mangle (o : Opts) (s : Sym) : List Char :=
  match s.lang with
  | .c => if o.noCdecl then voidMangler s else uscoreMangler s
  | .syscall => voidMangler s
  | .stdcall => if o.stdcall = .none then voidMangler s else stdcallMangler o s
  | .pascal | .fortran | .basic => ucaseMangler s
  | .vectorcall | .fastcall => match o.modFc with
    | .msc => ms32 o s
    | .watcomc => ow s
    | .win64 => ms64 o s
  | _ => voidMangler s

end Verif.Mangle
