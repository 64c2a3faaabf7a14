import Verif.Cgv2.Types

/-!
# H/MemTable64.h and H/MemTable32.h: ModRM/SIB of every base/index pair

Generated from the two headers.  Row `base*18 + index`; 0-15 are the registers, 16 is RIP,
17 is `no register`.  Each entry is `⟨modRM, flags, SIB⟩`; the flag bits are 1 = ModRM,
2 = SIB, 4 = displacement required, 8 = 32-bit displacement required, 16 = not encodable.
-/

namespace Verif.Cgv2

/-- `struct Mem_Def`: H/codegenv2.h:338-342. -/
structure MemDef where
  modRM : Nat
  flags : Nat
  sib : Nat
  deriving DecidableEq, Repr, Inhabited

/-- H/MemTable64.h: the rows with base 0. -/
def memTable64r0 : List MemDef := [
  ⟨4, 3, 0x00⟩, ⟨4, 3, 0x08⟩, ⟨4, 3, 0x10⟩, ⟨4, 3, 0x18⟩, ⟨4, 3, 0x20⟩, ⟨4, 3, 0x28⟩,
  ⟨4, 3, 0x30⟩, ⟨4, 3, 0x38⟩, ⟨4, 3, 0x00⟩, ⟨4, 3, 0x08⟩, ⟨4, 3, 0x10⟩, ⟨4, 3, 0x18⟩,
  ⟨4, 3, 0x20⟩, ⟨4, 3, 0x28⟩, ⟨4, 3, 0x30⟩, ⟨4, 3, 0x38⟩, ⟨4, 19, 0x28⟩, ⟨0, 1, 0x00⟩]

/-- H/MemTable64.h: the rows with base 1. -/
def memTable64r1 : List MemDef := [
  ⟨4, 3, 0x01⟩, ⟨4, 3, 0x09⟩, ⟨4, 3, 0x11⟩, ⟨4, 3, 0x19⟩, ⟨4, 3, 0x21⟩, ⟨4, 3, 0x29⟩,
  ⟨4, 3, 0x31⟩, ⟨4, 3, 0x39⟩, ⟨4, 3, 0x01⟩, ⟨4, 3, 0x09⟩, ⟨4, 3, 0x11⟩, ⟨4, 3, 0x19⟩,
  ⟨4, 3, 0x21⟩, ⟨4, 3, 0x29⟩, ⟨4, 3, 0x31⟩, ⟨4, 3, 0x39⟩, ⟨4, 19, 0x29⟩, ⟨1, 1, 0x00⟩]

/-- H/MemTable64.h: the rows with base 2. -/
def memTable64r2 : List MemDef := [
  ⟨4, 3, 0x02⟩, ⟨4, 3, 0x0a⟩, ⟨4, 3, 0x12⟩, ⟨4, 3, 0x1a⟩, ⟨4, 3, 0x22⟩, ⟨4, 3, 0x2a⟩,
  ⟨4, 3, 0x32⟩, ⟨4, 3, 0x3a⟩, ⟨4, 3, 0x02⟩, ⟨4, 3, 0x0a⟩, ⟨4, 3, 0x12⟩, ⟨4, 3, 0x1a⟩,
  ⟨4, 3, 0x22⟩, ⟨4, 3, 0x2a⟩, ⟨4, 3, 0x32⟩, ⟨4, 3, 0x3a⟩, ⟨4, 19, 0x2a⟩, ⟨2, 1, 0x00⟩]

/-- H/MemTable64.h: the rows with base 3. -/
def memTable64r3 : List MemDef := [
  ⟨4, 3, 0x03⟩, ⟨4, 3, 0x0b⟩, ⟨4, 3, 0x13⟩, ⟨4, 3, 0x1b⟩, ⟨4, 3, 0x23⟩, ⟨4, 3, 0x2b⟩,
  ⟨4, 3, 0x33⟩, ⟨4, 3, 0x3b⟩, ⟨4, 3, 0x03⟩, ⟨4, 3, 0x0b⟩, ⟨4, 3, 0x13⟩, ⟨4, 3, 0x1b⟩,
  ⟨4, 3, 0x23⟩, ⟨4, 3, 0x2b⟩, ⟨4, 3, 0x33⟩, ⟨4, 3, 0x3b⟩, ⟨4, 19, 0x2b⟩, ⟨3, 1, 0x00⟩]

/-- H/MemTable64.h: the rows with base 4. -/
def memTable64r4 : List MemDef := [
  ⟨4, 3, 0x04⟩, ⟨4, 3, 0x0c⟩, ⟨4, 3, 0x14⟩, ⟨4, 3, 0x1c⟩, ⟨4, 3, 0x24⟩, ⟨4, 3, 0x2c⟩,
  ⟨4, 3, 0x34⟩, ⟨4, 3, 0x3c⟩, ⟨4, 3, 0x04⟩, ⟨4, 3, 0x0c⟩, ⟨4, 3, 0x14⟩, ⟨4, 3, 0x1c⟩,
  ⟨4, 3, 0x24⟩, ⟨4, 3, 0x2c⟩, ⟨4, 3, 0x34⟩, ⟨4, 3, 0x3c⟩, ⟨4, 19, 0x2c⟩, ⟨4, 3, 0x24⟩]

/-- H/MemTable64.h: the rows with base 5. -/
def memTable64r5 : List MemDef := [
  ⟨4, 7, 0x05⟩, ⟨4, 7, 0x0d⟩, ⟨4, 7, 0x15⟩, ⟨4, 7, 0x1d⟩, ⟨4, 7, 0x25⟩, ⟨4, 7, 0x2d⟩,
  ⟨4, 7, 0x35⟩, ⟨4, 7, 0x3d⟩, ⟨4, 7, 0x05⟩, ⟨4, 7, 0x0d⟩, ⟨4, 7, 0x15⟩, ⟨4, 7, 0x1d⟩,
  ⟨4, 7, 0x25⟩, ⟨4, 7, 0x2d⟩, ⟨4, 7, 0x35⟩, ⟨4, 7, 0x3d⟩, ⟨4, 19, 0x2d⟩, ⟨5, 5, 0x00⟩]

/-- H/MemTable64.h: the rows with base 6. -/
def memTable64r6 : List MemDef := [
  ⟨4, 3, 0x06⟩, ⟨4, 3, 0x0e⟩, ⟨4, 3, 0x16⟩, ⟨4, 3, 0x1e⟩, ⟨4, 3, 0x26⟩, ⟨4, 3, 0x2e⟩,
  ⟨4, 3, 0x36⟩, ⟨4, 3, 0x3e⟩, ⟨4, 3, 0x06⟩, ⟨4, 3, 0x0e⟩, ⟨4, 3, 0x16⟩, ⟨4, 3, 0x1e⟩,
  ⟨4, 3, 0x26⟩, ⟨4, 3, 0x2e⟩, ⟨4, 3, 0x36⟩, ⟨4, 3, 0x3e⟩, ⟨4, 19, 0x2e⟩, ⟨6, 1, 0x00⟩]

/-- H/MemTable64.h: the rows with base 7. -/
def memTable64r7 : List MemDef := [
  ⟨4, 3, 0x07⟩, ⟨4, 3, 0x0f⟩, ⟨4, 3, 0x17⟩, ⟨4, 3, 0x1f⟩, ⟨4, 3, 0x27⟩, ⟨4, 3, 0x2f⟩,
  ⟨4, 3, 0x37⟩, ⟨4, 3, 0x3f⟩, ⟨4, 3, 0x07⟩, ⟨4, 3, 0x0f⟩, ⟨4, 3, 0x17⟩, ⟨4, 3, 0x1f⟩,
  ⟨4, 3, 0x27⟩, ⟨4, 3, 0x2f⟩, ⟨4, 3, 0x37⟩, ⟨4, 3, 0x3f⟩, ⟨4, 19, 0x2f⟩, ⟨7, 1, 0x00⟩]

/-- H/MemTable64.h: the rows with base 8. -/
def memTable64r8 : List MemDef := [
  ⟨4, 3, 0x00⟩, ⟨4, 3, 0x08⟩, ⟨4, 3, 0x10⟩, ⟨4, 3, 0x18⟩, ⟨4, 3, 0x20⟩, ⟨4, 3, 0x28⟩,
  ⟨4, 3, 0x30⟩, ⟨4, 3, 0x38⟩, ⟨4, 3, 0x00⟩, ⟨4, 3, 0x08⟩, ⟨4, 3, 0x10⟩, ⟨4, 3, 0x18⟩,
  ⟨4, 3, 0x20⟩, ⟨4, 3, 0x28⟩, ⟨4, 3, 0x30⟩, ⟨4, 3, 0x38⟩, ⟨4, 19, 0x28⟩, ⟨0, 1, 0x00⟩]

/-- H/MemTable64.h: the rows with base 9. -/
def memTable64r9 : List MemDef := [
  ⟨4, 3, 0x01⟩, ⟨4, 3, 0x09⟩, ⟨4, 3, 0x11⟩, ⟨4, 3, 0x19⟩, ⟨4, 3, 0x21⟩, ⟨4, 3, 0x29⟩,
  ⟨4, 3, 0x31⟩, ⟨4, 3, 0x39⟩, ⟨4, 3, 0x01⟩, ⟨4, 3, 0x09⟩, ⟨4, 3, 0x11⟩, ⟨4, 3, 0x19⟩,
  ⟨4, 3, 0x21⟩, ⟨4, 3, 0x29⟩, ⟨4, 3, 0x31⟩, ⟨4, 3, 0x39⟩, ⟨4, 19, 0x29⟩, ⟨1, 1, 0x00⟩]

/-- H/MemTable64.h: the rows with base 10. -/
def memTable64r10 : List MemDef := [
  ⟨4, 3, 0x02⟩, ⟨4, 3, 0x0a⟩, ⟨4, 3, 0x12⟩, ⟨4, 3, 0x1a⟩, ⟨4, 3, 0x22⟩, ⟨4, 3, 0x2a⟩,
  ⟨4, 3, 0x32⟩, ⟨4, 3, 0x3a⟩, ⟨4, 3, 0x02⟩, ⟨4, 3, 0x0a⟩, ⟨4, 3, 0x12⟩, ⟨4, 3, 0x1a⟩,
  ⟨4, 3, 0x22⟩, ⟨4, 3, 0x2a⟩, ⟨4, 3, 0x32⟩, ⟨4, 3, 0x3a⟩, ⟨4, 19, 0x2a⟩, ⟨2, 1, 0x00⟩]

/-- H/MemTable64.h: the rows with base 11. -/
def memTable64r11 : List MemDef := [
  ⟨4, 3, 0x03⟩, ⟨4, 3, 0x0b⟩, ⟨4, 3, 0x13⟩, ⟨4, 3, 0x1b⟩, ⟨4, 3, 0x23⟩, ⟨4, 3, 0x2b⟩,
  ⟨4, 3, 0x33⟩, ⟨4, 3, 0x3b⟩, ⟨4, 3, 0x03⟩, ⟨4, 3, 0x0b⟩, ⟨4, 3, 0x13⟩, ⟨4, 3, 0x1b⟩,
  ⟨4, 3, 0x23⟩, ⟨4, 3, 0x2b⟩, ⟨4, 3, 0x33⟩, ⟨4, 3, 0x3b⟩, ⟨4, 19, 0x2b⟩, ⟨3, 1, 0x00⟩]

/-- H/MemTable64.h: the rows with base 12. -/
def memTable64r12 : List MemDef := [
  ⟨4, 3, 0x04⟩, ⟨4, 3, 0x0c⟩, ⟨4, 3, 0x14⟩, ⟨4, 3, 0x1c⟩, ⟨4, 3, 0x24⟩, ⟨4, 3, 0x2c⟩,
  ⟨4, 3, 0x34⟩, ⟨4, 3, 0x3c⟩, ⟨4, 3, 0x04⟩, ⟨4, 3, 0x0c⟩, ⟨4, 3, 0x14⟩, ⟨4, 3, 0x1c⟩,
  ⟨4, 3, 0x24⟩, ⟨4, 3, 0x2c⟩, ⟨4, 3, 0x34⟩, ⟨4, 3, 0x3c⟩, ⟨4, 19, 0x2c⟩, ⟨4, 3, 0x24⟩]

/-- H/MemTable64.h: the rows with base 13. -/
def memTable64r13 : List MemDef := [
  ⟨4, 7, 0x05⟩, ⟨4, 7, 0x0d⟩, ⟨4, 7, 0x15⟩, ⟨4, 7, 0x1d⟩, ⟨4, 7, 0x25⟩, ⟨4, 7, 0x2d⟩,
  ⟨4, 7, 0x35⟩, ⟨4, 7, 0x3d⟩, ⟨4, 7, 0x05⟩, ⟨4, 7, 0x0d⟩, ⟨4, 7, 0x15⟩, ⟨4, 7, 0x1d⟩,
  ⟨4, 7, 0x25⟩, ⟨4, 7, 0x2d⟩, ⟨4, 7, 0x35⟩, ⟨4, 7, 0x3d⟩, ⟨4, 19, 0x2d⟩, ⟨5, 5, 0x00⟩]

/-- H/MemTable64.h: the rows with base 14. -/
def memTable64r14 : List MemDef := [
  ⟨4, 3, 0x06⟩, ⟨4, 3, 0x0e⟩, ⟨4, 3, 0x16⟩, ⟨4, 3, 0x1e⟩, ⟨4, 3, 0x26⟩, ⟨4, 3, 0x2e⟩,
  ⟨4, 3, 0x36⟩, ⟨4, 3, 0x3e⟩, ⟨4, 3, 0x06⟩, ⟨4, 3, 0x0e⟩, ⟨4, 3, 0x16⟩, ⟨4, 3, 0x1e⟩,
  ⟨4, 3, 0x26⟩, ⟨4, 3, 0x2e⟩, ⟨4, 3, 0x36⟩, ⟨4, 3, 0x3e⟩, ⟨4, 19, 0x2e⟩, ⟨6, 1, 0x00⟩]

/-- H/MemTable64.h: the rows with base 15. -/
def memTable64r15 : List MemDef := [
  ⟨4, 3, 0x07⟩, ⟨4, 3, 0x0f⟩, ⟨4, 3, 0x17⟩, ⟨4, 3, 0x1f⟩, ⟨4, 3, 0x27⟩, ⟨4, 3, 0x2f⟩,
  ⟨4, 3, 0x37⟩, ⟨4, 3, 0x3f⟩, ⟨4, 3, 0x07⟩, ⟨4, 3, 0x0f⟩, ⟨4, 3, 0x17⟩, ⟨4, 3, 0x1f⟩,
  ⟨4, 3, 0x27⟩, ⟨4, 3, 0x2f⟩, ⟨4, 3, 0x37⟩, ⟨4, 3, 0x3f⟩, ⟨4, 19, 0x2f⟩, ⟨7, 1, 0x00⟩]

/-- H/MemTable64.h: the rows with base 16. -/
def memTable64r16 : List MemDef := [
  ⟨4, 16, 0x00⟩, ⟨4, 16, 0x00⟩, ⟨4, 16, 0x00⟩, ⟨4, 16, 0x00⟩, ⟨4, 16, 0x00⟩, ⟨4, 16, 0x00⟩,
  ⟨4, 16, 0x00⟩, ⟨4, 16, 0x00⟩, ⟨4, 16, 0x00⟩, ⟨4, 16, 0x00⟩, ⟨4, 16, 0x00⟩, ⟨4, 16, 0x00⟩,
  ⟨4, 16, 0x00⟩, ⟨4, 16, 0x00⟩, ⟨4, 16, 0x00⟩, ⟨4, 16, 0x00⟩, ⟨4, 16, 0x00⟩, ⟨5, 9, 0x00⟩]

/-- H/MemTable64.h: the rows with base 17. -/
def memTable64r17 : List MemDef := [
  ⟨4, 11, 0x05⟩, ⟨4, 11, 0x0d⟩, ⟨4, 11, 0x15⟩, ⟨4, 11, 0x1d⟩, ⟨4, 11, 0x25⟩, ⟨4, 11, 0x2d⟩,
  ⟨4, 11, 0x35⟩, ⟨4, 11, 0x3d⟩, ⟨4, 11, 0x05⟩, ⟨4, 11, 0x0d⟩, ⟨4, 11, 0x15⟩, ⟨4, 11, 0x1d⟩,
  ⟨4, 11, 0x25⟩, ⟨4, 11, 0x2d⟩, ⟨4, 11, 0x35⟩, ⟨4, 11, 0x3d⟩, ⟨4, 11, 0x2d⟩, ⟨4, 11, 0x25⟩]

/-- `MemTable64[]`. -/
def memTable64 : List MemDef :=
  memTable64r0 ++ memTable64r1 ++ memTable64r2 ++ memTable64r3 ++ memTable64r4 ++ memTable64r5 ++ memTable64r6 ++ memTable64r7 ++ memTable64r8 ++ memTable64r9 ++ memTable64r10 ++ memTable64r11 ++ memTable64r12 ++ memTable64r13 ++ memTable64r14 ++ memTable64r15 ++ memTable64r16 ++ memTable64r17

/-- H/MemTable32.h: the rows with base 0. -/
def memTable32r0 : List MemDef := [
  ⟨4, 3, 0x00⟩, ⟨4, 3, 0x08⟩, ⟨4, 3, 0x10⟩, ⟨4, 3, 0x18⟩, ⟨4, 3, 0x20⟩, ⟨4, 3, 0x28⟩,
  ⟨4, 3, 0x30⟩, ⟨4, 3, 0x38⟩, ⟨4, 3, 0x00⟩, ⟨4, 3, 0x08⟩, ⟨4, 3, 0x10⟩, ⟨4, 3, 0x18⟩,
  ⟨4, 3, 0x20⟩, ⟨4, 3, 0x28⟩, ⟨4, 3, 0x30⟩, ⟨4, 3, 0x38⟩, ⟨4, 19, 0x28⟩, ⟨0, 1, 0x00⟩]

/-- H/MemTable32.h: the rows with base 1. -/
def memTable32r1 : List MemDef := [
  ⟨4, 3, 0x01⟩, ⟨4, 3, 0x09⟩, ⟨4, 3, 0x11⟩, ⟨4, 3, 0x19⟩, ⟨4, 3, 0x21⟩, ⟨4, 3, 0x29⟩,
  ⟨4, 3, 0x31⟩, ⟨4, 3, 0x39⟩, ⟨4, 3, 0x01⟩, ⟨4, 3, 0x09⟩, ⟨4, 3, 0x11⟩, ⟨4, 3, 0x19⟩,
  ⟨4, 3, 0x21⟩, ⟨4, 3, 0x29⟩, ⟨4, 3, 0x31⟩, ⟨4, 3, 0x39⟩, ⟨4, 19, 0x29⟩, ⟨1, 1, 0x00⟩]

/-- H/MemTable32.h: the rows with base 2. -/
def memTable32r2 : List MemDef := [
  ⟨4, 3, 0x02⟩, ⟨4, 3, 0x0a⟩, ⟨4, 3, 0x12⟩, ⟨4, 3, 0x1a⟩, ⟨4, 3, 0x22⟩, ⟨4, 3, 0x2a⟩,
  ⟨4, 3, 0x32⟩, ⟨4, 3, 0x3a⟩, ⟨4, 3, 0x02⟩, ⟨4, 3, 0x0a⟩, ⟨4, 3, 0x12⟩, ⟨4, 3, 0x1a⟩,
  ⟨4, 3, 0x22⟩, ⟨4, 3, 0x2a⟩, ⟨4, 3, 0x32⟩, ⟨4, 3, 0x3a⟩, ⟨4, 19, 0x2a⟩, ⟨2, 1, 0x00⟩]

/-- H/MemTable32.h: the rows with base 3. -/
def memTable32r3 : List MemDef := [
  ⟨4, 3, 0x03⟩, ⟨4, 3, 0x0b⟩, ⟨4, 3, 0x13⟩, ⟨4, 3, 0x1b⟩, ⟨4, 3, 0x23⟩, ⟨4, 3, 0x2b⟩,
  ⟨4, 3, 0x33⟩, ⟨4, 3, 0x3b⟩, ⟨4, 3, 0x03⟩, ⟨4, 3, 0x0b⟩, ⟨4, 3, 0x13⟩, ⟨4, 3, 0x1b⟩,
  ⟨4, 3, 0x23⟩, ⟨4, 3, 0x2b⟩, ⟨4, 3, 0x33⟩, ⟨4, 3, 0x3b⟩, ⟨4, 19, 0x2b⟩, ⟨3, 1, 0x00⟩]

/-- H/MemTable32.h: the rows with base 4. -/
def memTable32r4 : List MemDef := [
  ⟨4, 3, 0x04⟩, ⟨4, 3, 0x0c⟩, ⟨4, 3, 0x14⟩, ⟨4, 3, 0x1c⟩, ⟨4, 3, 0x24⟩, ⟨4, 3, 0x2c⟩,
  ⟨4, 3, 0x34⟩, ⟨4, 3, 0x3c⟩, ⟨4, 3, 0x04⟩, ⟨4, 3, 0x0c⟩, ⟨4, 3, 0x14⟩, ⟨4, 3, 0x1c⟩,
  ⟨4, 3, 0x24⟩, ⟨4, 3, 0x2c⟩, ⟨4, 3, 0x34⟩, ⟨4, 3, 0x3c⟩, ⟨4, 19, 0x2c⟩, ⟨4, 3, 0x24⟩]

/-- H/MemTable32.h: the rows with base 5. -/
def memTable32r5 : List MemDef := [
  ⟨4, 7, 0x05⟩, ⟨4, 7, 0x0d⟩, ⟨4, 7, 0x15⟩, ⟨4, 7, 0x1d⟩, ⟨4, 7, 0x25⟩, ⟨4, 7, 0x2d⟩,
  ⟨4, 7, 0x35⟩, ⟨4, 7, 0x3d⟩, ⟨4, 7, 0x05⟩, ⟨4, 7, 0x0d⟩, ⟨4, 7, 0x15⟩, ⟨4, 7, 0x1d⟩,
  ⟨4, 7, 0x25⟩, ⟨4, 7, 0x2d⟩, ⟨4, 7, 0x35⟩, ⟨4, 7, 0x3d⟩, ⟨4, 19, 0x2d⟩, ⟨5, 5, 0x00⟩]

/-- H/MemTable32.h: the rows with base 6. -/
def memTable32r6 : List MemDef := [
  ⟨4, 3, 0x06⟩, ⟨4, 3, 0x0e⟩, ⟨4, 3, 0x16⟩, ⟨4, 3, 0x1e⟩, ⟨4, 3, 0x26⟩, ⟨4, 3, 0x2e⟩,
  ⟨4, 3, 0x36⟩, ⟨4, 3, 0x3e⟩, ⟨4, 3, 0x06⟩, ⟨4, 3, 0x0e⟩, ⟨4, 3, 0x16⟩, ⟨4, 3, 0x1e⟩,
  ⟨4, 3, 0x26⟩, ⟨4, 3, 0x2e⟩, ⟨4, 3, 0x36⟩, ⟨4, 3, 0x3e⟩, ⟨4, 19, 0x2e⟩, ⟨6, 1, 0x00⟩]

/-- H/MemTable32.h: the rows with base 7. -/
def memTable32r7 : List MemDef := [
  ⟨4, 3, 0x07⟩, ⟨4, 3, 0x0f⟩, ⟨4, 3, 0x17⟩, ⟨4, 3, 0x1f⟩, ⟨4, 3, 0x27⟩, ⟨4, 3, 0x2f⟩,
  ⟨4, 3, 0x37⟩, ⟨4, 3, 0x3f⟩, ⟨4, 3, 0x07⟩, ⟨4, 3, 0x0f⟩, ⟨4, 3, 0x17⟩, ⟨4, 3, 0x1f⟩,
  ⟨4, 3, 0x27⟩, ⟨4, 3, 0x2f⟩, ⟨4, 3, 0x37⟩, ⟨4, 3, 0x3f⟩, ⟨4, 19, 0x2f⟩, ⟨7, 1, 0x00⟩]

/-- H/MemTable32.h: the rows with base 8. -/
def memTable32r8 : List MemDef := [
  ⟨4, 3, 0x00⟩, ⟨4, 3, 0x08⟩, ⟨4, 3, 0x10⟩, ⟨4, 3, 0x18⟩, ⟨4, 3, 0x20⟩, ⟨4, 3, 0x28⟩,
  ⟨4, 3, 0x30⟩, ⟨4, 3, 0x38⟩, ⟨4, 3, 0x00⟩, ⟨4, 3, 0x08⟩, ⟨4, 3, 0x10⟩, ⟨4, 3, 0x18⟩,
  ⟨4, 3, 0x20⟩, ⟨4, 3, 0x28⟩, ⟨4, 3, 0x30⟩, ⟨4, 3, 0x38⟩, ⟨4, 19, 0x28⟩, ⟨0, 1, 0x00⟩]

/-- H/MemTable32.h: the rows with base 9. -/
def memTable32r9 : List MemDef := [
  ⟨4, 3, 0x01⟩, ⟨4, 3, 0x09⟩, ⟨4, 3, 0x11⟩, ⟨4, 3, 0x19⟩, ⟨4, 3, 0x21⟩, ⟨4, 3, 0x29⟩,
  ⟨4, 3, 0x31⟩, ⟨4, 3, 0x39⟩, ⟨4, 3, 0x01⟩, ⟨4, 3, 0x09⟩, ⟨4, 3, 0x11⟩, ⟨4, 3, 0x19⟩,
  ⟨4, 3, 0x21⟩, ⟨4, 3, 0x29⟩, ⟨4, 3, 0x31⟩, ⟨4, 3, 0x39⟩, ⟨4, 19, 0x29⟩, ⟨1, 1, 0x00⟩]

/-- H/MemTable32.h: the rows with base 10. -/
def memTable32r10 : List MemDef := [
  ⟨4, 3, 0x02⟩, ⟨4, 3, 0x0a⟩, ⟨4, 3, 0x12⟩, ⟨4, 3, 0x1a⟩, ⟨4, 3, 0x22⟩, ⟨4, 3, 0x2a⟩,
  ⟨4, 3, 0x32⟩, ⟨4, 3, 0x3a⟩, ⟨4, 3, 0x02⟩, ⟨4, 3, 0x0a⟩, ⟨4, 3, 0x12⟩, ⟨4, 3, 0x1a⟩,
  ⟨4, 3, 0x22⟩, ⟨4, 3, 0x2a⟩, ⟨4, 3, 0x32⟩, ⟨4, 3, 0x3a⟩, ⟨4, 19, 0x2a⟩, ⟨2, 1, 0x00⟩]

/-- H/MemTable32.h: the rows with base 11. -/
def memTable32r11 : List MemDef := [
  ⟨4, 3, 0x03⟩, ⟨4, 3, 0x0b⟩, ⟨4, 3, 0x13⟩, ⟨4, 3, 0x1b⟩, ⟨4, 3, 0x23⟩, ⟨4, 3, 0x2b⟩,
  ⟨4, 3, 0x33⟩, ⟨4, 3, 0x3b⟩, ⟨4, 3, 0x03⟩, ⟨4, 3, 0x0b⟩, ⟨4, 3, 0x13⟩, ⟨4, 3, 0x1b⟩,
  ⟨4, 3, 0x23⟩, ⟨4, 3, 0x2b⟩, ⟨4, 3, 0x33⟩, ⟨4, 3, 0x3b⟩, ⟨4, 19, 0x2b⟩, ⟨3, 1, 0x00⟩]

/-- H/MemTable32.h: the rows with base 12. -/
def memTable32r12 : List MemDef := [
  ⟨4, 3, 0x04⟩, ⟨4, 3, 0x0c⟩, ⟨4, 3, 0x14⟩, ⟨4, 3, 0x1c⟩, ⟨4, 3, 0x24⟩, ⟨4, 3, 0x2c⟩,
  ⟨4, 3, 0x34⟩, ⟨4, 3, 0x3c⟩, ⟨4, 3, 0x04⟩, ⟨4, 3, 0x0c⟩, ⟨4, 3, 0x14⟩, ⟨4, 3, 0x1c⟩,
  ⟨4, 3, 0x24⟩, ⟨4, 3, 0x2c⟩, ⟨4, 3, 0x34⟩, ⟨4, 3, 0x3c⟩, ⟨4, 19, 0x2c⟩, ⟨4, 3, 0x24⟩]

/-- H/MemTable32.h: the rows with base 13. -/
def memTable32r13 : List MemDef := [
  ⟨4, 3, 0x05⟩, ⟨4, 3, 0x0d⟩, ⟨4, 3, 0x15⟩, ⟨4, 3, 0x1d⟩, ⟨4, 3, 0x25⟩, ⟨4, 3, 0x2d⟩,
  ⟨4, 3, 0x35⟩, ⟨4, 3, 0x3d⟩, ⟨4, 3, 0x05⟩, ⟨4, 3, 0x0d⟩, ⟨4, 3, 0x15⟩, ⟨4, 3, 0x1d⟩,
  ⟨4, 3, 0x25⟩, ⟨4, 3, 0x2d⟩, ⟨4, 3, 0x35⟩, ⟨4, 3, 0x3d⟩, ⟨4, 19, 0x2d⟩, ⟨5, 5, 0x00⟩]

/-- H/MemTable32.h: the rows with base 14. -/
def memTable32r14 : List MemDef := [
  ⟨4, 3, 0x06⟩, ⟨4, 3, 0x0e⟩, ⟨4, 3, 0x16⟩, ⟨4, 3, 0x1e⟩, ⟨4, 3, 0x26⟩, ⟨4, 3, 0x2e⟩,
  ⟨4, 3, 0x36⟩, ⟨4, 3, 0x3e⟩, ⟨4, 3, 0x06⟩, ⟨4, 3, 0x0e⟩, ⟨4, 3, 0x16⟩, ⟨4, 3, 0x1e⟩,
  ⟨4, 3, 0x26⟩, ⟨4, 3, 0x2e⟩, ⟨4, 3, 0x36⟩, ⟨4, 3, 0x3e⟩, ⟨4, 19, 0x2e⟩, ⟨6, 1, 0x00⟩]

/-- H/MemTable32.h: the rows with base 15. -/
def memTable32r15 : List MemDef := [
  ⟨4, 3, 0x07⟩, ⟨4, 3, 0x0f⟩, ⟨4, 3, 0x17⟩, ⟨4, 3, 0x1f⟩, ⟨4, 3, 0x27⟩, ⟨4, 3, 0x2f⟩,
  ⟨4, 3, 0x37⟩, ⟨4, 3, 0x3f⟩, ⟨4, 3, 0x07⟩, ⟨4, 3, 0x0f⟩, ⟨4, 3, 0x17⟩, ⟨4, 3, 0x1f⟩,
  ⟨4, 3, 0x27⟩, ⟨4, 3, 0x2f⟩, ⟨4, 3, 0x37⟩, ⟨4, 3, 0x3f⟩, ⟨4, 19, 0x2f⟩, ⟨7, 1, 0x00⟩]

/-- H/MemTable32.h: the rows with base 16. -/
def memTable32r16 : List MemDef := [
  ⟨4, 16, 0x00⟩, ⟨4, 16, 0x00⟩, ⟨4, 16, 0x00⟩, ⟨4, 16, 0x00⟩, ⟨4, 16, 0x00⟩, ⟨4, 16, 0x00⟩,
  ⟨4, 16, 0x00⟩, ⟨4, 16, 0x00⟩, ⟨4, 16, 0x00⟩, ⟨4, 16, 0x00⟩, ⟨4, 16, 0x00⟩, ⟨4, 16, 0x00⟩,
  ⟨4, 16, 0x00⟩, ⟨4, 16, 0x00⟩, ⟨4, 16, 0x00⟩, ⟨4, 16, 0x00⟩, ⟨4, 16, 0x00⟩, ⟨5, 9, 0x00⟩]

/-- H/MemTable32.h: the rows with base 17. -/
def memTable32r17 : List MemDef := [
  ⟨4, 11, 0x05⟩, ⟨4, 11, 0x0d⟩, ⟨4, 11, 0x15⟩, ⟨4, 11, 0x1d⟩, ⟨4, 11, 0x25⟩, ⟨4, 11, 0x2d⟩,
  ⟨4, 11, 0x35⟩, ⟨4, 11, 0x3d⟩, ⟨4, 11, 0x05⟩, ⟨4, 11, 0x0d⟩, ⟨4, 11, 0x15⟩, ⟨4, 11, 0x1d⟩,
  ⟨4, 11, 0x25⟩, ⟨4, 11, 0x2d⟩, ⟨4, 11, 0x35⟩, ⟨4, 11, 0x3d⟩, ⟨4, 11, 0x2d⟩, ⟨5, 9, 0x00⟩]

/-- `MemTable32[]`. -/
def memTable32 : List MemDef :=
  memTable32r0 ++ memTable32r1 ++ memTable32r2 ++ memTable32r3 ++ memTable32r4 ++ memTable32r5 ++ memTable32r6 ++ memTable32r7 ++ memTable32r8 ++ memTable32r9 ++ memTable32r10 ++ memTable32r11 ++ memTable32r12 ++ memTable32r13 ++ memTable32r14 ++ memTable32r15 ++ memTable32r16 ++ memTable32r17

end Verif.Cgv2
