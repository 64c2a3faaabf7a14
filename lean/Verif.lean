import Verif.CondAsm.Props
import Verif.Num.Props
import Verif.Omf.Props
import Verif.Align.Props
import Verif.Mangle.Props
import Verif.Mem.Props
import Verif.LineQueue.Props
import Verif.Expr.Consts
import Verif.Branch.Props
import Verif.Passes.Props
import Verif.Symbols.Props
import Verif.ResWords.Props
import Verif.Strings.Props
import Verif.Strings.Utf
import Verif.Hll.Props
import Verif.Macro.Props
import Verif.ModRM.Props
import Verif.Context.Props
import Verif.Data.Props
import Verif.Struct.Props
import Verif.Record.Props
import Verif.Bin.Props
import Verif.Bin.RelocProps
import Verif.Bin.FixProps
import Verif.Coff.Props
import Verif.Coff.Examples
import Verif.Elf.Props
import Verif.Proc.Props3
import Verif.Elf.Examples
import Verif.Cgv2.LookupProps
import Verif.Cgv2.EncCex
import Verif.Hll.BlocksProps
import Verif.Lex.Props
import Verif.Frame.Aligned
import Verif.Assume.Props
import Verif.Loop.All
import Verif.Invoke.Examples
import Verif.Ins.Props
import Verif.Invoke64.Examples
import Verif.Ins.Push
import Verif.Switch.Examples
import Verif.Equate.Examples
import Verif.Real10.Examples
import Verif.Macho.Examples
import Verif.Call.Examples
import Verif.Call.Props
import Verif.MacroRun.Examples
import Verif.MacroRun.Props
import Verif.Cpu.Props
import Verif.Startup.Props
import Verif.TextExp.Props
import Verif.TextExp.TMacroProps
import Verif.MzHdr.Props
import Verif.SimSeg.Props
import Verif.OrgFlat.Props
import Verif.FpEmu.Props
