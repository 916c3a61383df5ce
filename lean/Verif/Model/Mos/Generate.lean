import Verif.Model.Mos.GenArith
import Verif.Model.Mos.GenLogic
import Verif.Model.Mos.GenShift
import Verif.Model.Mos.GenBranch
import Verif.Model.Mos.GenFlag
import Verif.Model.Mos.GenCompare
import Verif.Model.Mos.GenIncDec
import Verif.Model.Mos.GenJump
import Verif.Model.Mos.GenLoad
import Verif.Model.Mos.GenStore
import Verif.Model.Mos.GenStack
import Verif.Model.Mos.GenTransfer

/-!
# Dispatch: `Generate<Mos6502> for InstructionVariant`
-/

namespace Verif.Mos

open Verif

variable {B : Type} [Addressable B]

/-- `Generate<Mos6502> for InstructionVariant`, `src/cpu/mos6502/operations/mod.rs:338-840`. -/
def InstructionVariant.generate (b : Build) (cpu : Mos6502 B) : InstructionVariant → Res Operations
  | .AdcAbsolute am => adcAbsolute b cpu am
  | .AdcAbsoluteIndexedWithX am => adcAbsoluteIndexedWithX b cpu am
  | .AdcAbsoluteIndexedWithY am => adcAbsoluteIndexedWithY b cpu am
  | .AdcIndirectYIndexed am => adcIndirectYIndexed b cpu am
  | .AdcImmediate am => adcImmediate b cpu am
  | .AdcXIndexedIndirect am => adcXIndexedIndirect b cpu am
  | .AdcZeroPage am => adcZeroPage b cpu am
  | .AdcZeroPageIndexedWithX am => adcZeroPageIndexedWithX b cpu am
  | .SbcAbsolute am => sbcAbsolute b cpu am
  | .SbcAbsoluteIndexedWithX am => sbcAbsoluteIndexedWithX b cpu am
  | .SbcAbsoluteIndexedWithY am => sbcAbsoluteIndexedWithY b cpu am
  | .SbcIndirectYIndexed am => sbcIndirectYIndexed b cpu am
  | .SbcImmediate am => sbcImmediate b cpu am
  | .SbcXIndexedIndirect am => sbcXIndexedIndirect b cpu am
  | .SbcZeroPage am => sbcZeroPage b cpu am
  | .SbcZeroPageIndexedWithX am => sbcZeroPageIndexedWithX b cpu am
  | .AndAbsolute am => andAbsolute b cpu am
  | .AndAbsoluteIndexedWithX am => andAbsoluteIndexedWithX b cpu am
  | .AndAbsoluteIndexedWithY am => andAbsoluteIndexedWithY b cpu am
  | .AndIndirectYIndexed am => andIndirectYIndexed b cpu am
  | .AndImmediate am => andImmediate b cpu am
  | .AndXIndexedIndirect am => andXIndexedIndirect b cpu am
  | .AndZeroPage am => andZeroPage b cpu am
  | .AndZeroPageIndexedWithX am => andZeroPageIndexedWithX b cpu am
  | .AslAbsolute am => aslAbsolute b cpu am
  | .AslAbsoluteIndexedWithX am => aslAbsoluteIndexedWithX b cpu am
  | .AslAccumulator => aslAccumulator b cpu
  | .AslZeroPage am => aslZeroPage b cpu am
  | .AslZeroPageIndexedWithX am => aslZeroPageIndexedWithX b cpu am
  | .BitAbsolute am => bitAbsolute b cpu am
  | .BitZeroPage am => bitZeroPage b cpu am
  | .EorAbsolute am => eorAbsolute b cpu am
  | .EorAbsoluteIndexedWithX am => eorAbsoluteIndexedWithX b cpu am
  | .EorAbsoluteIndexedWithY am => eorAbsoluteIndexedWithY b cpu am
  | .EorIndirectYIndexed am => eorIndirectYIndexed b cpu am
  | .EorImmediate am => eorImmediate b cpu am
  | .EorXIndexedIndirect am => eorXIndexedIndirect b cpu am
  | .EorZeroPage am => eorZeroPage b cpu am
  | .EorZeroPageIndexedWithX am => eorZeroPageIndexedWithX b cpu am
  | .LsrAbsolute am => lsrAbsolute b cpu am
  | .LsrAbsoluteIndexedWithX am => lsrAbsoluteIndexedWithX b cpu am
  | .LsrAccumulator => lsrAccumulator b cpu
  | .LsrZeroPage am => lsrZeroPage b cpu am
  | .LsrZeroPageIndexedWithX am => lsrZeroPageIndexedWithX b cpu am
  | .OraAbsolute am => oraAbsolute b cpu am
  | .OraAbsoluteIndexedWithX am => oraAbsoluteIndexedWithX b cpu am
  | .OraAbsoluteIndexedWithY am => oraAbsoluteIndexedWithY b cpu am
  | .OraIndirectYIndexed am => oraIndirectYIndexed b cpu am
  | .OraImmediate am => oraImmediate b cpu am
  | .OraXIndexedIndirect am => oraXIndexedIndirect b cpu am
  | .OraZeroPage am => oraZeroPage b cpu am
  | .OraZeroPageIndexedWithX am => oraZeroPageIndexedWithX b cpu am
  | .RolAbsolute am => rolAbsolute b cpu am
  | .RolAbsoluteIndexedWithX am => rolAbsoluteIndexedWithX b cpu am
  | .RolAccumulator => rolAccumulator b cpu
  | .RolZeroPage am => rolZeroPage b cpu am
  | .RolZeroPageIndexedWithX am => rolZeroPageIndexedWithX b cpu am
  | .RorAbsolute am => rorAbsolute b cpu am
  | .RorAbsoluteIndexedWithX am => rorAbsoluteIndexedWithX b cpu am
  | .RorAccumulator => rorAccumulator b cpu
  | .RorZeroPage am => rorZeroPage b cpu am
  | .RorZeroPageIndexedWithX am => rorZeroPageIndexedWithX b cpu am
  | .BccRelative am => bccRelative b cpu am
  | .BcsRelative am => bcsRelative b cpu am
  | .BeqRelative am => beqRelative b cpu am
  | .BmiRelative am => bmiRelative b cpu am
  | .BneRelative am => bneRelative b cpu am
  | .BplRelative am => bplRelative b cpu am
  | .BvcRelative am => bvcRelative b cpu am
  | .BvsRelative am => bvsRelative b cpu am
  | .ClcImplied => clcImplied b cpu
  | .CldImplied => cldImplied b cpu
  | .CliImplied => cliImplied b cpu
  | .ClvImplied => clvImplied b cpu
  | .CmpAbsolute am => cmpAbsolute b cpu am
  | .CmpAbsoluteIndexedWithX am => cmpAbsoluteIndexedWithX b cpu am
  | .CmpAbsoluteIndexedWithY am => cmpAbsoluteIndexedWithY b cpu am
  | .CmpIndirectYIndexed am => cmpIndirectYIndexed b cpu am
  | .CmpImmediate am => cmpImmediate b cpu am
  | .CmpXIndexedIndirect am => cmpXIndexedIndirect b cpu am
  | .CmpZeroPage am => cmpZeroPage b cpu am
  | .CmpZeroPageIndexedWithX am => cmpZeroPageIndexedWithX b cpu am
  | .CpxAbsolute am => cpxAbsolute b cpu am
  | .CpxImmediate am => cpxImmediate b cpu am
  | .CpxZeroPage am => cpxZeroPage b cpu am
  | .CpyAbsolute am => cpyAbsolute b cpu am
  | .CpyImmediate am => cpyImmediate b cpu am
  | .CpyZeroPage am => cpyZeroPage b cpu am
  | .DecAbsolute am => decAbsolute b cpu am
  | .DecAbsoluteIndexedWithX am => decAbsoluteIndexedWithX b cpu am
  | .DecZeroPage am => decZeroPage b cpu am
  | .DecZeroPageIndexedWithX am => decZeroPageIndexedWithX b cpu am
  | .DexImplied => dexImplied b cpu
  | .DeyImplied => deyImplied b cpu
  | .IncAbsolute am => incAbsolute b cpu am
  | .IncAbsoluteIndexedWithX am => incAbsoluteIndexedWithX b cpu am
  | .IncZeroPage am => incZeroPage b cpu am
  | .IncZeroPageIndexedWithX am => incZeroPageIndexedWithX b cpu am
  | .InxImplied => inxImplied b cpu
  | .InyImplied => inyImplied b cpu
  | .JmpAbsolute am => jmpAbsolute b cpu am
  | .JmpIndirect am => jmpIndirect b cpu am
  | .JsrAbsolute am => jsrAbsolute b cpu am
  | .LdaImmediate am => ldaImmediate b cpu am
  | .LdaZeroPage am => ldaZeroPage b cpu am
  | .LdaZeroPageIndexedWithX am => ldaZeroPageIndexedWithX b cpu am
  | .LdaAbsolute am => ldaAbsolute b cpu am
  | .LdaAbsoluteIndexedWithX am => ldaAbsoluteIndexedWithX b cpu am
  | .LdaAbsoluteIndexedWithY am => ldaAbsoluteIndexedWithY b cpu am
  | .LdaIndirectYIndexed am => ldaIndirectYIndexed b cpu am
  | .LdaXIndexedIndirect am => ldaXIndexedIndirect b cpu am
  | .LdxAbsolute am => ldxAbsolute b cpu am
  | .LdxAbsoluteIndexedWithY am => ldxAbsoluteIndexedWithY b cpu am
  | .LdxImmediate am => ldxImmediate b cpu am
  | .LdxZeroPage am => ldxZeroPage b cpu am
  | .LdxZeroPageIndexedWithY am => ldxZeroPageIndexedWithY b cpu am
  | .LdyAbsolute am => ldyAbsolute b cpu am
  | .LdyAbsoluteIndexedWithX am => ldyAbsoluteIndexedWithX b cpu am
  | .LdyImmediate am => ldyImmediate b cpu am
  | .LdyZeroPage am => ldyZeroPage b cpu am
  | .LdyZeroPageIndexedWithX am => ldyZeroPageIndexedWithX b cpu am
  | .PhaImplied => phaImplied b cpu
  | .PhpImplied => phpImplied b cpu
  | .PlaImplied => plaImplied b cpu
  | .PlpImplied => plpImplied b cpu
  | .RtiImplied => rtiImplied b cpu
  | .RtsImplied => rtsImplied b cpu
  | .SecImplied => secImplied b cpu
  | .SedImplied => sedImplied b cpu
  | .SeiImplied => seiImplied b cpu
  | .StaAbsolute am => staAbsolute b cpu am
  | .StaAbsoluteIndexedWithX am => staAbsoluteIndexedWithX b cpu am
  | .StaAbsoluteIndexedWithY am => staAbsoluteIndexedWithY b cpu am
  | .StaIndirectYIndexed am => staIndirectYIndexed b cpu am
  | .StaXIndexedIndirect am => staXIndexedIndirect b cpu am
  | .StaZeroPage am => staZeroPage b cpu am
  | .StaZeroPageIndexedWithX am => staZeroPageIndexedWithX b cpu am
  | .StxAbsolute am => stxAbsolute b cpu am
  | .StxZeroPage am => stxZeroPage b cpu am
  | .StxZeroPageIndexedWithY am => stxZeroPageIndexedWithY b cpu am
  | .StyAbsolute am => styAbsolute b cpu am
  | .StyZeroPage am => styZeroPage b cpu am
  | .StyZeroPageIndexedWithX am => styZeroPageIndexedWithX b cpu am
  | .TaxImplied => taxImplied b cpu
  | .TayImplied => tayImplied b cpu
  | .TsxImplied => tsxImplied b cpu
  | .TxaImplied => txaImplied b cpu
  | .TxsImplied => txsImplied b cpu
  | .TyaImplied => tyaImplied b cpu
  | .BrkImplied => brkImplied b cpu
  | .NopImplied => nopImplied b cpu

end Verif.Mos
