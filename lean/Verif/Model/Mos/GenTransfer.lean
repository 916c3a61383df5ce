import Verif.Model.Mos.Helpers
import Verif.Model.Mos.Isa

/-!
# `Generate` implementations: Tax, Tay, Tsx, Txa, Txs, Tya

`am` is the operand held by the addressing mode (`self.addressing_mode.unwrap()`).
-/

namespace Verif.Mos

open Verif

variable {B : Type} [Addressable B]

/-- `Generate for Instruction<Tax, Implied>`,
`src/cpu/mos6502/operations/mod.rs:3947-3963`. -/
def taxImplied (_b : Build) (cpu : Mos6502 B) : Res Operations := do
  let value := Operand.new cpu.acc
  .ok { offset := Isa.offset .Tax .Implied
        cycles := Isa.cycles .Tax .Implied
        microcode := [
          .SetProgramStatusFlagState .Negative value.negative,
          .SetProgramStatusFlagState .Zero value.zero,
          .Write8bitRegister .X value.unwrap] }

/-- `Generate for Instruction<Tay, Implied>`,
`src/cpu/mos6502/operations/mod.rs:3967-3983`. -/
def tayImplied (_b : Build) (cpu : Mos6502 B) : Res Operations := do
  let value := Operand.new cpu.acc
  .ok { offset := Isa.offset .Tay .Implied
        cycles := Isa.cycles .Tay .Implied
        microcode := [
          .SetProgramStatusFlagState .Negative value.negative,
          .SetProgramStatusFlagState .Zero value.zero,
          .Write8bitRegister .Y value.unwrap] }

/-- `Generate for Instruction<Tsx, Implied>`,
`src/cpu/mos6502/operations/mod.rs:3987-4003`. -/
def tsxImplied (_b : Build) (cpu : Mos6502 B) : Res Operations := do
  let value := Operand.new cpu.sp
  .ok { offset := Isa.offset .Tsx .Implied
        cycles := Isa.cycles .Tsx .Implied
        microcode := [
          .SetProgramStatusFlagState .Negative value.negative,
          .SetProgramStatusFlagState .Zero value.zero,
          .Write8bitRegister .X value.unwrap] }

/-- `Generate for Instruction<Txa, Implied>`,
`src/cpu/mos6502/operations/mod.rs:4007-4023`. -/
def txaImplied (_b : Build) (cpu : Mos6502 B) : Res Operations := do
  let value := Operand.new cpu.x
  .ok { offset := Isa.offset .Txa .Implied
        cycles := Isa.cycles .Txa .Implied
        microcode := [
          .SetProgramStatusFlagState .Negative value.negative,
          .SetProgramStatusFlagState .Zero value.zero,
          .Write8bitRegister .Acc value.unwrap] }

/-- `Generate for Instruction<Txs, Implied>`,
`src/cpu/mos6502/operations/mod.rs:4027-4042`. -/
def txsImplied (_b : Build) (cpu : Mos6502 B) : Res Operations := do
  let value := Operand.new cpu.x
  .ok { offset := Isa.offset .Txs .Implied
        cycles := Isa.cycles .Txs .Implied
        microcode := [
          .Write8bitRegister .Sp value.unwrap] }

/-- `Generate for Instruction<Tya, Implied>`,
`src/cpu/mos6502/operations/mod.rs:4046-4062`. -/
def tyaImplied (_b : Build) (cpu : Mos6502 B) : Res Operations := do
  let value := Operand.new cpu.y
  .ok { offset := Isa.offset .Tya .Implied
        cycles := Isa.cycles .Tya .Implied
        microcode := [
          .SetProgramStatusFlagState .Negative value.negative,
          .SetProgramStatusFlagState .Zero value.zero,
          .Write8bitRegister .Acc value.unwrap] }

end Verif.Mos
