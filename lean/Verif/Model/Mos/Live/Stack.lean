import Verif.Model.Mos.Live.Helpers
import Verif.Model.Mos.Isa

/-!
# `Generate` implementations on live devices: Pha, Php, Pla, Plp

`am` is the operand held by the addressing mode (`self.addressing_mode.unwrap()`).
-/

namespace Verif.Mos.Live

open Verif Verif.Live

/-- `Generate for Instruction<Pha, Implied>`,
`src/cpu/mos6502/operations/mod.rs:3558-3574`. -/
def phaImplied (_b : Build) (cpu : Mos6502 Copy) : Bus Operations := do
  let value := cpu.acc
  let sp := cpu.sp
  pure { offset := Isa.offset .Pha .Implied
         cycles := Isa.cycles .Pha .Implied
         microcode := [
           .WriteMemory (stackPointerFromByteValue sp) value,
           .Dec8bitRegister .Sp 1] }

/-- `Generate for Instruction<Php, Implied>`,
`src/cpu/mos6502/operations/mod.rs:3578-3594`. -/
def phpImplied (_b : Build) (cpu : Mos6502 Copy) : Bus Operations := do
  let value := cpu.ps.read
  let sp := cpu.sp
  pure { offset := Isa.offset .Php .Implied
         cycles := Isa.cycles .Php .Implied
         microcode := [
           .WriteMemory (stackPointerFromByteValue sp) value,
           .Dec8bitRegister .Sp 1] }

/-- `Generate for Instruction<Pla, Implied>`,
`src/cpu/mos6502/operations/mod.rs:3598-3616`. -/
def plaImplied (_b : Build) (cpu : Mos6502 Copy) : Bus Operations := do
  let sp := cpu.sp + 1
  let value ← dereferenceAddressToOperand cpu (stackPointerFromByteValue sp) 0
  pure { offset := Isa.offset .Pla .Implied
         cycles := Isa.cycles .Pla .Implied
         microcode := [
           .Inc8bitRegister .Sp 1,
           .SetProgramStatusFlagState .Negative value.negative,
           .SetProgramStatusFlagState .Zero value.zero,
           .Write8bitRegister .Acc value.unwrap] }

/-- `Generate for Instruction<Plp, Implied>`,
`src/cpu/mos6502/operations/mod.rs:3620-3636`. -/
def plpImplied (_b : Build) (cpu : Mos6502 Copy) : Bus Operations := do
  let sp := cpu.sp + 1
  let value ← dereferenceAddressToOperand cpu (stackPointerFromByteValue sp) 0
  pure { offset := Isa.offset .Plp .Implied
         cycles := Isa.cycles .Plp .Implied
         microcode := [
           .Inc8bitRegister .Sp 1,
           .Write8bitRegister .Ps value.unwrap] }

end Verif.Mos.Live
