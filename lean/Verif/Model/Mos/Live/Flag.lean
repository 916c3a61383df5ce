import Verif.Model.Mos.Live.Helpers
import Verif.Model.Mos.Isa

/-!
# `Generate` implementations on live devices: Clc, Cld, Cli, Clv, Sec, Sed, Sei

`am` is the operand held by the addressing mode (`self.addressing_mode.unwrap()`).
-/

namespace Verif.Mos.Live

open Verif Verif.Live

/-- `Generate for Instruction<Clc, Implied>`,
`src/cpu/mos6502/operations/mod.rs:2480-2493`. -/
def clcImplied (_b : Build) (_cpu : Mos6502 Copy) : Bus Operations := do
  pure { offset := Isa.offset .Clc .Implied
         cycles := Isa.cycles .Clc .Implied
         microcode := [
           .SetProgramStatusFlagState .Carry false] }

/-- `Generate for Instruction<Cld, Implied>`,
`src/cpu/mos6502/operations/mod.rs:2497-2510`. -/
def cldImplied (_b : Build) (_cpu : Mos6502 Copy) : Bus Operations := do
  pure { offset := Isa.offset .Cld .Implied
         cycles := Isa.cycles .Cld .Implied
         microcode := [
           .SetProgramStatusFlagState .Decimal false] }

/-- `Generate for Instruction<Cli, Implied>`,
`src/cpu/mos6502/operations/mod.rs:2514-2527`. -/
def cliImplied (_b : Build) (_cpu : Mos6502 Copy) : Bus Operations := do
  pure { offset := Isa.offset .Cli .Implied
         cycles := Isa.cycles .Cli .Implied
         microcode := [
           .SetProgramStatusFlagState .Interrupt false] }

/-- `Generate for Instruction<Clv, Implied>`,
`src/cpu/mos6502/operations/mod.rs:2531-2544`. -/
def clvImplied (_b : Build) (_cpu : Mos6502 Copy) : Bus Operations := do
  pure { offset := Isa.offset .Clv .Implied
         cycles := Isa.cycles .Clv .Implied
         microcode := [
           .SetProgramStatusFlagState .Overflow false] }

/-- `Generate for Instruction<Sec, Implied>`,
`src/cpu/mos6502/operations/mod.rs:3694-3707`. -/
def secImplied (_b : Build) (_cpu : Mos6502 Copy) : Bus Operations := do
  pure { offset := Isa.offset .Sec .Implied
         cycles := Isa.cycles .Sec .Implied
         microcode := [
           .SetProgramStatusFlagState .Carry true] }

/-- `Generate for Instruction<Sed, Implied>`,
`src/cpu/mos6502/operations/mod.rs:3711-3724`. -/
def sedImplied (_b : Build) (_cpu : Mos6502 Copy) : Bus Operations := do
  pure { offset := Isa.offset .Sed .Implied
         cycles := Isa.cycles .Sed .Implied
         microcode := [
           .SetProgramStatusFlagState .Decimal true] }

/-- `Generate for Instruction<Sei, Implied>`,
`src/cpu/mos6502/operations/mod.rs:3728-3741`. -/
def seiImplied (_b : Build) (_cpu : Mos6502 Copy) : Bus Operations := do
  pure { offset := Isa.offset .Sei .Implied
         cycles := Isa.cycles .Sei .Implied
         microcode := [
           .SetProgramStatusFlagState .Interrupt true] }

end Verif.Mos.Live
