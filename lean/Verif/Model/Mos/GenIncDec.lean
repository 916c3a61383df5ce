import Verif.Model.Mos.Helpers
import Verif.Model.Mos.Isa

/-!
# `Generate` implementations: Dec, Dex, Dey, Inc, Inx, Iny

`am` is the operand held by the addressing mode (`self.addressing_mode.unwrap()`).
-/

namespace Verif.Mos

open Verif

variable {B : Type} [Addressable B]

/-- `Generate for Instruction<Dec, Absolute>`,
`src/cpu/mos6502/operations/mod.rs:2877-2894`. -/
def decAbsolute (b : Build) (cpu : Mos6502 B) (am : Word) : Res Operations := do
  let addr := am
  let t1 ← dereferenceAddressToOperand b cpu addr 0
  let value := Operand.sub t1 (Operand.new 1)
  .ok { offset := Isa.offset .Dec .Absolute
        cycles := Isa.cycles .Dec .Absolute
        microcode := [
          .SetProgramStatusFlagState .Negative value.negative,
          .SetProgramStatusFlagState .Zero value.zero,
          .WriteMemory addr value.unwrap] }

/-- `Generate for Instruction<Dec, AbsoluteIndexedWithX>`,
`src/cpu/mos6502/operations/mod.rs:2896-2915`. -/
def decAbsoluteIndexedWithX (b : Build) (cpu : Mos6502 B) (am : Word) : Res Operations := do
  let index := cpu.x
  let addr := am
  let indexed_addr := addIndexToAddress addr index
  let t1 ← dereferenceAddressToOperand b cpu indexed_addr 0
  let value := Operand.sub t1 (Operand.new 1)
  .ok { offset := Isa.offset .Dec .AbsoluteIndexedWithX
        cycles := Isa.cycles .Dec .AbsoluteIndexedWithX
        microcode := [
          .SetProgramStatusFlagState .Negative value.negative,
          .SetProgramStatusFlagState .Zero value.zero,
          .WriteMemory indexed_addr value.unwrap] }

/-- `Generate for Instruction<Dec, ZeroPage>`,
`src/cpu/mos6502/operations/mod.rs:2917-2934`. -/
def decZeroPage (b : Build) (cpu : Mos6502 B) (am : Byte) : Res Operations := do
  let addr := u16OfU8 am
  let t1 ← dereferenceAddressToOperand b cpu addr 0
  let value := Operand.sub t1 (Operand.new 1)
  .ok { offset := Isa.offset .Dec .ZeroPage
        cycles := Isa.cycles .Dec .ZeroPage
        microcode := [
          .SetProgramStatusFlagState .Negative value.negative,
          .SetProgramStatusFlagState .Zero value.zero,
          .WriteMemory addr value.unwrap] }

/-- `Generate for Instruction<Dec, ZeroPageIndexedWithX>`,
`src/cpu/mos6502/operations/mod.rs:2936-2955`. -/
def decZeroPageIndexedWithX (b : Build) (cpu : Mos6502 B) (am : Byte) : Res Operations := do
  let index := cpu.x
  let addr := am
  let indexed_addr := addIndexToZeropageAddress addr index
  let t1 ← dereferenceAddressToOperand b cpu indexed_addr 0
  let value := Operand.sub t1 (Operand.new 1)
  .ok { offset := Isa.offset .Dec .ZeroPageIndexedWithX
        cycles := Isa.cycles .Dec .ZeroPageIndexedWithX
        microcode := [
          .SetProgramStatusFlagState .Negative value.negative,
          .SetProgramStatusFlagState .Zero value.zero,
          .WriteMemory indexed_addr value.unwrap] }

/-- `Generate for Instruction<Dex, Implied>`,
`src/cpu/mos6502/operations/mod.rs:2959-2975`. -/
def dexImplied (_b : Build) (cpu : Mos6502 B) : Res Operations := do
  let value := Operand.sub (Operand.new cpu.x) (Operand.new 1)
  .ok { offset := Isa.offset .Dex .Implied
        cycles := Isa.cycles .Dex .Implied
        microcode := [
          .SetProgramStatusFlagState .Negative value.negative,
          .SetProgramStatusFlagState .Zero value.zero,
          .Dec8bitRegister .X 1] }

/-- `Generate for Instruction<Dey, Implied>`,
`src/cpu/mos6502/operations/mod.rs:2979-2995`. -/
def deyImplied (_b : Build) (cpu : Mos6502 B) : Res Operations := do
  let value := Operand.sub (Operand.new cpu.x) (Operand.new 1)
  .ok { offset := Isa.offset .Dey .Implied
        cycles := Isa.cycles .Dey .Implied
        microcode := [
          .SetProgramStatusFlagState .Negative value.negative,
          .SetProgramStatusFlagState .Zero value.zero,
          .Dec8bitRegister .Y 1] }

/-- `Generate for Instruction<Inc, Absolute>`,
`src/cpu/mos6502/operations/mod.rs:2999-3016`. -/
def incAbsolute (b : Build) (cpu : Mos6502 B) (am : Word) : Res Operations := do
  let addr := am
  let t1 ← dereferenceAddressToOperand b cpu addr 0
  let value := Operand.add t1 (Operand.new 1)
  .ok { offset := Isa.offset .Inc .Absolute
        cycles := Isa.cycles .Inc .Absolute
        microcode := [
          .SetProgramStatusFlagState .Negative value.negative,
          .SetProgramStatusFlagState .Zero value.zero,
          .WriteMemory addr value.unwrap] }

/-- `Generate for Instruction<Inc, AbsoluteIndexedWithX>`,
`src/cpu/mos6502/operations/mod.rs:3018-3037`. -/
def incAbsoluteIndexedWithX (b : Build) (cpu : Mos6502 B) (am : Word) : Res Operations := do
  let index := cpu.x
  let addr := am
  let indexed_addr := addIndexToAddress addr index
  let t1 ← dereferenceAddressToOperand b cpu indexed_addr 0
  let value := Operand.add t1 (Operand.new 1)
  .ok { offset := Isa.offset .Inc .AbsoluteIndexedWithX
        cycles := Isa.cycles .Inc .AbsoluteIndexedWithX
        microcode := [
          .SetProgramStatusFlagState .Negative value.negative,
          .SetProgramStatusFlagState .Zero value.zero,
          .WriteMemory indexed_addr value.unwrap] }

/-- `Generate for Instruction<Inc, ZeroPage>`,
`src/cpu/mos6502/operations/mod.rs:3039-3056`. -/
def incZeroPage (b : Build) (cpu : Mos6502 B) (am : Byte) : Res Operations := do
  let addr := u16OfU8 am
  let t1 ← dereferenceAddressToOperand b cpu addr 0
  let value := Operand.add t1 (Operand.new 1)
  .ok { offset := Isa.offset .Inc .ZeroPage
        cycles := Isa.cycles .Inc .ZeroPage
        microcode := [
          .SetProgramStatusFlagState .Negative value.negative,
          .SetProgramStatusFlagState .Zero value.zero,
          .WriteMemory addr value.unwrap] }

/-- `Generate for Instruction<Inc, ZeroPageIndexedWithX>`,
`src/cpu/mos6502/operations/mod.rs:3058-3077`. -/
def incZeroPageIndexedWithX (b : Build) (cpu : Mos6502 B) (am : Byte) : Res Operations := do
  let index := cpu.x
  let addr := am
  let indexed_addr := addIndexToZeropageAddress addr index
  let t1 ← dereferenceAddressToOperand b cpu indexed_addr 0
  let value := Operand.add t1 (Operand.new 1)
  .ok { offset := Isa.offset .Inc .ZeroPageIndexedWithX
        cycles := Isa.cycles .Inc .ZeroPageIndexedWithX
        microcode := [
          .SetProgramStatusFlagState .Negative value.negative,
          .SetProgramStatusFlagState .Zero value.zero,
          .WriteMemory indexed_addr value.unwrap] }

/-- `Generate for Instruction<Inx, Implied>`,
`src/cpu/mos6502/operations/mod.rs:3081-3097`. -/
def inxImplied (_b : Build) (cpu : Mos6502 B) : Res Operations := do
  let value := Operand.add (Operand.new cpu.x) (Operand.new 1)
  .ok { offset := Isa.offset .Inx .Implied
        cycles := Isa.cycles .Inx .Implied
        microcode := [
          .SetProgramStatusFlagState .Negative value.negative,
          .SetProgramStatusFlagState .Zero value.zero,
          .Write8bitRegister .X value.unwrap] }

/-- `Generate for Instruction<Iny, Implied>`,
`src/cpu/mos6502/operations/mod.rs:3101-3117`. -/
def inyImplied (_b : Build) (cpu : Mos6502 B) : Res Operations := do
  let value := Operand.add (Operand.new cpu.y) (Operand.new 1)
  .ok { offset := Isa.offset .Iny .Implied
        cycles := Isa.cycles .Iny .Implied
        microcode := [
          .SetProgramStatusFlagState .Negative value.negative,
          .SetProgramStatusFlagState .Zero value.zero,
          .Write8bitRegister .Y value.unwrap] }

end Verif.Mos
