import Verif.Model.Mos.Helpers
import Verif.Model.Mos.Isa

/-!
# `Generate` implementations: Sta, Stx, Sty

`am` is the operand held by the addressing mode (`self.addressing_mode.unwrap()`).
-/

namespace Verif.Mos

open Verif

variable {B : Type} [Addressable B]

/-- `Generate for Instruction<Sta, Absolute>`,
`src/cpu/mos6502/operations/mod.rs:3745-3757`. -/
def staAbsolute (_b : Build) (cpu : Mos6502 B) (am : Word) : Res Operations := do
  let addr := am
  let acc_val := cpu.acc
  .ok { offset := Isa.offset .Sta .Absolute
        cycles := Isa.cycles .Sta .Absolute
        microcode := [
          .WriteMemory addr acc_val] }

/-- `Generate for Instruction<Sta, AbsoluteIndexedWithX>`,
`src/cpu/mos6502/operations/mod.rs:3759-3772`. -/
def staAbsoluteIndexedWithX (_b : Build) (cpu : Mos6502 B) (am : Word) : Res Operations := do
  let index := cpu.x
  let indexed_addr := addIndexToAddress am index
  let acc_val := cpu.acc
  .ok { offset := Isa.offset .Sta .AbsoluteIndexedWithX
        cycles := Isa.cycles .Sta .AbsoluteIndexedWithX
        microcode := [
          .WriteMemory indexed_addr acc_val] }

/-- `Generate for Instruction<Sta, AbsoluteIndexedWithY>`,
`src/cpu/mos6502/operations/mod.rs:3774-3788`. -/
def staAbsoluteIndexedWithY (_b : Build) (cpu : Mos6502 B) (am : Word) : Res Operations := do
  let index := cpu.y
  let indexed_addr := addIndexToAddress am index
  let acc_val := cpu.acc
  .ok { offset := Isa.offset .Sta .AbsoluteIndexedWithY
        cycles := Isa.cycles .Sta .AbsoluteIndexedWithY
        microcode := [
          .WriteMemory indexed_addr acc_val] }

/-- `Generate for Instruction<Sta, IndirectYIndexed>`,
`src/cpu/mos6502/operations/mod.rs:3790-3803`. -/
def staIndirectYIndexed (b : Build) (cpu : Mos6502 B) (am : Byte) : Res Operations := do
  let indirect_addr ← dereferenceIndirectIndexedAddress b cpu am cpu.y
  let acc_val := cpu.acc
  .ok { offset := Isa.offset .Sta .IndirectYIndexed
        cycles := Isa.cycles .Sta .IndirectYIndexed
        microcode := [
          .WriteMemory indirect_addr acc_val] }

/-- `Generate for Instruction<Sta, XIndexedIndirect>`,
`src/cpu/mos6502/operations/mod.rs:3805-3818`. -/
def staXIndexedIndirect (b : Build) (cpu : Mos6502 B) (am : Byte) : Res Operations := do
  let indirect_addr ← dereferenceIndexedIndirectAddress b cpu am cpu.x
  let acc_val := cpu.acc
  .ok { offset := Isa.offset .Sta .XIndexedIndirect
        cycles := Isa.cycles .Sta .XIndexedIndirect
        microcode := [
          .WriteMemory indirect_addr acc_val] }

/-- `Generate for Instruction<Sta, ZeroPage>`,
`src/cpu/mos6502/operations/mod.rs:3820-3833`. -/
def staZeroPage (_b : Build) (cpu : Mos6502 B) (am : Byte) : Res Operations := do
  let addr := u16OfU8 am
  let acc_val := cpu.acc
  .ok { offset := Isa.offset .Sta .ZeroPage
        cycles := Isa.cycles .Sta .ZeroPage
        microcode := [
          .WriteMemory addr acc_val] }

/-- `Generate for Instruction<Sta, ZeroPageIndexedWithX>`,
`src/cpu/mos6502/operations/mod.rs:3835-3849`. -/
def staZeroPageIndexedWithX (_b : Build) (cpu : Mos6502 B) (am : Byte) : Res Operations := do
  let index := cpu.x
  let indexed_addr := addIndexToZeropageAddress am index
  let acc_val := cpu.acc
  .ok { offset := Isa.offset .Sta .ZeroPageIndexedWithX
        cycles := Isa.cycles .Sta .ZeroPageIndexedWithX
        microcode := [
          .WriteMemory indexed_addr acc_val] }

/-- `Generate for Instruction<Stx, Absolute>`,
`src/cpu/mos6502/operations/mod.rs:3853-3865`. -/
def stxAbsolute (_b : Build) (cpu : Mos6502 B) (am : Word) : Res Operations := do
  let addr := am
  let value := cpu.x
  .ok { offset := Isa.offset .Stx .Absolute
        cycles := Isa.cycles .Stx .Absolute
        microcode := [
          .WriteMemory addr value] }

/-- `Generate for Instruction<Stx, ZeroPage>`,
`src/cpu/mos6502/operations/mod.rs:3867-3880`. -/
def stxZeroPage (_b : Build) (cpu : Mos6502 B) (am : Byte) : Res Operations := do
  let addr := u16OfU8 am
  let value := cpu.x
  .ok { offset := Isa.offset .Stx .ZeroPage
        cycles := Isa.cycles .Stx .ZeroPage
        microcode := [
          .WriteMemory addr value] }

/-- `Generate for Instruction<Stx, ZeroPageIndexedWithY>`,
`src/cpu/mos6502/operations/mod.rs:3882-3896`. -/
def stxZeroPageIndexedWithY (_b : Build) (cpu : Mos6502 B) (am : Byte) : Res Operations := do
  let index := cpu.y
  let indexed_addr := addIndexToZeropageAddress am index
  let value := cpu.x
  .ok { offset := Isa.offset .Stx .ZeroPageIndexedWithY
        cycles := Isa.cycles .Stx .ZeroPageIndexedWithY
        microcode := [
          .WriteMemory indexed_addr value] }

/-- `Generate for Instruction<Sty, Absolute>`,
`src/cpu/mos6502/operations/mod.rs:3900-3912`. -/
def styAbsolute (_b : Build) (cpu : Mos6502 B) (am : Word) : Res Operations := do
  let addr := am
  let value := cpu.y
  .ok { offset := Isa.offset .Sty .Absolute
        cycles := Isa.cycles .Sty .Absolute
        microcode := [
          .WriteMemory addr value] }

/-- `Generate for Instruction<Sty, ZeroPage>`,
`src/cpu/mos6502/operations/mod.rs:3914-3927`. -/
def styZeroPage (_b : Build) (cpu : Mos6502 B) (am : Byte) : Res Operations := do
  let addr := u16OfU8 am
  let value := cpu.y
  .ok { offset := Isa.offset .Sty .ZeroPage
        cycles := Isa.cycles .Sty .ZeroPage
        microcode := [
          .WriteMemory addr value] }

/-- `Generate for Instruction<Sty, ZeroPageIndexedWithX>`,
`src/cpu/mos6502/operations/mod.rs:3929-3943`. -/
def styZeroPageIndexedWithX (_b : Build) (cpu : Mos6502 B) (am : Byte) : Res Operations := do
  let index := cpu.x
  let indexed_addr := addIndexToZeropageAddress am index
  let value := cpu.y
  .ok { offset := Isa.offset .Sty .ZeroPageIndexedWithX
        cycles := Isa.cycles .Sty .ZeroPageIndexedWithX
        microcode := [
          .WriteMemory indexed_addr value] }

end Verif.Mos
