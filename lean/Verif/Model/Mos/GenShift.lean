import Verif.Model.Mos.Helpers
import Verif.Model.Mos.Isa

/-!
# `Generate` implementations: Asl, Lsr, Rol, Ror

`am` is the operand held by the addressing mode (`self.addressing_mode.unwrap()`).
-/

namespace Verif.Mos

open Verif

variable {B : Type} [Addressable B]

/-- `Generate for Instruction<Asl, Absolute>`,
`src/cpu/mos6502/operations/mod.rs:1505-1523`. -/
def aslAbsolute (b : Build) (cpu : Mos6502 B) (am : Word) : Res Operations := do
  let addr := am
  let t1 ← dereferenceAddressToOperand b cpu addr 0
  let value ← Operand.shl b t1 (Operand.new 1)
  .ok { offset := Isa.offset .Asl .Absolute
        cycles := Isa.cycles .Asl .Absolute
        microcode := [
          .SetProgramStatusFlagState .Carry value.carry,
          .SetProgramStatusFlagState .Negative value.negative,
          .SetProgramStatusFlagState .Zero value.zero,
          .WriteMemory addr value.unwrap] }

/-- `Generate for Instruction<Asl, AbsoluteIndexedWithX>`,
`src/cpu/mos6502/operations/mod.rs:1525-1545`. -/
def aslAbsoluteIndexedWithX (b : Build) (cpu : Mos6502 B) (am : Word) : Res Operations := do
  let index := cpu.x
  let addr := am
  let indexed_addr := addIndexToAddress addr index
  let t1 ← dereferenceAddressToOperand b cpu addr index
  let value ← Operand.shl b t1 (Operand.new 1)
  .ok { offset := Isa.offset .Asl .AbsoluteIndexedWithX
        cycles := Isa.cycles .Asl .AbsoluteIndexedWithX
        microcode := [
          .SetProgramStatusFlagState .Carry value.carry,
          .SetProgramStatusFlagState .Negative value.negative,
          .SetProgramStatusFlagState .Zero value.zero,
          .WriteMemory indexed_addr value.unwrap] }

/-- `Generate for Instruction<Asl, Accumulator>`,
`src/cpu/mos6502/operations/mod.rs:1547-1564`. -/
def aslAccumulator (b : Build) (cpu : Mos6502 B) : Res Operations := do
  let value ← Operand.shl b (Operand.new cpu.acc) (Operand.new 1)
  .ok { offset := Isa.offset .Asl .Accumulator
        cycles := Isa.cycles .Asl .Accumulator
        microcode := [
          .SetProgramStatusFlagState .Carry value.carry,
          .SetProgramStatusFlagState .Negative value.negative,
          .SetProgramStatusFlagState .Zero value.zero,
          .Write8bitRegister .Acc value.unwrap] }

/-- `Generate for Instruction<Asl, ZeroPage>`,
`src/cpu/mos6502/operations/mod.rs:1566-1584`. -/
def aslZeroPage (b : Build) (cpu : Mos6502 B) (am : Byte) : Res Operations := do
  let addr := u16OfU8 am
  let t1 ← dereferenceAddressToOperand b cpu addr 0
  let value ← Operand.shl b t1 (Operand.new 1)
  .ok { offset := Isa.offset .Asl .ZeroPage
        cycles := Isa.cycles .Asl .ZeroPage
        microcode := [
          .SetProgramStatusFlagState .Carry value.carry,
          .SetProgramStatusFlagState .Negative value.negative,
          .SetProgramStatusFlagState .Zero value.zero,
          .WriteMemory addr value.unwrap] }

/-- `Generate for Instruction<Asl, ZeroPageIndexedWithX>`,
`src/cpu/mos6502/operations/mod.rs:1586-1605`. -/
def aslZeroPageIndexedWithX (b : Build) (cpu : Mos6502 B) (am : Byte) : Res Operations := do
  let index := cpu.x
  let indexed_addr := addIndexToZeropageAddress am index
  let t1 ← dereferenceAddressToOperand b cpu indexed_addr 0
  let value ← Operand.shl b t1 (Operand.new 1)
  .ok { offset := Isa.offset .Asl .ZeroPageIndexedWithX
        cycles := Isa.cycles .Asl .ZeroPageIndexedWithX
        microcode := [
          .SetProgramStatusFlagState .Carry value.carry,
          .SetProgramStatusFlagState .Negative value.negative,
          .SetProgramStatusFlagState .Zero value.zero,
          .WriteMemory indexed_addr value.unwrap] }

/-- `Generate for Instruction<Lsr, Absolute>`,
`src/cpu/mos6502/operations/mod.rs:1843-1861`. -/
def lsrAbsolute (b : Build) (cpu : Mos6502 B) (am : Word) : Res Operations := do
  let addr := am
  let t1 ← dereferenceAddressToOperand b cpu addr 0
  let value ← Operand.shr b t1 (Operand.new 1)
  .ok { offset := Isa.offset .Lsr .Absolute
        cycles := Isa.cycles .Lsr .Absolute
        microcode := [
          .SetProgramStatusFlagState .Carry value.carry,
          .SetProgramStatusFlagState .Negative value.negative,
          .SetProgramStatusFlagState .Zero value.zero,
          .WriteMemory addr value.unwrap] }

/-- `Generate for Instruction<Lsr, AbsoluteIndexedWithX>`,
`src/cpu/mos6502/operations/mod.rs:1863-1883`. -/
def lsrAbsoluteIndexedWithX (b : Build) (cpu : Mos6502 B) (am : Word) : Res Operations := do
  let index := cpu.x
  let addr := am
  let indexed_addr := addIndexToAddress addr index
  let t1 ← dereferenceAddressToOperand b cpu addr index
  let value ← Operand.shr b t1 (Operand.new 1)
  .ok { offset := Isa.offset .Lsr .AbsoluteIndexedWithX
        cycles := Isa.cycles .Lsr .AbsoluteIndexedWithX
        microcode := [
          .SetProgramStatusFlagState .Carry value.carry,
          .SetProgramStatusFlagState .Negative value.negative,
          .SetProgramStatusFlagState .Zero value.zero,
          .WriteMemory indexed_addr value.unwrap] }

/-- `Generate for Instruction<Lsr, Accumulator>`,
`src/cpu/mos6502/operations/mod.rs:1885-1902`. -/
def lsrAccumulator (b : Build) (cpu : Mos6502 B) : Res Operations := do
  let value ← Operand.shr b (Operand.new cpu.acc) (Operand.new 1)
  .ok { offset := Isa.offset .Lsr .Accumulator
        cycles := Isa.cycles .Lsr .Accumulator
        microcode := [
          .SetProgramStatusFlagState .Carry value.carry,
          .SetProgramStatusFlagState .Negative value.negative,
          .SetProgramStatusFlagState .Zero value.zero,
          .Write8bitRegister .Acc value.unwrap] }

/-- `Generate for Instruction<Lsr, ZeroPage>`,
`src/cpu/mos6502/operations/mod.rs:1904-1922`. -/
def lsrZeroPage (b : Build) (cpu : Mos6502 B) (am : Byte) : Res Operations := do
  let addr := u16OfU8 am
  let t1 ← dereferenceAddressToOperand b cpu addr 0
  let value ← Operand.shr b t1 (Operand.new 1)
  .ok { offset := Isa.offset .Lsr .ZeroPage
        cycles := Isa.cycles .Lsr .ZeroPage
        microcode := [
          .SetProgramStatusFlagState .Carry value.carry,
          .SetProgramStatusFlagState .Negative value.negative,
          .SetProgramStatusFlagState .Zero value.zero,
          .WriteMemory addr value.unwrap] }

/-- `Generate for Instruction<Lsr, ZeroPageIndexedWithX>`,
`src/cpu/mos6502/operations/mod.rs:1924-1943`. -/
def lsrZeroPageIndexedWithX (b : Build) (cpu : Mos6502 B) (am : Byte) : Res Operations := do
  let index := cpu.x
  let indexed_addr := addIndexToZeropageAddress am index
  let t1 ← dereferenceAddressToOperand b cpu indexed_addr 0
  let value ← Operand.shr b t1 (Operand.new 1)
  .ok { offset := Isa.offset .Lsr .ZeroPageIndexedWithX
        cycles := Isa.cycles .Lsr .ZeroPageIndexedWithX
        microcode := [
          .SetProgramStatusFlagState .Carry value.carry,
          .SetProgramStatusFlagState .Negative value.negative,
          .SetProgramStatusFlagState .Zero value.zero,
          .WriteMemory indexed_addr value.unwrap] }

/-- `Generate for Instruction<Rol, Absolute>`,
`src/cpu/mos6502/operations/mod.rs:2134-2153`. -/
def rolAbsolute (b : Build) (cpu : Mos6502 B) (am : Word) : Res Operations := do
  let addr := am
  let lhs ← dereferenceAddressToOperand b cpu addr 0
  let value ← Operand.rol b lhs (Operand.new 1) cpu.ps.carry
  .ok { offset := Isa.offset .Rol .Absolute
        cycles := Isa.cycles .Rol .Absolute
        microcode := [
          .SetProgramStatusFlagState .Carry value.carry,
          .SetProgramStatusFlagState .Negative value.negative,
          .SetProgramStatusFlagState .Zero value.zero,
          .WriteMemory addr value.unwrap] }

/-- `Generate for Instruction<Rol, AbsoluteIndexedWithX>`,
`src/cpu/mos6502/operations/mod.rs:2155-2176`. -/
def rolAbsoluteIndexedWithX (b : Build) (cpu : Mos6502 B) (am : Word) : Res Operations := do
  let index := cpu.x
  let addr := am
  let indexed_addr := addIndexToAddress addr index
  let lhs ← dereferenceAddressToOperand b cpu addr index
  let value ← Operand.rol b lhs (Operand.new 1) cpu.ps.carry
  .ok { offset := Isa.offset .Rol .AbsoluteIndexedWithX
        cycles := Isa.cycles .Rol .AbsoluteIndexedWithX
        microcode := [
          .SetProgramStatusFlagState .Carry value.carry,
          .SetProgramStatusFlagState .Negative value.negative,
          .SetProgramStatusFlagState .Zero value.zero,
          .WriteMemory indexed_addr value.unwrap] }

/-- `Generate for Instruction<Rol, Accumulator>`,
`src/cpu/mos6502/operations/mod.rs:2178-2195`. -/
def rolAccumulator (b : Build) (cpu : Mos6502 B) : Res Operations := do
  let value ← Operand.rol b (Operand.new cpu.acc) (Operand.new 1) cpu.ps.carry
  .ok { offset := Isa.offset .Rol .Accumulator
        cycles := Isa.cycles .Rol .Accumulator
        microcode := [
          .SetProgramStatusFlagState .Carry value.carry,
          .SetProgramStatusFlagState .Negative value.negative,
          .SetProgramStatusFlagState .Zero value.zero,
          .Write8bitRegister .Acc value.unwrap] }

/-- `Generate for Instruction<Rol, ZeroPage>`,
`src/cpu/mos6502/operations/mod.rs:2197-2216`. -/
def rolZeroPage (b : Build) (cpu : Mos6502 B) (am : Byte) : Res Operations := do
  let addr := u16OfU8 am
  let lhs ← dereferenceAddressToOperand b cpu addr 0
  let value ← Operand.rol b lhs (Operand.new 1) cpu.ps.carry
  .ok { offset := Isa.offset .Rol .ZeroPage
        cycles := Isa.cycles .Rol .ZeroPage
        microcode := [
          .SetProgramStatusFlagState .Carry value.carry,
          .SetProgramStatusFlagState .Negative value.negative,
          .SetProgramStatusFlagState .Zero value.zero,
          .WriteMemory addr value.unwrap] }

/-- `Generate for Instruction<Rol, ZeroPageIndexedWithX>`,
`src/cpu/mos6502/operations/mod.rs:2218-2238`. -/
def rolZeroPageIndexedWithX (b : Build) (cpu : Mos6502 B) (am : Byte) : Res Operations := do
  let index := cpu.x
  let indexed_addr := addIndexToZeropageAddress am index
  let lhs ← dereferenceAddressToOperand b cpu indexed_addr 0
  let value ← Operand.rol b lhs (Operand.new 1) cpu.ps.carry
  .ok { offset := Isa.offset .Rol .ZeroPageIndexedWithX
        cycles := Isa.cycles .Rol .ZeroPageIndexedWithX
        microcode := [
          .SetProgramStatusFlagState .Carry value.carry,
          .SetProgramStatusFlagState .Negative value.negative,
          .SetProgramStatusFlagState .Zero value.zero,
          .WriteMemory indexed_addr value.unwrap] }

/-- `Generate for Instruction<Ror, Absolute>`,
`src/cpu/mos6502/operations/mod.rs:2242-2261`. -/
def rorAbsolute (b : Build) (cpu : Mos6502 B) (am : Word) : Res Operations := do
  let addr := am
  let t1 ← dereferenceAddressToOperand b cpu addr 0
  let value ← Operand.ror b t1 (Operand.new 1) cpu.ps.carry
  .ok { offset := Isa.offset .Ror .Absolute
        cycles := Isa.cycles .Ror .Absolute
        microcode := [
          .SetProgramStatusFlagState .Carry value.carry,
          .SetProgramStatusFlagState .Negative value.negative,
          .SetProgramStatusFlagState .Zero value.zero,
          .WriteMemory addr value.unwrap] }

/-- `Generate for Instruction<Ror, AbsoluteIndexedWithX>`,
`src/cpu/mos6502/operations/mod.rs:2263-2284`. -/
def rorAbsoluteIndexedWithX (b : Build) (cpu : Mos6502 B) (am : Word) : Res Operations := do
  let index := cpu.x
  let addr := am
  let indexed_addr := addIndexToAddress addr index
  let t1 ← dereferenceAddressToOperand b cpu addr index
  let value ← Operand.ror b t1 (Operand.new 1) cpu.ps.carry
  .ok { offset := Isa.offset .Ror .AbsoluteIndexedWithX
        cycles := Isa.cycles .Ror .AbsoluteIndexedWithX
        microcode := [
          .SetProgramStatusFlagState .Carry value.carry,
          .SetProgramStatusFlagState .Negative value.negative,
          .SetProgramStatusFlagState .Zero value.zero,
          .WriteMemory indexed_addr value.unwrap] }

/-- `Generate for Instruction<Ror, Accumulator>`,
`src/cpu/mos6502/operations/mod.rs:2286-2303`. -/
def rorAccumulator (b : Build) (cpu : Mos6502 B) : Res Operations := do
  let value ← Operand.ror b (Operand.new cpu.acc) (Operand.new 1) cpu.ps.carry
  .ok { offset := Isa.offset .Ror .Accumulator
        cycles := Isa.cycles .Ror .Accumulator
        microcode := [
          .SetProgramStatusFlagState .Carry value.carry,
          .SetProgramStatusFlagState .Negative value.negative,
          .SetProgramStatusFlagState .Zero value.zero,
          .Write8bitRegister .Acc value.unwrap] }

/-- `Generate for Instruction<Ror, ZeroPage>`,
`src/cpu/mos6502/operations/mod.rs:2305-2324`. -/
def rorZeroPage (b : Build) (cpu : Mos6502 B) (am : Byte) : Res Operations := do
  let addr := u16OfU8 am
  let t1 ← dereferenceAddressToOperand b cpu addr 0
  let value ← Operand.ror b t1 (Operand.new 1) cpu.ps.carry
  .ok { offset := Isa.offset .Ror .ZeroPage
        cycles := Isa.cycles .Ror .ZeroPage
        microcode := [
          .SetProgramStatusFlagState .Carry value.carry,
          .SetProgramStatusFlagState .Negative value.negative,
          .SetProgramStatusFlagState .Zero value.zero,
          .WriteMemory addr value.unwrap] }

/-- `Generate for Instruction<Ror, ZeroPageIndexedWithX>`,
`src/cpu/mos6502/operations/mod.rs:2326-2346`. -/
def rorZeroPageIndexedWithX (b : Build) (cpu : Mos6502 B) (am : Byte) : Res Operations := do
  let index := cpu.x
  let indexed_addr := addIndexToZeropageAddress am index
  let t1 ← dereferenceAddressToOperand b cpu indexed_addr 0
  let value ← Operand.ror b t1 (Operand.new 1) cpu.ps.carry
  .ok { offset := Isa.offset .Ror .ZeroPageIndexedWithX
        cycles := Isa.cycles .Ror .ZeroPageIndexedWithX
        microcode := [
          .SetProgramStatusFlagState .Carry value.carry,
          .SetProgramStatusFlagState .Negative value.negative,
          .SetProgramStatusFlagState .Zero value.zero,
          .WriteMemory indexed_addr value.unwrap] }

end Verif.Mos
