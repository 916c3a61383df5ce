import Verif.Model.Mos.Helpers
import Verif.Model.Mos.Isa

/-!
# `Generate` implementations: Cmp, Cpx, Cpy

`am` is the operand held by the addressing mode (`self.addressing_mode.unwrap()`).
-/

namespace Verif.Mos

open Verif

variable {B : Type} [Addressable B]

/-- `Generate for Instruction<Cmp, Absolute>`,
`src/cpu/mos6502/operations/mod.rs:2548-2567`. -/
def cmpAbsolute (b : Build) (cpu : Mos6502 B) (am : Word) : Res Operations := do
  let rhs ← dereferenceAddressToOperand b cpu am 0
  let lhs := Operand.new cpu.acc
  let carry := Operand.ge lhs rhs
  let diff := Operand.sub lhs rhs
  .ok { offset := Isa.offset .Cmp .Absolute
        cycles := Isa.cycles .Cmp .Absolute
        microcode := [
          .SetProgramStatusFlagState .Carry carry,
          .SetProgramStatusFlagState .Negative diff.negative,
          .SetProgramStatusFlagState .Zero diff.zero] }

/-- `Generate for Instruction<Cmp, AbsoluteIndexedWithX>`,
`src/cpu/mos6502/operations/mod.rs:2569-2595`. -/
def cmpAbsoluteIndexedWithX (b : Build) (cpu : Mos6502 B) (am : Word) : Res Operations := do
  let index := cpu.x
  let base_addr := am
  let indexed_addr := addIndexToAddress base_addr index
  let rhs ← dereferenceAddressToOperand b cpu indexed_addr 0
  let lhs := Operand.new cpu.acc
  let carry := Operand.ge lhs rhs
  let diff := Operand.sub lhs rhs
  let page ← Page.ofU16 b base_addr
  let addr_in_page := page.contains indexed_addr
  let branch_penalty := usizeFromBool (!addr_in_page)
  .ok { offset := Isa.offset .Cmp .AbsoluteIndexedWithX
        cycles := Isa.cycles .Cmp .AbsoluteIndexedWithX + branch_penalty
        microcode := [
          .SetProgramStatusFlagState .Carry carry,
          .SetProgramStatusFlagState .Negative diff.negative,
          .SetProgramStatusFlagState .Zero diff.zero] }

/-- `Generate for Instruction<Cmp, AbsoluteIndexedWithY>`,
`src/cpu/mos6502/operations/mod.rs:2597-2623`. -/
def cmpAbsoluteIndexedWithY (b : Build) (cpu : Mos6502 B) (am : Word) : Res Operations := do
  let index := cpu.y
  let base_addr := am
  let indexed_addr := addIndexToAddress base_addr index
  let rhs ← dereferenceAddressToOperand b cpu indexed_addr 0
  let lhs := Operand.new cpu.acc
  let carry := Operand.ge lhs rhs
  let diff := Operand.sub lhs rhs
  let page ← Page.ofU16 b base_addr
  let addr_in_page := page.contains indexed_addr
  let branch_penalty := usizeFromBool (!addr_in_page)
  .ok { offset := Isa.offset .Cmp .AbsoluteIndexedWithY
        cycles := Isa.cycles .Cmp .AbsoluteIndexedWithY + branch_penalty
        microcode := [
          .SetProgramStatusFlagState .Carry carry,
          .SetProgramStatusFlagState .Negative diff.negative,
          .SetProgramStatusFlagState .Zero diff.zero] }

/-- `Generate for Instruction<Cmp, IndirectYIndexed>`,
`src/cpu/mos6502/operations/mod.rs:2625-2651`. -/
def cmpIndirectYIndexed (b : Build) (cpu : Mos6502 B) (am : Byte) : Res Operations := do
  let index := cpu.y
  let base_addr := am
  let indirect_addr ← dereferenceIndirectIndexedAddress b cpu base_addr index
  let rhs ← dereferenceAddressToOperand b cpu indirect_addr 0
  let lhs := Operand.new cpu.acc
  let carry := Operand.ge lhs rhs
  let diff := Operand.sub lhs rhs
  let addr_in_page := (Page.ofU8 base_addr).contains indirect_addr
  let branch_penalty := usizeFromBool (!addr_in_page)
  .ok { offset := Isa.offset .Cmp .IndirectYIndexed
        cycles := Isa.cycles .Cmp .IndirectYIndexed + branch_penalty
        microcode := [
          .SetProgramStatusFlagState .Carry carry,
          .SetProgramStatusFlagState .Negative diff.negative,
          .SetProgramStatusFlagState .Zero diff.zero] }

/-- `Generate for Instruction<Cmp, Immediate>`,
`src/cpu/mos6502/operations/mod.rs:2653-2673`. -/
def cmpImmediate (_b : Build) (cpu : Mos6502 B) (am : Byte) : Res Operations := do
  let am_value := am
  let rhs := Operand.new am_value
  let lhs := Operand.new cpu.acc
  let carry := Operand.ge lhs rhs
  let diff := Operand.sub lhs rhs
  .ok { offset := Isa.offset .Cmp .Immediate
        cycles := Isa.cycles .Cmp .Immediate
        microcode := [
          .SetProgramStatusFlagState .Carry carry,
          .SetProgramStatusFlagState .Negative diff.negative,
          .SetProgramStatusFlagState .Zero diff.zero] }

/-- `Generate for Instruction<Cmp, XIndexedIndirect>`,
`src/cpu/mos6502/operations/mod.rs:2675-2697`. -/
def cmpXIndexedIndirect (b : Build) (cpu : Mos6502 B) (am : Byte) : Res Operations := do
  let index := cpu.x
  let indirect_addr ← dereferenceIndexedIndirectAddress b cpu am index
  let rhs ← dereferenceAddressToOperand b cpu indirect_addr 0
  let lhs := Operand.new cpu.acc
  let carry := Operand.ge lhs rhs
  let diff := Operand.sub lhs rhs
  .ok { offset := Isa.offset .Cmp .XIndexedIndirect
        cycles := Isa.cycles .Cmp .XIndexedIndirect
        microcode := [
          .SetProgramStatusFlagState .Carry carry,
          .SetProgramStatusFlagState .Negative diff.negative,
          .SetProgramStatusFlagState .Zero diff.zero] }

/-- `Generate for Instruction<Cmp, ZeroPage>`,
`src/cpu/mos6502/operations/mod.rs:2699-2718`. -/
def cmpZeroPage (b : Build) (cpu : Mos6502 B) (am : Byte) : Res Operations := do
  let rhs ← dereferenceAddressToOperand b cpu (u16OfU8 am) 0
  let lhs := Operand.new cpu.acc
  let carry := Operand.ge lhs rhs
  let diff := Operand.sub lhs rhs
  .ok { offset := Isa.offset .Cmp .ZeroPage
        cycles := Isa.cycles .Cmp .ZeroPage
        microcode := [
          .SetProgramStatusFlagState .Carry carry,
          .SetProgramStatusFlagState .Negative diff.negative,
          .SetProgramStatusFlagState .Zero diff.zero] }

/-- `Generate for Instruction<Cmp, ZeroPageIndexedWithX>`,
`src/cpu/mos6502/operations/mod.rs:2720-2741`. -/
def cmpZeroPageIndexedWithX (b : Build) (cpu : Mos6502 B) (am : Byte) : Res Operations := do
  let index := cpu.x
  let base_addr := addIndexToZeropageAddress am index
  let rhs ← dereferenceAddressToOperand b cpu base_addr 0
  let lhs := Operand.new cpu.acc
  let carry := Operand.ge lhs rhs
  let diff := Operand.sub lhs rhs
  .ok { offset := Isa.offset .Cmp .ZeroPageIndexedWithX
        cycles := Isa.cycles .Cmp .ZeroPageIndexedWithX
        microcode := [
          .SetProgramStatusFlagState .Carry carry,
          .SetProgramStatusFlagState .Negative diff.negative,
          .SetProgramStatusFlagState .Zero diff.zero] }

/-- `Generate for Instruction<Cpx, Absolute>`,
`src/cpu/mos6502/operations/mod.rs:2745-2764`. -/
def cpxAbsolute (b : Build) (cpu : Mos6502 B) (am : Word) : Res Operations := do
  let rhs ← dereferenceAddressToOperand b cpu am 0
  let lhs := Operand.new cpu.x
  let carry := Operand.ge lhs rhs
  let diff := Operand.sub lhs rhs
  .ok { offset := Isa.offset .Cpx .Absolute
        cycles := Isa.cycles .Cpx .Absolute
        microcode := [
          .SetProgramStatusFlagState .Carry carry,
          .SetProgramStatusFlagState .Negative diff.negative,
          .SetProgramStatusFlagState .Zero diff.zero] }

/-- `Generate for Instruction<Cpx, Immediate>`,
`src/cpu/mos6502/operations/mod.rs:2766-2786`. -/
def cpxImmediate (_b : Build) (cpu : Mos6502 B) (am : Byte) : Res Operations := do
  let am_value := am
  let rhs := Operand.new am_value
  let lhs := Operand.new cpu.x
  let carry := Operand.ge lhs rhs
  let diff := Operand.sub lhs rhs
  .ok { offset := Isa.offset .Cpx .Immediate
        cycles := Isa.cycles .Cpx .Immediate
        microcode := [
          .SetProgramStatusFlagState .Carry carry,
          .SetProgramStatusFlagState .Negative diff.negative,
          .SetProgramStatusFlagState .Zero diff.zero] }

/-- `Generate for Instruction<Cpx, ZeroPage>`,
`src/cpu/mos6502/operations/mod.rs:2788-2807`. -/
def cpxZeroPage (b : Build) (cpu : Mos6502 B) (am : Byte) : Res Operations := do
  let rhs ← dereferenceAddressToOperand b cpu (u16OfU8 am) 0
  let lhs := Operand.new cpu.x
  let carry := Operand.ge lhs rhs
  let diff := Operand.sub lhs rhs
  .ok { offset := Isa.offset .Cpx .ZeroPage
        cycles := Isa.cycles .Cpx .ZeroPage
        microcode := [
          .SetProgramStatusFlagState .Carry carry,
          .SetProgramStatusFlagState .Negative diff.negative,
          .SetProgramStatusFlagState .Zero diff.zero] }

/-- `Generate for Instruction<Cpy, Absolute>`,
`src/cpu/mos6502/operations/mod.rs:2811-2830`. -/
def cpyAbsolute (b : Build) (cpu : Mos6502 B) (am : Word) : Res Operations := do
  let rhs ← dereferenceAddressToOperand b cpu am 0
  let lhs := Operand.new cpu.y
  let carry := Operand.ge lhs rhs
  let diff := Operand.sub lhs rhs
  .ok { offset := Isa.offset .Cpy .Absolute
        cycles := Isa.cycles .Cpy .Absolute
        microcode := [
          .SetProgramStatusFlagState .Carry carry,
          .SetProgramStatusFlagState .Negative diff.negative,
          .SetProgramStatusFlagState .Zero diff.zero] }

/-- `Generate for Instruction<Cpy, Immediate>`,
`src/cpu/mos6502/operations/mod.rs:2832-2852`. -/
def cpyImmediate (_b : Build) (cpu : Mos6502 B) (am : Byte) : Res Operations := do
  let am_value := am
  let rhs := Operand.new am_value
  let lhs := Operand.new cpu.y
  let carry := Operand.ge lhs rhs
  let diff := Operand.sub lhs rhs
  .ok { offset := Isa.offset .Cpy .Immediate
        cycles := Isa.cycles .Cpy .Immediate
        microcode := [
          .SetProgramStatusFlagState .Carry carry,
          .SetProgramStatusFlagState .Negative diff.negative,
          .SetProgramStatusFlagState .Zero diff.zero] }

/-- `Generate for Instruction<Cpy, ZeroPage>`,
`src/cpu/mos6502/operations/mod.rs:2854-2873`. -/
def cpyZeroPage (b : Build) (cpu : Mos6502 B) (am : Byte) : Res Operations := do
  let rhs ← dereferenceAddressToOperand b cpu (u16OfU8 am) 0
  let lhs := Operand.new cpu.y
  let carry := Operand.ge lhs rhs
  let diff := Operand.sub lhs rhs
  .ok { offset := Isa.offset .Cpy .ZeroPage
        cycles := Isa.cycles .Cpy .ZeroPage
        microcode := [
          .SetProgramStatusFlagState .Carry carry,
          .SetProgramStatusFlagState .Negative diff.negative,
          .SetProgramStatusFlagState .Zero diff.zero] }

end Verif.Mos
