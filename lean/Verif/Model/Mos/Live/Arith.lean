import Verif.Model.Mos.Live.Helpers
import Verif.Model.Mos.Isa

/-!
# `Generate` implementations on live devices: Adc, Sbc

`am` is the operand held by the addressing mode (`self.addressing_mode.unwrap()`).
-/

namespace Verif.Mos.Live

open Verif Verif.Live

/-- `Generate for Instruction<Adc, Absolute>`,
`src/cpu/mos6502/operations/mod.rs:880-902`. -/
def adcAbsolute (_b : Build) (cpu : Mos6502 Copy) (am : Word) : Bus Operations := do
  let lhs := Operand.new cpu.acc
  let rhs ← dereferenceAddressToOperand cpu am 0
  let (value, overflow) := Operand.twosComplementAdd lhs rhs cpu.ps.carry
  pure { offset := Isa.offset .Adc .Absolute
         cycles := Isa.cycles .Adc .Absolute
         microcode := [
           .SetProgramStatusFlagState .Carry value.carry,
           .SetProgramStatusFlagState .Negative value.negative,
           .SetProgramStatusFlagState .Overflow overflow,
           .SetProgramStatusFlagState .Zero value.zero,
           .Write8bitRegister .Acc value.unwrap] }

/-- `Generate for Instruction<Adc, AbsoluteIndexedWithX>`,
`src/cpu/mos6502/operations/mod.rs:904-932`. -/
def adcAbsoluteIndexedWithX (b : Build) (cpu : Mos6502 Copy) (am : Word) : Bus Operations := do
  let addr := am
  let indexed_addr := addIndexToAddress addr cpu.x
  let lhs := Operand.new cpu.acc
  let rhs ← dereferenceAddressToOperand cpu indexed_addr 0
  let (value, overflow) := Operand.twosComplementAdd lhs rhs cpu.ps.carry
  let page ← Page.ofU16 b addr
  let addr_in_page := page.contains indexed_addr
  let branch_penalty := usizeFromBool (!addr_in_page)
  pure { offset := Isa.offset .Adc .AbsoluteIndexedWithX
         cycles := Isa.cycles .Adc .AbsoluteIndexedWithX + branch_penalty
         microcode := [
           .SetProgramStatusFlagState .Carry value.carry,
           .SetProgramStatusFlagState .Negative value.negative,
           .SetProgramStatusFlagState .Overflow overflow,
           .SetProgramStatusFlagState .Zero value.zero,
           .Write8bitRegister .Acc value.unwrap] }

/-- `Generate for Instruction<Adc, AbsoluteIndexedWithY>`,
`src/cpu/mos6502/operations/mod.rs:934-962`. -/
def adcAbsoluteIndexedWithY (b : Build) (cpu : Mos6502 Copy) (am : Word) : Bus Operations := do
  let addr := am
  let indexed_addr := addIndexToAddress addr cpu.y
  let lhs := Operand.new cpu.acc
  let rhs ← dereferenceAddressToOperand cpu indexed_addr 0
  let (value, overflow) := Operand.twosComplementAdd lhs rhs cpu.ps.carry
  let page ← Page.ofU16 b addr
  let addr_in_page := page.contains indexed_addr
  let branch_penalty := usizeFromBool (!addr_in_page)
  pure { offset := Isa.offset .Adc .AbsoluteIndexedWithY
         cycles := Isa.cycles .Adc .AbsoluteIndexedWithY + branch_penalty
         microcode := [
           .SetProgramStatusFlagState .Carry value.carry,
           .SetProgramStatusFlagState .Negative value.negative,
           .SetProgramStatusFlagState .Overflow overflow,
           .SetProgramStatusFlagState .Zero value.zero,
           .Write8bitRegister .Acc value.unwrap] }

/-- `Generate for Instruction<Adc, IndirectYIndexed>`,
`src/cpu/mos6502/operations/mod.rs:964-993`. -/
def adcIndirectYIndexed (b : Build) (cpu : Mos6502 Copy) (am : Byte) : Bus Operations := do
  let zpage_base_addr := am
  let indirect_addr ← dereferenceIndirectIndexedAddress b cpu zpage_base_addr cpu.y
  let lhs := Operand.new cpu.acc
  let t1 ← Bus.get cpu.address_map indirect_addr
  let rhs := Operand.new t1
  let (value, overflow) := Operand.twosComplementAdd lhs rhs cpu.ps.carry
  let addr_in_page := (Page.ofU8 zpage_base_addr).contains indirect_addr
  let branch_penalty := usizeFromBool (!addr_in_page)
  pure { offset := Isa.offset .Adc .IndirectYIndexed
         cycles := Isa.cycles .Adc .IndirectYIndexed + branch_penalty
         microcode := [
           .SetProgramStatusFlagState .Carry value.carry,
           .SetProgramStatusFlagState .Negative value.negative,
           .SetProgramStatusFlagState .Overflow overflow,
           .SetProgramStatusFlagState .Zero value.zero,
           .Write8bitRegister .Acc value.unwrap] }

/-- `Generate for Instruction<Adc, Immediate>`,
`src/cpu/mos6502/operations/mod.rs:995-1017`. -/
def adcImmediate (_b : Build) (cpu : Mos6502 Copy) (am : Byte) : Bus Operations := do
  let lhs := Operand.new cpu.acc
  let rhs := Operand.new am
  let (value, overflow) := Operand.twosComplementAdd lhs rhs cpu.ps.carry
  pure { offset := Isa.offset .Adc .Immediate
         cycles := Isa.cycles .Adc .Immediate
         microcode := [
           .SetProgramStatusFlagState .Carry value.carry,
           .SetProgramStatusFlagState .Negative value.negative,
           .SetProgramStatusFlagState .Overflow overflow,
           .SetProgramStatusFlagState .Zero value.zero,
           .Write8bitRegister .Acc value.unwrap] }

/-- `Generate for Instruction<Adc, XIndexedIndirect>`,
`src/cpu/mos6502/operations/mod.rs:1019-1043`. -/
def adcXIndexedIndirect (b : Build) (cpu : Mos6502 Copy) (am : Byte) : Bus Operations := do
  let indirect_addr ← dereferenceIndexedIndirectAddress b cpu am cpu.x
  let lhs := Operand.new cpu.acc
  let t1 ← Bus.get cpu.address_map indirect_addr
  let rhs := Operand.new t1
  let (value, overflow) := Operand.twosComplementAdd lhs rhs cpu.ps.carry
  pure { offset := Isa.offset .Adc .XIndexedIndirect
         cycles := Isa.cycles .Adc .XIndexedIndirect
         microcode := [
           .SetProgramStatusFlagState .Carry value.carry,
           .SetProgramStatusFlagState .Negative value.negative,
           .SetProgramStatusFlagState .Overflow overflow,
           .SetProgramStatusFlagState .Zero value.zero,
           .Write8bitRegister .Acc value.unwrap] }

/-- `Generate for Instruction<Adc, ZeroPage>`,
`src/cpu/mos6502/operations/mod.rs:1045-1068`. -/
def adcZeroPage (_b : Build) (cpu : Mos6502 Copy) (am : Byte) : Bus Operations := do
  let addr := addIndexToZeropageAddress am 0
  let lhs := Operand.new cpu.acc
  let rhs ← dereferenceAddressToOperand cpu addr 0
  let (value, overflow) := Operand.twosComplementAdd lhs rhs cpu.ps.carry
  pure { offset := Isa.offset .Adc .ZeroPage
         cycles := Isa.cycles .Adc .ZeroPage
         microcode := [
           .SetProgramStatusFlagState .Carry value.carry,
           .SetProgramStatusFlagState .Negative value.negative,
           .SetProgramStatusFlagState .Overflow overflow,
           .SetProgramStatusFlagState .Zero value.zero,
           .Write8bitRegister .Acc value.unwrap] }

/-- `Generate for Instruction<Adc, ZeroPageIndexedWithX>`,
`src/cpu/mos6502/operations/mod.rs:1070-1094`. -/
def adcZeroPageIndexedWithX (_b : Build) (cpu : Mos6502 Copy) (am : Byte) : Bus Operations := do
  let addr := am
  let indexed_addr := addIndexToZeropageAddress addr cpu.x
  let lhs := Operand.new cpu.acc
  let rhs ← dereferenceAddressToOperand cpu indexed_addr 0
  let (value, overflow) := Operand.twosComplementAdd lhs rhs cpu.ps.carry
  pure { offset := Isa.offset .Adc .ZeroPageIndexedWithX
         cycles := Isa.cycles .Adc .ZeroPageIndexedWithX
         microcode := [
           .SetProgramStatusFlagState .Carry value.carry,
           .SetProgramStatusFlagState .Negative value.negative,
           .SetProgramStatusFlagState .Overflow overflow,
           .SetProgramStatusFlagState .Zero value.zero,
           .Write8bitRegister .Acc value.unwrap] }

/-- `Generate for Instruction<Sbc, Absolute>`,
`src/cpu/mos6502/operations/mod.rs:1098-1120`. -/
def sbcAbsolute (b : Build) (cpu : Mos6502 Copy) (am : Word) : Bus Operations := do
  let lhs := Operand.new cpu.acc
  let rhs ← dereferenceAddressToOperand cpu am 0
  let (value, overflow) ← Operand.twosComplementSub b lhs rhs cpu.ps.carry
  pure { offset := Isa.offset .Sbc .Absolute
         cycles := Isa.cycles .Sbc .Absolute
         microcode := [
           .SetProgramStatusFlagState .Carry value.carry,
           .SetProgramStatusFlagState .Negative value.negative,
           .SetProgramStatusFlagState .Overflow overflow,
           .SetProgramStatusFlagState .Zero value.zero,
           .Write8bitRegister .Acc value.unwrap] }

/-- `Generate for Instruction<Sbc, AbsoluteIndexedWithX>`,
`src/cpu/mos6502/operations/mod.rs:1122-1150`. -/
def sbcAbsoluteIndexedWithX (b : Build) (cpu : Mos6502 Copy) (am : Word) : Bus Operations := do
  let addr := am
  let indexed_addr := addIndexToAddress addr cpu.x
  let lhs := Operand.new cpu.acc
  let rhs ← dereferenceAddressToOperand cpu indexed_addr 0
  let (value, overflow) ← Operand.twosComplementSub b lhs rhs cpu.ps.carry
  let page ← Page.ofU16 b addr
  let addr_in_page := page.contains indexed_addr
  let branch_penalty := usizeFromBool (!addr_in_page)
  pure { offset := Isa.offset .Sbc .AbsoluteIndexedWithX
         cycles := Isa.cycles .Sbc .AbsoluteIndexedWithX + branch_penalty
         microcode := [
           .SetProgramStatusFlagState .Carry value.carry,
           .SetProgramStatusFlagState .Negative value.negative,
           .SetProgramStatusFlagState .Overflow overflow,
           .SetProgramStatusFlagState .Zero value.zero,
           .Write8bitRegister .Acc value.unwrap] }

/-- `Generate for Instruction<Sbc, AbsoluteIndexedWithY>`,
`src/cpu/mos6502/operations/mod.rs:1152-1180`. -/
def sbcAbsoluteIndexedWithY (b : Build) (cpu : Mos6502 Copy) (am : Word) : Bus Operations := do
  let addr := am
  let indexed_addr := addIndexToAddress addr cpu.y
  let lhs := Operand.new cpu.acc
  let rhs ← dereferenceAddressToOperand cpu indexed_addr 0
  let (value, overflow) ← Operand.twosComplementSub b lhs rhs cpu.ps.carry
  let page ← Page.ofU16 b addr
  let addr_in_page := page.contains indexed_addr
  let branch_penalty := usizeFromBool (!addr_in_page)
  pure { offset := Isa.offset .Sbc .AbsoluteIndexedWithY
         cycles := Isa.cycles .Sbc .AbsoluteIndexedWithY + branch_penalty
         microcode := [
           .SetProgramStatusFlagState .Carry value.carry,
           .SetProgramStatusFlagState .Negative value.negative,
           .SetProgramStatusFlagState .Overflow overflow,
           .SetProgramStatusFlagState .Zero value.zero,
           .Write8bitRegister .Acc value.unwrap] }

/-- `Generate for Instruction<Sbc, IndirectYIndexed>`,
`src/cpu/mos6502/operations/mod.rs:1182-1211`. -/
def sbcIndirectYIndexed (b : Build) (cpu : Mos6502 Copy) (am : Byte) : Bus Operations := do
  let zpage_base_addr := am
  let indirect_addr ← dereferenceIndirectIndexedAddress b cpu zpage_base_addr cpu.y
  let lhs := Operand.new cpu.acc
  let t1 ← Bus.get cpu.address_map indirect_addr
  let rhs := Operand.new t1
  let (value, overflow) ← Operand.twosComplementSub b lhs rhs cpu.ps.carry
  let addr_in_page := (Page.ofU8 zpage_base_addr).contains indirect_addr
  let branch_penalty := usizeFromBool (!addr_in_page)
  pure { offset := Isa.offset .Sbc .IndirectYIndexed
         cycles := Isa.cycles .Sbc .IndirectYIndexed + branch_penalty
         microcode := [
           .SetProgramStatusFlagState .Carry value.carry,
           .SetProgramStatusFlagState .Negative value.negative,
           .SetProgramStatusFlagState .Overflow overflow,
           .SetProgramStatusFlagState .Zero value.zero,
           .Write8bitRegister .Acc value.unwrap] }

/-- `Generate for Instruction<Sbc, Immediate>`,
`src/cpu/mos6502/operations/mod.rs:1213-1235`. -/
def sbcImmediate (b : Build) (cpu : Mos6502 Copy) (am : Byte) : Bus Operations := do
  let lhs := Operand.new cpu.acc
  let rhs := Operand.new am
  let (value, overflow) ← Operand.twosComplementSub b lhs rhs cpu.ps.carry
  pure { offset := Isa.offset .Sbc .Immediate
         cycles := Isa.cycles .Sbc .Immediate
         microcode := [
           .SetProgramStatusFlagState .Carry value.carry,
           .SetProgramStatusFlagState .Negative value.negative,
           .SetProgramStatusFlagState .Overflow overflow,
           .SetProgramStatusFlagState .Zero value.zero,
           .Write8bitRegister .Acc value.unwrap] }

/-- `Generate for Instruction<Sbc, XIndexedIndirect>`,
`src/cpu/mos6502/operations/mod.rs:1237-1261`. -/
def sbcXIndexedIndirect (b : Build) (cpu : Mos6502 Copy) (am : Byte) : Bus Operations := do
  let indirect_addr ← dereferenceIndexedIndirectAddress b cpu am cpu.x
  let lhs := Operand.new cpu.acc
  let t1 ← Bus.get cpu.address_map indirect_addr
  let rhs := Operand.new t1
  let (value, overflow) ← Operand.twosComplementSub b lhs rhs cpu.ps.carry
  pure { offset := Isa.offset .Sbc .XIndexedIndirect
         cycles := Isa.cycles .Sbc .XIndexedIndirect
         microcode := [
           .SetProgramStatusFlagState .Carry value.carry,
           .SetProgramStatusFlagState .Negative value.negative,
           .SetProgramStatusFlagState .Overflow overflow,
           .SetProgramStatusFlagState .Zero value.zero,
           .Write8bitRegister .Acc value.unwrap] }

/-- `Generate for Instruction<Sbc, ZeroPage>`,
`src/cpu/mos6502/operations/mod.rs:1263-1286`. -/
def sbcZeroPage (b : Build) (cpu : Mos6502 Copy) (am : Byte) : Bus Operations := do
  let addr := addIndexToZeropageAddress am 0
  let lhs := Operand.new cpu.acc
  let rhs ← dereferenceAddressToOperand cpu addr 0
  let (value, overflow) ← Operand.twosComplementSub b lhs rhs cpu.ps.carry
  pure { offset := Isa.offset .Sbc .ZeroPage
         cycles := Isa.cycles .Sbc .ZeroPage
         microcode := [
           .SetProgramStatusFlagState .Carry value.carry,
           .SetProgramStatusFlagState .Negative value.negative,
           .SetProgramStatusFlagState .Overflow overflow,
           .SetProgramStatusFlagState .Zero value.zero,
           .Write8bitRegister .Acc value.unwrap] }

/-- `Generate for Instruction<Sbc, ZeroPageIndexedWithX>`,
`src/cpu/mos6502/operations/mod.rs:1288-1312`. -/
def sbcZeroPageIndexedWithX (b : Build) (cpu : Mos6502 Copy) (am : Byte) : Bus Operations := do
  let addr := am
  let indexed_addr := addIndexToZeropageAddress addr cpu.x
  let lhs := Operand.new cpu.acc
  let rhs ← dereferenceAddressToOperand cpu indexed_addr 0
  let (value, overflow) ← Operand.twosComplementSub b lhs rhs cpu.ps.carry
  pure { offset := Isa.offset .Sbc .ZeroPageIndexedWithX
         cycles := Isa.cycles .Sbc .ZeroPageIndexedWithX
         microcode := [
           .SetProgramStatusFlagState .Carry value.carry,
           .SetProgramStatusFlagState .Negative value.negative,
           .SetProgramStatusFlagState .Overflow overflow,
           .SetProgramStatusFlagState .Zero value.zero,
           .Write8bitRegister .Acc value.unwrap] }

end Verif.Mos.Live
