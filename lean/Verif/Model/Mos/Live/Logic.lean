import Verif.Model.Mos.Live.Helpers
import Verif.Model.Mos.Isa

/-!
# `Generate` implementations on live devices: And, Bit, Eor, Ora

`am` is the operand held by the addressing mode (`self.addressing_mode.unwrap()`).
-/

namespace Verif.Mos.Live

open Verif Verif.Live

/-- `Generate for Instruction<And, Absolute>`,
`src/cpu/mos6502/operations/mod.rs:1318-1336`. -/
def andAbsolute (_b : Build) (cpu : Mos6502 Copy) (am : Word) : Bus Operations := do
  let lhs := Operand.new cpu.acc
  let rhs ← dereferenceAddressToOperand cpu am 0
  let value := Operand.bitand lhs rhs
  pure { offset := Isa.offset .And .Absolute
         cycles := Isa.cycles .And .Absolute
         microcode := [
           .SetProgramStatusFlagState .Negative value.negative,
           .SetProgramStatusFlagState .Zero value.zero,
           .Write8bitRegister .Acc value.unwrap] }

/-- `Generate for Instruction<And, AbsoluteIndexedWithX>`,
`src/cpu/mos6502/operations/mod.rs:1338-1363`. -/
def andAbsoluteIndexedWithX (b : Build) (cpu : Mos6502 Copy) (am : Word) : Bus Operations := do
  let index := cpu.x
  let addr := am
  let indexed_addr := addIndexToAddress addr index
  let lhs := Operand.new cpu.acc
  let rhs ← dereferenceAddressToOperand cpu addr index
  let value := Operand.bitand lhs rhs
  let page ← Page.ofU16 b addr
  let addr_in_page := page.contains indexed_addr
  let branch_penalty := usizeFromBool (!addr_in_page)
  pure { offset := Isa.offset .And .AbsoluteIndexedWithX
         cycles := Isa.cycles .And .AbsoluteIndexedWithX + branch_penalty
         microcode := [
           .SetProgramStatusFlagState .Negative value.negative,
           .SetProgramStatusFlagState .Zero value.zero,
           .Write8bitRegister .Acc value.unwrap] }

/-- `Generate for Instruction<And, AbsoluteIndexedWithY>`,
`src/cpu/mos6502/operations/mod.rs:1365-1390`. -/
def andAbsoluteIndexedWithY (b : Build) (cpu : Mos6502 Copy) (am : Word) : Bus Operations := do
  let index := cpu.y
  let addr := am
  let indexed_addr := addIndexToAddress addr index
  let lhs := Operand.new cpu.acc
  let rhs ← dereferenceAddressToOperand cpu addr index
  let value := Operand.bitand lhs rhs
  let page ← Page.ofU16 b addr
  let addr_in_page := page.contains indexed_addr
  let branch_penalty := usizeFromBool (!addr_in_page)
  pure { offset := Isa.offset .And .AbsoluteIndexedWithY
         cycles := Isa.cycles .And .AbsoluteIndexedWithY + branch_penalty
         microcode := [
           .SetProgramStatusFlagState .Negative value.negative,
           .SetProgramStatusFlagState .Zero value.zero,
           .Write8bitRegister .Acc value.unwrap] }

/-- `Generate for Instruction<And, IndirectYIndexed>`,
`src/cpu/mos6502/operations/mod.rs:1392-1417`. -/
def andIndirectYIndexed (b : Build) (cpu : Mos6502 Copy) (am : Byte) : Bus Operations := do
  let zpage_base_addr := am
  let indirect_addr ← dereferenceIndirectIndexedAddress b cpu zpage_base_addr cpu.y
  let lhs := Operand.new cpu.acc
  let t1 ← Bus.get cpu.address_map indirect_addr
  let rhs := Operand.new t1
  let value := Operand.bitand lhs rhs
  let addr_in_page := (Page.ofU8 zpage_base_addr).contains indirect_addr
  let branch_penalty := usizeFromBool (!addr_in_page)
  pure { offset := Isa.offset .And .IndirectYIndexed
         cycles := Isa.cycles .And .IndirectYIndexed + branch_penalty
         microcode := [
           .SetProgramStatusFlagState .Negative value.negative,
           .SetProgramStatusFlagState .Zero value.zero,
           .Write8bitRegister .Acc value.unwrap] }

/-- `Generate for Instruction<And, Immediate>`,
`src/cpu/mos6502/operations/mod.rs:1419-1437`. -/
def andImmediate (_b : Build) (cpu : Mos6502 Copy) (am : Byte) : Bus Operations := do
  let lhs := Operand.new cpu.acc
  let rhs := Operand.new am
  let value := Operand.bitand lhs rhs
  pure { offset := Isa.offset .And .Immediate
         cycles := Isa.cycles .And .Immediate
         microcode := [
           .SetProgramStatusFlagState .Negative value.negative,
           .SetProgramStatusFlagState .Zero value.zero,
           .Write8bitRegister .Acc value.unwrap] }

/-- `Generate for Instruction<And, XIndexedIndirect>`,
`src/cpu/mos6502/operations/mod.rs:1439-1459`. -/
def andXIndexedIndirect (b : Build) (cpu : Mos6502 Copy) (am : Byte) : Bus Operations := do
  let indirect_addr ← dereferenceIndexedIndirectAddress b cpu am cpu.x
  let lhs := Operand.new cpu.acc
  let t1 ← Bus.get cpu.address_map indirect_addr
  let rhs := Operand.new t1
  let value := Operand.bitand lhs rhs
  pure { offset := Isa.offset .And .XIndexedIndirect
         cycles := Isa.cycles .And .XIndexedIndirect
         microcode := [
           .SetProgramStatusFlagState .Negative value.negative,
           .SetProgramStatusFlagState .Zero value.zero,
           .Write8bitRegister .Acc value.unwrap] }

/-- `Generate for Instruction<And, ZeroPage>`,
`src/cpu/mos6502/operations/mod.rs:1461-1479`. -/
def andZeroPage (_b : Build) (cpu : Mos6502 Copy) (am : Byte) : Bus Operations := do
  let lhs := Operand.new cpu.acc
  let rhs ← dereferenceAddressToOperand cpu (u16OfU8 am) 0
  let value := Operand.bitand lhs rhs
  pure { offset := Isa.offset .And .ZeroPage
         cycles := Isa.cycles .And .ZeroPage
         microcode := [
           .SetProgramStatusFlagState .Negative value.negative,
           .SetProgramStatusFlagState .Zero value.zero,
           .Write8bitRegister .Acc value.unwrap] }

/-- `Generate for Instruction<And, ZeroPageIndexedWithX>`,
`src/cpu/mos6502/operations/mod.rs:1481-1501`. -/
def andZeroPageIndexedWithX (_b : Build) (cpu : Mos6502 Copy) (am : Byte) : Bus Operations := do
  let index := cpu.x
  let indexed_addr := addIndexToZeropageAddress am index
  let lhs := Operand.new cpu.acc
  let rhs ← dereferenceAddressToOperand cpu indexed_addr 0
  let value := Operand.bitand lhs rhs
  pure { offset := Isa.offset .And .ZeroPageIndexedWithX
         cycles := Isa.cycles .And .ZeroPageIndexedWithX
         microcode := [
           .SetProgramStatusFlagState .Negative value.negative,
           .SetProgramStatusFlagState .Zero value.zero,
           .Write8bitRegister .Acc value.unwrap] }

/-- `Generate for Instruction<Bit, Absolute>`,
`src/cpu/mos6502/operations/mod.rs:1609-1629`. -/
def bitAbsolute (_b : Build) (cpu : Mos6502 Copy) (am : Word) : Bus Operations := do
  let lhs := Operand.new cpu.acc
  let rhs ← dereferenceAddressToOperand cpu am 0
  let negative := bitIsSet rhs.unwrap 7
  let overflow := bitIsSet rhs.unwrap 6
  let value := Operand.bitand lhs rhs
  pure { offset := Isa.offset .Bit .Absolute
         cycles := Isa.cycles .Bit .Absolute
         microcode := [
           .SetProgramStatusFlagState .Negative negative,
           .SetProgramStatusFlagState .Overflow overflow,
           .SetProgramStatusFlagState .Zero value.zero] }

/-- `Generate for Instruction<Bit, ZeroPage>`,
`src/cpu/mos6502/operations/mod.rs:1631-1652`. -/
def bitZeroPage (_b : Build) (cpu : Mos6502 Copy) (am : Byte) : Bus Operations := do
  let addr := addIndexToZeropageAddress am 0
  let lhs := Operand.new cpu.acc
  let rhs ← dereferenceAddressToOperand cpu addr 0
  let negative := bitIsSet rhs.unwrap 7
  let overflow := bitIsSet rhs.unwrap 6
  let value := Operand.bitand lhs rhs
  pure { offset := Isa.offset .Bit .ZeroPage
         cycles := Isa.cycles .Bit .ZeroPage
         microcode := [
           .SetProgramStatusFlagState .Negative negative,
           .SetProgramStatusFlagState .Overflow overflow,
           .SetProgramStatusFlagState .Zero value.zero] }

/-- `Generate for Instruction<Eor, Absolute>`,
`src/cpu/mos6502/operations/mod.rs:1656-1674`. -/
def eorAbsolute (_b : Build) (cpu : Mos6502 Copy) (am : Word) : Bus Operations := do
  let lhs := Operand.new cpu.acc
  let rhs ← dereferenceAddressToOperand cpu am 0
  let value := Operand.bitxor lhs rhs
  pure { offset := Isa.offset .Eor .Absolute
         cycles := Isa.cycles .Eor .Absolute
         microcode := [
           .SetProgramStatusFlagState .Negative value.negative,
           .SetProgramStatusFlagState .Zero value.zero,
           .Write8bitRegister .Acc value.unwrap] }

/-- `Generate for Instruction<Eor, AbsoluteIndexedWithX>`,
`src/cpu/mos6502/operations/mod.rs:1676-1701`. -/
def eorAbsoluteIndexedWithX (b : Build) (cpu : Mos6502 Copy) (am : Word) : Bus Operations := do
  let index := cpu.x
  let addr := am
  let indexed_addr := addIndexToAddress addr index
  let lhs := Operand.new cpu.acc
  let rhs ← dereferenceAddressToOperand cpu addr index
  let value := Operand.bitxor lhs rhs
  let page ← Page.ofU16 b addr
  let addr_in_page := page.contains indexed_addr
  let branch_penalty := usizeFromBool (!addr_in_page)
  pure { offset := Isa.offset .Eor .AbsoluteIndexedWithX
         cycles := Isa.cycles .Eor .AbsoluteIndexedWithX + branch_penalty
         microcode := [
           .SetProgramStatusFlagState .Negative value.negative,
           .SetProgramStatusFlagState .Zero value.zero,
           .Write8bitRegister .Acc value.unwrap] }

/-- `Generate for Instruction<Eor, AbsoluteIndexedWithY>`,
`src/cpu/mos6502/operations/mod.rs:1703-1728`. -/
def eorAbsoluteIndexedWithY (b : Build) (cpu : Mos6502 Copy) (am : Word) : Bus Operations := do
  let index := cpu.y
  let addr := am
  let indexed_addr := addIndexToAddress addr index
  let lhs := Operand.new cpu.acc
  let rhs ← dereferenceAddressToOperand cpu addr index
  let value := Operand.bitxor lhs rhs
  let page ← Page.ofU16 b addr
  let addr_in_page := page.contains indexed_addr
  let branch_penalty := usizeFromBool (!addr_in_page)
  pure { offset := Isa.offset .Eor .AbsoluteIndexedWithY
         cycles := Isa.cycles .Eor .AbsoluteIndexedWithY + branch_penalty
         microcode := [
           .SetProgramStatusFlagState .Negative value.negative,
           .SetProgramStatusFlagState .Zero value.zero,
           .Write8bitRegister .Acc value.unwrap] }

/-- `Generate for Instruction<Eor, IndirectYIndexed>`,
`src/cpu/mos6502/operations/mod.rs:1730-1755`. -/
def eorIndirectYIndexed (b : Build) (cpu : Mos6502 Copy) (am : Byte) : Bus Operations := do
  let zpage_base_addr := am
  let indirect_addr ← dereferenceIndirectIndexedAddress b cpu zpage_base_addr cpu.y
  let lhs := Operand.new cpu.acc
  let t1 ← Bus.get cpu.address_map indirect_addr
  let rhs := Operand.new t1
  let value := Operand.bitxor lhs rhs
  let addr_in_page := (Page.ofU8 zpage_base_addr).contains indirect_addr
  let branch_penalty := usizeFromBool (!addr_in_page)
  pure { offset := Isa.offset .Eor .IndirectYIndexed
         cycles := Isa.cycles .Eor .IndirectYIndexed + branch_penalty
         microcode := [
           .SetProgramStatusFlagState .Negative value.negative,
           .SetProgramStatusFlagState .Zero value.zero,
           .Write8bitRegister .Acc value.unwrap] }

/-- `Generate for Instruction<Eor, Immediate>`,
`src/cpu/mos6502/operations/mod.rs:1757-1775`. -/
def eorImmediate (_b : Build) (cpu : Mos6502 Copy) (am : Byte) : Bus Operations := do
  let lhs := Operand.new cpu.acc
  let rhs := Operand.new am
  let value := Operand.bitxor lhs rhs
  pure { offset := Isa.offset .Eor .Immediate
         cycles := Isa.cycles .Eor .Immediate
         microcode := [
           .SetProgramStatusFlagState .Negative value.negative,
           .SetProgramStatusFlagState .Zero value.zero,
           .Write8bitRegister .Acc value.unwrap] }

/-- `Generate for Instruction<Eor, XIndexedIndirect>`,
`src/cpu/mos6502/operations/mod.rs:1777-1797`. -/
def eorXIndexedIndirect (b : Build) (cpu : Mos6502 Copy) (am : Byte) : Bus Operations := do
  let indirect_addr ← dereferenceIndexedIndirectAddress b cpu am cpu.x
  let lhs := Operand.new cpu.acc
  let t1 ← Bus.get cpu.address_map indirect_addr
  let rhs := Operand.new t1
  let value := Operand.bitxor lhs rhs
  pure { offset := Isa.offset .Eor .XIndexedIndirect
         cycles := Isa.cycles .Eor .XIndexedIndirect
         microcode := [
           .SetProgramStatusFlagState .Negative value.negative,
           .SetProgramStatusFlagState .Zero value.zero,
           .Write8bitRegister .Acc value.unwrap] }

/-- `Generate for Instruction<Eor, ZeroPage>`,
`src/cpu/mos6502/operations/mod.rs:1799-1817`. -/
def eorZeroPage (_b : Build) (cpu : Mos6502 Copy) (am : Byte) : Bus Operations := do
  let lhs := Operand.new cpu.acc
  let rhs ← dereferenceAddressToOperand cpu (u16OfU8 am) 0
  let value := Operand.bitxor lhs rhs
  pure { offset := Isa.offset .Eor .ZeroPage
         cycles := Isa.cycles .Eor .ZeroPage
         microcode := [
           .SetProgramStatusFlagState .Negative value.negative,
           .SetProgramStatusFlagState .Zero value.zero,
           .Write8bitRegister .Acc value.unwrap] }

/-- `Generate for Instruction<Eor, ZeroPageIndexedWithX>`,
`src/cpu/mos6502/operations/mod.rs:1819-1839`. -/
def eorZeroPageIndexedWithX (_b : Build) (cpu : Mos6502 Copy) (am : Byte) : Bus Operations := do
  let index := cpu.x
  let indexed_addr := addIndexToZeropageAddress am index
  let lhs := Operand.new cpu.acc
  let rhs ← dereferenceAddressToOperand cpu indexed_addr 0
  let value := Operand.bitxor lhs rhs
  pure { offset := Isa.offset .Eor .ZeroPageIndexedWithX
         cycles := Isa.cycles .Eor .ZeroPageIndexedWithX
         microcode := [
           .SetProgramStatusFlagState .Negative value.negative,
           .SetProgramStatusFlagState .Zero value.zero,
           .Write8bitRegister .Acc value.unwrap] }

/-- `Generate for Instruction<Ora, Absolute>`,
`src/cpu/mos6502/operations/mod.rs:1947-1965`. -/
def oraAbsolute (_b : Build) (cpu : Mos6502 Copy) (am : Word) : Bus Operations := do
  let lhs := Operand.new cpu.acc
  let rhs ← dereferenceAddressToOperand cpu am 0
  let value := Operand.bitor lhs rhs
  pure { offset := Isa.offset .Ora .Absolute
         cycles := Isa.cycles .Ora .Absolute
         microcode := [
           .SetProgramStatusFlagState .Negative value.negative,
           .SetProgramStatusFlagState .Zero value.zero,
           .Write8bitRegister .Acc value.unwrap] }

/-- `Generate for Instruction<Ora, AbsoluteIndexedWithX>`,
`src/cpu/mos6502/operations/mod.rs:1967-1992`. -/
def oraAbsoluteIndexedWithX (b : Build) (cpu : Mos6502 Copy) (am : Word) : Bus Operations := do
  let index := cpu.x
  let addr := am
  let indexed_addr := addIndexToAddress addr index
  let lhs := Operand.new cpu.acc
  let rhs ← dereferenceAddressToOperand cpu addr index
  let value := Operand.bitor lhs rhs
  let page ← Page.ofU16 b addr
  let addr_in_page := page.contains indexed_addr
  let branch_penalty := usizeFromBool (!addr_in_page)
  pure { offset := Isa.offset .Ora .AbsoluteIndexedWithX
         cycles := Isa.cycles .Ora .AbsoluteIndexedWithX + branch_penalty
         microcode := [
           .SetProgramStatusFlagState .Negative value.negative,
           .SetProgramStatusFlagState .Zero value.zero,
           .Write8bitRegister .Acc value.unwrap] }

/-- `Generate for Instruction<Ora, AbsoluteIndexedWithY>`,
`src/cpu/mos6502/operations/mod.rs:1994-2019`. -/
def oraAbsoluteIndexedWithY (b : Build) (cpu : Mos6502 Copy) (am : Word) : Bus Operations := do
  let index := cpu.y
  let addr := am
  let indexed_addr := addIndexToAddress addr index
  let lhs := Operand.new cpu.acc
  let rhs ← dereferenceAddressToOperand cpu addr index
  let value := Operand.bitor lhs rhs
  let page ← Page.ofU16 b addr
  let addr_in_page := page.contains indexed_addr
  let branch_penalty := usizeFromBool (!addr_in_page)
  pure { offset := Isa.offset .Ora .AbsoluteIndexedWithY
         cycles := Isa.cycles .Ora .AbsoluteIndexedWithY + branch_penalty
         microcode := [
           .SetProgramStatusFlagState .Negative value.negative,
           .SetProgramStatusFlagState .Zero value.zero,
           .Write8bitRegister .Acc value.unwrap] }

/-- `Generate for Instruction<Ora, IndirectYIndexed>`,
`src/cpu/mos6502/operations/mod.rs:2021-2046`. -/
def oraIndirectYIndexed (b : Build) (cpu : Mos6502 Copy) (am : Byte) : Bus Operations := do
  let zpage_base_addr := am
  let indirect_addr ← dereferenceIndirectIndexedAddress b cpu zpage_base_addr cpu.y
  let lhs := Operand.new cpu.acc
  let t1 ← Bus.get cpu.address_map indirect_addr
  let rhs := Operand.new t1
  let value := Operand.bitor lhs rhs
  let addr_in_page := (Page.ofU8 zpage_base_addr).contains indirect_addr
  let branch_penalty := usizeFromBool (!addr_in_page)
  pure { offset := Isa.offset .Ora .IndirectYIndexed
         cycles := Isa.cycles .Ora .IndirectYIndexed + branch_penalty
         microcode := [
           .SetProgramStatusFlagState .Negative value.negative,
           .SetProgramStatusFlagState .Zero value.zero,
           .Write8bitRegister .Acc value.unwrap] }

/-- `Generate for Instruction<Ora, Immediate>`,
`src/cpu/mos6502/operations/mod.rs:2048-2066`. -/
def oraImmediate (_b : Build) (cpu : Mos6502 Copy) (am : Byte) : Bus Operations := do
  let lhs := Operand.new cpu.acc
  let rhs := Operand.new am
  let value := Operand.bitor lhs rhs
  pure { offset := Isa.offset .Ora .Immediate
         cycles := Isa.cycles .Ora .Immediate
         microcode := [
           .SetProgramStatusFlagState .Negative value.negative,
           .SetProgramStatusFlagState .Zero value.zero,
           .Write8bitRegister .Acc value.unwrap] }

/-- `Generate for Instruction<Ora, XIndexedIndirect>`,
`src/cpu/mos6502/operations/mod.rs:2068-2088`. -/
def oraXIndexedIndirect (b : Build) (cpu : Mos6502 Copy) (am : Byte) : Bus Operations := do
  let indirect_addr ← dereferenceIndexedIndirectAddress b cpu am cpu.x
  let lhs := Operand.new cpu.acc
  let t1 ← Bus.get cpu.address_map indirect_addr
  let rhs := Operand.new t1
  let value := Operand.bitor lhs rhs
  pure { offset := Isa.offset .Ora .XIndexedIndirect
         cycles := Isa.cycles .Ora .XIndexedIndirect
         microcode := [
           .SetProgramStatusFlagState .Negative value.negative,
           .SetProgramStatusFlagState .Zero value.zero,
           .Write8bitRegister .Acc value.unwrap] }

/-- `Generate for Instruction<Ora, ZeroPage>`,
`src/cpu/mos6502/operations/mod.rs:2090-2108`. -/
def oraZeroPage (_b : Build) (cpu : Mos6502 Copy) (am : Byte) : Bus Operations := do
  let lhs := Operand.new cpu.acc
  let rhs ← dereferenceAddressToOperand cpu (u16OfU8 am) 0
  let value := Operand.bitor lhs rhs
  pure { offset := Isa.offset .Ora .ZeroPage
         cycles := Isa.cycles .Ora .ZeroPage
         microcode := [
           .SetProgramStatusFlagState .Negative value.negative,
           .SetProgramStatusFlagState .Zero value.zero,
           .Write8bitRegister .Acc value.unwrap] }

/-- `Generate for Instruction<Ora, ZeroPageIndexedWithX>`,
`src/cpu/mos6502/operations/mod.rs:2110-2130`. -/
def oraZeroPageIndexedWithX (_b : Build) (cpu : Mos6502 Copy) (am : Byte) : Bus Operations := do
  let index := cpu.x
  let indexed_addr := addIndexToZeropageAddress am index
  let lhs := Operand.new cpu.acc
  let rhs ← dereferenceAddressToOperand cpu indexed_addr 0
  let value := Operand.bitor lhs rhs
  pure { offset := Isa.offset .Ora .ZeroPageIndexedWithX
         cycles := Isa.cycles .Ora .ZeroPageIndexedWithX
         microcode := [
           .SetProgramStatusFlagState .Negative value.negative,
           .SetProgramStatusFlagState .Zero value.zero,
           .Write8bitRegister .Acc value.unwrap] }

end Verif.Mos.Live
