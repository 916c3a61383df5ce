import Verif.Model.Mos.Helpers
import Verif.Model.Mos.Isa

/-!
# `Generate` implementations: Lda, Ldx, Ldy

`am` is the operand held by the addressing mode (`self.addressing_mode.unwrap()`).
-/

namespace Verif.Mos

open Verif

variable {B : Type} [Addressable B]

/-- `Generate for Instruction<Lda, Immediate>`,
`src/cpu/mos6502/operations/mod.rs:3183-3199`. -/
def ldaImmediate (_b : Build) (_cpu : Mos6502 B) (am : Byte) : Res Operations := do
  let value := Operand.new am
  .ok { offset := Isa.offset .Lda .Immediate
        cycles := Isa.cycles .Lda .Immediate
        microcode := [
          .SetProgramStatusFlagState .Negative value.negative,
          .SetProgramStatusFlagState .Zero value.zero,
          .Write8bitRegister .Acc value.unwrap] }

/-- `Generate for Instruction<Lda, ZeroPage>`,
`src/cpu/mos6502/operations/mod.rs:3201-3217`. -/
def ldaZeroPage (b : Build) (cpu : Mos6502 B) (am : Byte) : Res Operations := do
  let value ← dereferenceAddressToOperand b cpu (u16OfU8 am) 0
  .ok { offset := Isa.offset .Lda .ZeroPage
        cycles := Isa.cycles .Lda .ZeroPage
        microcode := [
          .SetProgramStatusFlagState .Negative value.negative,
          .SetProgramStatusFlagState .Zero value.zero,
          .Write8bitRegister .Acc value.unwrap] }

/-- `Generate for Instruction<Lda, ZeroPageIndexedWithX>`,
`src/cpu/mos6502/operations/mod.rs:3219-3237`. -/
def ldaZeroPageIndexedWithX (b : Build) (cpu : Mos6502 B) (am : Byte) : Res Operations := do
  let index := cpu.x
  let addr := addIndexToZeropageAddress am index
  let value ← dereferenceAddressToOperand b cpu addr 0
  .ok { offset := Isa.offset .Lda .ZeroPageIndexedWithX
        cycles := Isa.cycles .Lda .ZeroPageIndexedWithX
        microcode := [
          .SetProgramStatusFlagState .Negative value.negative,
          .SetProgramStatusFlagState .Zero value.zero,
          .Write8bitRegister .Acc value.unwrap] }

/-- `Generate for Instruction<Lda, Absolute>`,
`src/cpu/mos6502/operations/mod.rs:3239-3255`. -/
def ldaAbsolute (b : Build) (cpu : Mos6502 B) (am : Word) : Res Operations := do
  let addr := am
  let t1 ← Addressable.read b cpu.address_map addr
  let value := Operand.new t1
  .ok { offset := Isa.offset .Lda .Absolute
        cycles := Isa.cycles .Lda .Absolute
        microcode := [
          .SetProgramStatusFlagState .Negative value.negative,
          .SetProgramStatusFlagState .Zero value.zero,
          .Write8bitRegister .Acc value.unwrap] }

/-- `Generate for Instruction<Lda, AbsoluteIndexedWithX>`,
`src/cpu/mos6502/operations/mod.rs:3257-3280`. -/
def ldaAbsoluteIndexedWithX (b : Build) (cpu : Mos6502 B) (am : Word) : Res Operations := do
  let index := cpu.x
  let addr := am
  let indexed_addr := addIndexToAddress addr index
  let value ← dereferenceAddressToOperand b cpu addr index
  let page ← Page.ofU16 b addr
  let addr_in_page := page.contains indexed_addr
  let branch_penalty := usizeFromBool (!addr_in_page)
  .ok { offset := Isa.offset .Lda .AbsoluteIndexedWithX
        cycles := Isa.cycles .Lda .AbsoluteIndexedWithX + branch_penalty
        microcode := [
          .SetProgramStatusFlagState .Negative value.negative,
          .SetProgramStatusFlagState .Zero value.zero,
          .Write8bitRegister .Acc value.unwrap] }

/-- `Generate for Instruction<Lda, AbsoluteIndexedWithY>`,
`src/cpu/mos6502/operations/mod.rs:3282-3305`. -/
def ldaAbsoluteIndexedWithY (b : Build) (cpu : Mos6502 B) (am : Word) : Res Operations := do
  let index := cpu.y
  let addr := am
  let indexed_addr := addIndexToAddress addr index
  let value ← dereferenceAddressToOperand b cpu indexed_addr 0
  let page ← Page.ofU16 b addr
  let addr_in_page := page.contains indexed_addr
  let branch_penalty := usizeFromBool (!addr_in_page)
  .ok { offset := Isa.offset .Lda .AbsoluteIndexedWithY
        cycles := Isa.cycles .Lda .AbsoluteIndexedWithY + branch_penalty
        microcode := [
          .SetProgramStatusFlagState .Negative value.negative,
          .SetProgramStatusFlagState .Zero value.zero,
          .Write8bitRegister .Acc value.unwrap] }

/-- `Generate for Instruction<Lda, IndirectYIndexed>`,
`src/cpu/mos6502/operations/mod.rs:3307-3330`. -/
def ldaIndirectYIndexed (b : Build) (cpu : Mos6502 B) (am : Byte) : Res Operations := do
  let zpage_base_addr := am
  let indirect_addr ← dereferenceIndirectIndexedAddress b cpu zpage_base_addr cpu.y
  let t1 ← Addressable.read b cpu.address_map indirect_addr
  let value := Operand.new t1
  let addr_in_page := (Page.ofU8 zpage_base_addr).contains indirect_addr
  let branch_penalty := usizeFromBool (!addr_in_page)
  .ok { offset := Isa.offset .Lda .IndirectYIndexed
        cycles := Isa.cycles .Lda .IndirectYIndexed + branch_penalty
        microcode := [
          .SetProgramStatusFlagState .Negative value.negative,
          .SetProgramStatusFlagState .Zero value.zero,
          .Write8bitRegister .Acc value.unwrap] }

/-- `Generate for Instruction<Lda, XIndexedIndirect>`,
`src/cpu/mos6502/operations/mod.rs:3332-3350`. -/
def ldaXIndexedIndirect (b : Build) (cpu : Mos6502 B) (am : Byte) : Res Operations := do
  let indirect_addr ← dereferenceIndexedIndirectAddress b cpu am cpu.x
  let t1 ← Addressable.read b cpu.address_map indirect_addr
  let value := Operand.new t1
  .ok { offset := Isa.offset .Lda .XIndexedIndirect
        cycles := Isa.cycles .Lda .XIndexedIndirect
        microcode := [
          .SetProgramStatusFlagState .Negative value.negative,
          .SetProgramStatusFlagState .Zero value.zero,
          .Write8bitRegister .Acc value.unwrap] }

/-- `Generate for Instruction<Ldx, Absolute>`,
`src/cpu/mos6502/operations/mod.rs:3354-3371`. -/
def ldxAbsolute (b : Build) (cpu : Mos6502 B) (am : Word) : Res Operations := do
  let addr := am
  let value ← dereferenceAddressToOperand b cpu addr 0
  .ok { offset := Isa.offset .Ldx .Absolute
        cycles := Isa.cycles .Ldx .Absolute
        microcode := [
          .SetProgramStatusFlagState .Negative value.negative,
          .SetProgramStatusFlagState .Zero value.zero,
          .Write8bitRegister .X value.unwrap] }

/-- `Generate for Instruction<Ldx, AbsoluteIndexedWithY>`,
`src/cpu/mos6502/operations/mod.rs:3373-3396`. -/
def ldxAbsoluteIndexedWithY (b : Build) (cpu : Mos6502 B) (am : Word) : Res Operations := do
  let index := cpu.y
  let addr := am
  let indexed_addr := addIndexToAddress addr index
  let value ← dereferenceAddressToOperand b cpu indexed_addr 0
  let page ← Page.ofU16 b addr
  let addr_in_page := page.contains indexed_addr
  let branch_penalty := usizeFromBool (!addr_in_page)
  .ok { offset := Isa.offset .Ldx .AbsoluteIndexedWithY
        cycles := Isa.cycles .Ldx .AbsoluteIndexedWithY + branch_penalty
        microcode := [
          .SetProgramStatusFlagState .Negative value.negative,
          .SetProgramStatusFlagState .Zero value.zero,
          .Write8bitRegister .X value.unwrap] }

/-- `Generate for Instruction<Ldx, Immediate>`,
`src/cpu/mos6502/operations/mod.rs:3398-3414`. -/
def ldxImmediate (_b : Build) (_cpu : Mos6502 B) (am : Byte) : Res Operations := do
  let value := Operand.new am
  .ok { offset := Isa.offset .Ldx .Immediate
        cycles := Isa.cycles .Ldx .Immediate
        microcode := [
          .SetProgramStatusFlagState .Negative value.negative,
          .SetProgramStatusFlagState .Zero value.zero,
          .Write8bitRegister .X value.unwrap] }

/-- `Generate for Instruction<Ldx, ZeroPage>`,
`src/cpu/mos6502/operations/mod.rs:3416-3432`. -/
def ldxZeroPage (b : Build) (cpu : Mos6502 B) (am : Byte) : Res Operations := do
  let value ← dereferenceAddressToOperand b cpu (u16OfU8 am) 0
  .ok { offset := Isa.offset .Ldx .ZeroPage
        cycles := Isa.cycles .Ldx .ZeroPage
        microcode := [
          .SetProgramStatusFlagState .Negative value.negative,
          .SetProgramStatusFlagState .Zero value.zero,
          .Write8bitRegister .X value.unwrap] }

/-- `Generate for Instruction<Ldx, ZeroPageIndexedWithY>`,
`src/cpu/mos6502/operations/mod.rs:3434-3452`. -/
def ldxZeroPageIndexedWithY (b : Build) (cpu : Mos6502 B) (am : Byte) : Res Operations := do
  let index := cpu.y
  let addr := addIndexToZeropageAddress am index
  let value ← dereferenceAddressToOperand b cpu addr 0
  .ok { offset := Isa.offset .Ldx .ZeroPageIndexedWithY
        cycles := Isa.cycles .Ldx .ZeroPageIndexedWithY
        microcode := [
          .SetProgramStatusFlagState .Negative value.negative,
          .SetProgramStatusFlagState .Zero value.zero,
          .Write8bitRegister .X value.unwrap] }

/-- `Generate for Instruction<Ldy, Absolute>`,
`src/cpu/mos6502/operations/mod.rs:3456-3473`. -/
def ldyAbsolute (b : Build) (cpu : Mos6502 B) (am : Word) : Res Operations := do
  let addr := am
  let value ← dereferenceAddressToOperand b cpu addr 0
  .ok { offset := Isa.offset .Ldy .Absolute
        cycles := Isa.cycles .Ldy .Absolute
        microcode := [
          .SetProgramStatusFlagState .Negative value.negative,
          .SetProgramStatusFlagState .Zero value.zero,
          .Write8bitRegister .Y value.unwrap] }

/-- `Generate for Instruction<Ldy, AbsoluteIndexedWithX>`,
`src/cpu/mos6502/operations/mod.rs:3475-3498`. -/
def ldyAbsoluteIndexedWithX (b : Build) (cpu : Mos6502 B) (am : Word) : Res Operations := do
  let index := cpu.x
  let addr := am
  let indexed_addr := addIndexToAddress addr index
  let value ← dereferenceAddressToOperand b cpu indexed_addr 0
  let page ← Page.ofU16 b addr
  let addr_in_page := page.contains indexed_addr
  let branch_penalty := usizeFromBool (!addr_in_page)
  .ok { offset := Isa.offset .Ldy .AbsoluteIndexedWithX
        cycles := Isa.cycles .Ldy .AbsoluteIndexedWithX + branch_penalty
        microcode := [
          .SetProgramStatusFlagState .Negative value.negative,
          .SetProgramStatusFlagState .Zero value.zero,
          .Write8bitRegister .Y value.unwrap] }

/-- `Generate for Instruction<Ldy, Immediate>`,
`src/cpu/mos6502/operations/mod.rs:3500-3516`. -/
def ldyImmediate (_b : Build) (_cpu : Mos6502 B) (am : Byte) : Res Operations := do
  let value := Operand.new am
  .ok { offset := Isa.offset .Ldy .Immediate
        cycles := Isa.cycles .Ldy .Immediate
        microcode := [
          .SetProgramStatusFlagState .Negative value.negative,
          .SetProgramStatusFlagState .Zero value.zero,
          .Write8bitRegister .Y value.unwrap] }

/-- `Generate for Instruction<Ldy, ZeroPage>`,
`src/cpu/mos6502/operations/mod.rs:3518-3534`. -/
def ldyZeroPage (b : Build) (cpu : Mos6502 B) (am : Byte) : Res Operations := do
  let value ← dereferenceAddressToOperand b cpu (u16OfU8 am) 0
  .ok { offset := Isa.offset .Ldy .ZeroPage
        cycles := Isa.cycles .Ldy .ZeroPage
        microcode := [
          .SetProgramStatusFlagState .Negative value.negative,
          .SetProgramStatusFlagState .Zero value.zero,
          .Write8bitRegister .Y value.unwrap] }

/-- `Generate for Instruction<Ldy, ZeroPageIndexedWithX>`,
`src/cpu/mos6502/operations/mod.rs:3536-3554`. -/
def ldyZeroPageIndexedWithX (b : Build) (cpu : Mos6502 B) (am : Byte) : Res Operations := do
  let index := cpu.x
  let addr := addIndexToZeropageAddress am index
  let value ← dereferenceAddressToOperand b cpu addr 0
  .ok { offset := Isa.offset .Ldy .ZeroPageIndexedWithX
        cycles := Isa.cycles .Ldy .ZeroPageIndexedWithX
        microcode := [
          .SetProgramStatusFlagState .Negative value.negative,
          .SetProgramStatusFlagState .Zero value.zero,
          .Write8bitRegister .Y value.unwrap] }

end Verif.Mos
