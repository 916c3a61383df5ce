import Verif.Model.Mos.Helpers
import Verif.Model.Mos.Isa

/-!
# `Generate` implementations: Jmp, Jsr, Rts, Rti, Brk, Nop

`am` is the operand held by the addressing mode (`self.addressing_mode.unwrap()`).
-/

namespace Verif.Mos

open Verif

variable {B : Type} [Addressable B]

/-- `Generate for Instruction<Jmp, Absolute>`,
`src/cpu/mos6502/operations/mod.rs:3121-3133`. -/
def jmpAbsolute (_b : Build) (_cpu : Mos6502 B) (am : Word) : Res Operations := do
  let addr := am
  .ok { offset := 0
        cycles := Isa.cycles .Jmp .Absolute
        microcode := [
          .Write16bitRegister .Pc addr] }

/-- `Generate for Instruction<Jmp, Indirect>`,
`src/cpu/mos6502/operations/mod.rs:3135-3150`. -/
def jmpIndirect (b : Build) (cpu : Mos6502 B) (am : Word) : Res Operations := do
  let indirect_addr := am
  let lsb ← Addressable.read b cpu.address_map indirect_addr
  let t1 ← addU16 b indirect_addr 1
  let msb ← Addressable.read b cpu.address_map t1
  let addr := u16FromLeBytes lsb msb
  .ok { offset := 0
        cycles := Isa.cycles .Jmp .Indirect
        microcode := [
          .Write16bitRegister .Pc addr] }

/-- `Generate for Instruction<Jsr, Absolute>`,
`src/cpu/mos6502/operations/mod.rs:3154-3179`. -/
def jsrAbsolute (_b : Build) (cpu : Mos6502 B) (am : Word) : Res Operations := do
  let addr := am
  let sph := stackPointerFromByteValue cpu.sp
  let spl := stackPointerFromByteValue (cpu.sp - 1)
  let (pcl, pch) := u16ToLeBytes (cpu.pc + 2)
  .ok { offset := 0
        cycles := Isa.cycles .Jsr .Absolute
        microcode := [
          .WriteMemory sph pch,
          .Dec8bitRegister .Sp 1,
          .WriteMemory spl pcl,
          .Dec8bitRegister .Sp 1,
          .Write16bitRegister .Pc addr] }

/-- `Generate for Instruction<Rts, Implied>`,
`src/cpu/mos6502/operations/mod.rs:3670-3690`. -/
def rtsImplied (b : Build) (cpu : Mos6502 B) : Res Operations := do
  let spl := stackPointerFromByteValue (cpu.sp + 1)
  let sph := stackPointerFromByteValue (cpu.sp + 2)
  let lsb ← Addressable.read b cpu.address_map spl
  let hsb ← Addressable.read b cpu.address_map sph
  let ret_addr := u16FromLeBytes lsb hsb
  .ok { offset := Isa.offset .Rts .Implied
        cycles := Isa.cycles .Rts .Implied
        microcode := [
          .Inc8bitRegister .Sp 2,
          .Write16bitRegister .Pc ret_addr] }

/-- `Generate for Instruction<Rti, Implied>`,
`src/cpu/mos6502/operations/mod.rs:3640-3666`. -/
def rtiImplied (b : Build) (cpu : Mos6502 B) : Res Operations := do
  let sp_psl := stackPointerFromByteValue (cpu.sp + 1)
  let sp ← Addressable.read b cpu.address_map sp_psl
  let sp_pcl := stackPointerFromByteValue (cpu.sp + 2)
  let sp_pch := stackPointerFromByteValue (cpu.sp + 3)
  let lsb ← Addressable.read b cpu.address_map sp_pcl
  let hsb ← Addressable.read b cpu.address_map sp_pch
  let ret_addr := u16FromLeBytes lsb hsb
  .ok { offset := Isa.offset .Rti .Implied
        cycles := Isa.cycles .Rti .Implied
        microcode := [
          .Inc8bitRegister .Sp 1,
          .Write8bitRegister .Ps sp,
          .Inc8bitRegister .Sp 2,
          .Write16bitRegister .Pc ret_addr] }

/-- `Generate for Instruction<Brk, Implied>`,
`src/cpu/mos6502/operations/mod.rs:4068-4103`. -/
def brkImplied (b : Build) (cpu : Mos6502 B) : Res Operations := do
  let ps := cpu.ps.read
  let sp_pcl := stackPointerFromByteValue cpu.sp
  let sp_pch := stackPointerFromByteValue (cpu.sp - 1)
  let sp_ps := stackPointerFromByteValue (cpu.sp - 2)
  let (pcl, pch) := u16ToLeBytes (cpu.pc + 1)
  let t1 ← Addressable.read b cpu.address_map IRQ_VECTOR_LL
  let t2 ← Addressable.read b cpu.address_map IRQ_VECTOR_HH
  let irq_vector := u16FromLeBytes t1 t2
  .ok { offset := 0
        cycles := Isa.cycles .Brk .Implied
        microcode := [
          .SetProgramStatusFlagState .Break true,
          .SetProgramStatusFlagState .Interrupt true,
          .WriteMemory sp_pcl pcl,
          .Dec8bitRegister .Sp 1,
          .WriteMemory sp_pch pch,
          .Dec8bitRegister .Sp 1,
          .WriteMemory sp_ps ps,
          .Dec8bitRegister .Sp 1,
          .Write16bitRegister .Pc irq_vector] }

/-- `Generate for Instruction<Nop, Implied>`,
`src/cpu/mos6502/operations/mod.rs:4107-4113`. -/
def nopImplied (_b : Build) (_cpu : Mos6502 B) : Res Operations := do
  .ok { offset := Isa.offset .Nop .Implied
        cycles := Isa.cycles .Nop .Implied
        microcode := [] }

end Verif.Mos
