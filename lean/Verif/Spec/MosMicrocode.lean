import Verif.Spec.Mos6502

/-!
# Spec: what a microcode operation of the 6502 acts on

No code of the repository is modelled here. The registers are described by numbers.
-/

namespace Verif.Spec.Mos

open Verif Verif.Mos

/-- The number in a byte register. The status register is N V - B D I Z C from bit 7 to bit 0. -/
def byteOf {B : Type} (cpu : Mos6502 B) : ByteRegisters → Nat
  | .Acc => cpu.acc.toNat
  | .X => cpu.x.toNat
  | .Y => cpu.y.toNat
  | .Sp => cpu.sp.toNat
  | .Ps => 128 * bit cpu.ps.negative + 64 * bit cpu.ps.overflow + 32 * bit cpu.ps.unused +
      16 * bit cpu.ps.brk + 8 * bit cpu.ps.decimal + 4 * bit cpu.ps.interrupt_disable +
      2 * bit cpu.ps.zero + bit cpu.ps.carry

/-- The place of a flag in the status byte. -/
def flagPlace : ProgramStatusFlags → Nat
  | .Negative => 7
  | .Overflow => 6
  | .Break => 4
  | .Decimal => 3
  | .Interrupt => 2
  | .Zero => 1
  | .Carry => 0

/-- The two CPUs have the same bus and agree in every register but the byte register `r`. -/
def OnlyByte {B : Type} (r : ByteRegisters) (cpu cpu' : Mos6502 B) : Prop :=
  cpu'.address_map = cpu.address_map ∧ cpu'.pc = cpu.pc ∧ ∀ q, q ≠ r → byteOf cpu' q = byteOf cpu q

/-- The two CPUs have the same bus and the same byte registers. -/
def OnlyPc {B : Type} (cpu cpu' : Mos6502 B) : Prop :=
  cpu'.address_map = cpu.address_map ∧ ∀ q, byteOf cpu' q = byteOf cpu q

/-- The two CPUs have the same registers. -/
def OnlyBus {B : Type} (cpu cpu' : Mos6502 B) : Prop :=
  cpu'.pc = cpu.pc ∧ ∀ q, byteOf cpu' q = byteOf cpu q

/-- What an operation changes: memory, one flag, one byte register, or the program counter. -/
inductive Target where
  | memory
  | flag (f : ProgramStatusFlags)
  | byte (r : ByteRegisters)
  | pc
  deriving DecidableEq

/-- The target of each operation. -/
def target : Microcode → Target
  | .WriteMemory _ _ => .memory
  | .SetProgramStatusFlagState f _ => .flag f
  | .Write8bitRegister r _ => .byte r
  | .Inc8bitRegister r _ => .byte r
  | .Dec8bitRegister r _ => .byte r
  | .Write16bitRegister .Pc _ => .pc
  | .Inc16bitRegister .Pc _ => .pc
  | .Dec16bitRegister .Pc _ => .pc

/-- Two targets share a place: they are the same, or one is the status register and the other one of
its flags. -/
def Clash : Target → Target → Prop
  | .flag _, .byte .Ps => True
  | .byte .Ps, .flag _ => True
  | t, t' => t = t'

end Verif.Spec.Mos
