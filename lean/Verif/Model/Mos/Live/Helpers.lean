import Verif.Model.Live.Bus
import Verif.Model.Mos.Helpers

/-!
# Addressing helpers on live devices: `src/cpu/mos6502/operations/mod.rs:237-335`

The files in this directory are the `Generate` implementations of `Verif.Model.Mos` once more, with
every call of the bus kept as a call (`Verif.Live.Bus`). The bus of the CPU is the name of the clone
that is called.
-/

namespace Verif.Mos.Live

open Verif Verif.Live

/-- `dereference_indexed_indirect_address`, `src/cpu/mos6502/operations/mod.rs:256-263`. -/
def dereferenceIndexedIndirectAddress (b : Build) (cpu : Mos6502 Copy) (base_addr index : Byte) :
    Bus Word := do
  let lo ← Bus.get cpu.address_map (u16OfU8 (base_addr + index))
  let index1 ← addU8 b index 1
  let hi ← Bus.get cpu.address_map (u16OfU8 (base_addr + index1))
  pure (u16FromLeBytes lo hi)

/-- `dereference_indirect_indexed_address`, `src/cpu/mos6502/operations/mod.rs:268-273`. -/
def dereferenceIndirectIndexedAddress (b : Build) (cpu : Mos6502 Copy) (base_addr index : Byte) :
    Bus Word := do
  let lo ← Bus.get cpu.address_map (u16OfU8 base_addr)
  let hi ← Bus.get cpu.address_map (u16OfU8 (base_addr + 1))
  addU16 b (u16FromLeBytes lo hi) (u16OfU8 index)

/-- `dereference_address_to_operand`, `src/cpu/mos6502/operations/mod.rs:278-280`. -/
def dereferenceAddressToOperand (cpu : Mos6502 Copy) (addr : Word) (index : Byte) : Bus Operand := do
  let v ← Bus.get cpu.address_map (addIndexToAddress addr index)
  pure (Operand.new v)

end Verif.Mos.Live
