import Verif.Model.Page
import Verif.Model.Mos.State
import Verif.Model.Mos.Operand

/-!
# Addressing helpers and `Operations`: `src/cpu/mos6502/operations/mod.rs:237-335`
-/

namespace Verif.Mos

open Verif

/-- `IRQ_VECTOR_LL`, `src/cpu/mos6502/mod.rs:22`. -/
def IRQ_VECTOR_LL : Word := 0xfffe

/-- `IRQ_VECTOR_HH`, `src/cpu/mos6502/mod.rs:23`. -/
def IRQ_VECTOR_HH : Word := 0xffff

/-- `RESET_VECTOR_LL`, `src/cpu/mos6502/mod.rs:20`. -/
def RESET_VECTOR_LL : Word := 0xfffc

/-- `RESET_VECTOR_HH`, `src/cpu/mos6502/mod.rs:21`. -/
def RESET_VECTOR_HH : Word := 0xfffd

/-- `add_index_to_address`, `src/cpu/mos6502/operations/mod.rs:242-244`. -/
def addIndexToAddress (addr : Word) (index : Byte) : Word := addr + u16OfU8 index

/-- `add_index_to_zeropage_address`, `src/cpu/mos6502/operations/mod.rs:249-251`. -/
def addIndexToZeropageAddress (zeropage_addr index : Byte) : Word := u16OfU8 (zeropage_addr + index)

section
variable {B : Type} [Addressable B]

/-- `dereference_indexed_indirect_address`, `src/cpu/mos6502/operations/mod.rs:256-263`. The two
reads are performed in order; `index + 1` is a checked `u8` addition. -/
def dereferenceIndexedIndirectAddress (b : Build) (cpu : Mos6502 B) (base_addr index : Byte) :
    Res Word := do
  let lo ← Addressable.read b cpu.address_map (u16OfU8 (base_addr + index))
  let index1 ← addU8 b index 1
  let hi ← Addressable.read b cpu.address_map (u16OfU8 (base_addr + index1))
  .ok (u16FromLeBytes lo hi)

/-- `dereference_indirect_indexed_address`, `src/cpu/mos6502/operations/mod.rs:268-273`. The final
addition is a checked `u16` addition. -/
def dereferenceIndirectIndexedAddress (b : Build) (cpu : Mos6502 B) (base_addr index : Byte) :
    Res Word := do
  let lo ← Addressable.read b cpu.address_map (u16OfU8 base_addr)
  let hi ← Addressable.read b cpu.address_map (u16OfU8 (base_addr + 1))
  addU16 b (u16FromLeBytes lo hi) (u16OfU8 index)

/-- `dereference_address_to_operand`, `src/cpu/mos6502/operations/mod.rs:278-280`. -/
def dereferenceAddressToOperand (b : Build) (cpu : Mos6502 B) (addr : Word) (index : Byte) :
    Res Operand := do
  let v ← Addressable.read b cpu.address_map (addIndexToAddress addr index)
  .ok (Operand.new v)

end

/-- `stack_pointer_from_byte_value`, `src/cpu/mos6502/operations/mod.rs:285-287`. -/
def stackPointerFromByteValue (value : Byte) : Word := u16FromLeBytes value 0x01

/-- `Operations`, `src/cpu/mos6502/operations/mod.rs:292-307` (`new` is the constructor; `cycles`
and `offset`, lines 309-319, are the fields). -/
structure Operations where
  offset : Nat
  cycles : Nat
  microcode : List Microcode
  deriving DecidableEq, Repr

/-- `From<Operations> for Vec<Vec<Microcode>>`, `src/cpu/mos6502/operations/mod.rs:321-335`.
`cycles - 1` is a `usize` subtraction: for `cycles = 0` it panics in a checked build, and in an
unchecked build asks for `usize::MAX` vectors, which panics with a capacity overflow. -/
def Operations.intoSteps (b : Build) (src : Operations) : Res (List (List Microcode)) :=
  let offset : Word := BitVec.ofNat 16 src.offset
  if src.cycles = 0 then .error (if b.overflowChecks then .overflow else .capacity)
  else .ok (List.replicate (src.cycles - 1) [] ++
    [src.microcode ++ [Microcode.Inc16bitRegister .Pc offset]])


/-- Rust `usize::from(c)` for `c : bool`, as used for the page-crossing penalty
(e.g. `src/cpu/mos6502/operations/mod.rs:918`). -/
def usizeFromBool (c : Bool) : Nat := if c then 1 else 0

end Verif.Mos
