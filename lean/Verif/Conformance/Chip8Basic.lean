import Verif.Conformance.Basic
import Verif.Model.Chip8.Cpu

/-!
# Helpers of the CHIP-8 tests
-/

namespace Verif.Conformance

open Verif Verif.Chip8

deriving instance DecidableEq for U12
deriving instance DecidableEq for Opcode

/-- `Chip8::<()>::default()`, throughout the tests; the clock shows 0. The random generator is
replaced by a closure that returns 0 in some tests (`with_rng(|| 0u8)`); its answer is part of the
environment of `generate` and `run` here. -/
def testChip8 (b : Build) : Res (Chip8 (AddressMap Memory) Unit) := defaultCpu b 0 ()

/-- `cpu.address_space.write(addr, value).unwrap()`, throughout the tests. -/
def store8 (b : Build) (cpu : Chip8 (AddressMap Memory) Unit) (addr : Word) (value : Byte) :
    Res (Chip8 (AddressMap Memory) Unit) := do
  let (r, am) ← Addressable.write b cpu.address_space addr value
  let _ ← unwrapResult r
  .ok { cpu with address_space := am }

/-- The macro `generate_parse_test!`, `src/cpu/chip8/operations/tests/mod.rs:5-22`. -/
def parsesTo (b0 b1 : Byte) (variant : Opcode) : Res Unit := do
  check (decide (Except.ok variant = (← decodeBytesToOpcode b0 b1)))


end Verif.Conformance
