import Verif.Conformance.Basic
import Verif.Model.Mos.Cpu

/-!
# Helpers of the 6502 tests
-/

namespace Verif.Conformance

open Verif Verif.Mos

/-- `cpu.address_map.write(addr, value).unwrap()`, throughout the tests. -/
def store (b : Build) (cpu : Mos6502 (AddressMap Memory)) (addr : Word) (value : Byte) :
    Res (Mos6502 (AddressMap Memory)) := do
  let (r, am) ← Addressable.write b cpu.address_map addr value
  let _ ← unwrapResult r
  .ok { cpu with address_map := am }

/-- `generate_test_cpu_with_instructions`, `src/cpu/mos6502/tests/mod.rs:13-29`. -/
def testCpu (b : Build) (opcodes : List Byte) : Res (Mos6502 (AddressMap Memory)) := do
  let cpu ← defaultCpu b
  let cpu := withPcRegister (← reset b cpu).unwrap 0x6000
  let rom ← Memory.new b .readOnly 0x6000 0x7000
  unwrapResult (registerAddressSpace cpu ⟨0x6000, 0x7000⟩
    (rom.load (opcodes ++ List.replicate (0x1000 - opcodes.length) 0xea)))

end Verif.Conformance
