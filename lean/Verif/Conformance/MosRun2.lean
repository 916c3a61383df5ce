import Verif.Conformance.MosBasic

/-!
# `src/cpu/mos6502/tests/mod.rs`, second half
-/

namespace Verif.Conformance

open Verif Verif.Mos

/-- `should_cycle_on_eor_immediate_operation`, `src/cpu/mos6502/tests/mod.rs:1496-1505`. -/
example : passes (fun b => do
  let cpu := (withGpRegister (← testCpu b [0x49, 0x55]) .Acc 0xff)
  let state := (StepState.unwrap (← run b cpu 2))
  check (decide (0x6002 = state.pc))
  check (decide (0xaa = state.acc))
  check (decide ((state.ps.negative, state.ps.zero) = (true, false)))) := by
  decide +kernel

/-- `should_cycle_on_eor_x_indexed_indirect_operation`, `src/cpu/mos6502/tests/mod.rs:1507-1520`. -/
example : passes (fun b => do
  let cpu := (withGpRegister (withGpRegister (← testCpu b [0x41, 0x00]) .Acc 0xff) .X 0x05)
  let cpu ← store b cpu 0x05 0xff
  let cpu ← store b cpu 0x06 0x00
  let cpu ← store b cpu 0xff 0x55
  let state := (StepState.unwrap (← run b cpu 6))
  check (decide (0x6002 = state.pc))
  check (decide (0xaa = state.acc))
  check (decide ((state.ps.negative, state.ps.zero) = (true, false)))) := by
  decide +kernel

/-- `should_cycle_on_eor_zeropage_operation`, `src/cpu/mos6502/tests/mod.rs:1522-1532`. -/
example : passes (fun b => do
  let cpu := (withGpRegister (← testCpu b [0x45, 0xff]) .Acc 0xff)
  let cpu ← store b cpu 0x00ff 0x55
  let state := (StepState.unwrap (← run b cpu 3))
  check (decide (0x6002 = state.pc))
  check (decide (0xaa = state.acc))
  check (decide ((state.ps.negative, state.ps.zero) = (true, false)))) := by
  decide +kernel

/-- `should_cycle_on_eor_zeropage_indexed_with_x_operation`,
    `src/cpu/mos6502/tests/mod.rs:1534-1545`. -/
example : passes (fun b => do
  let cpu := (withGpRegister (withGpRegister (← testCpu b [0x55, 0xfa]) .Acc 0xff) .X 0x05)
  let cpu ← store b cpu 0x00ff 0x55
  let state := (StepState.unwrap (← run b cpu 4))
  check (decide (0x6002 = state.pc))
  check (decide (0xaa = state.acc))
  check (decide ((state.ps.negative, state.ps.zero) = (true, false)))) := by
  decide +kernel

/-- `should_cycle_on_inc_absolute_operation`, `src/cpu/mos6502/tests/mod.rs:1547-1555`. -/
example : passes (fun b => do
  let cpu := (← testCpu b [0xee, 0xff, 0x01])
  let state := (StepState.unwrap (← run b cpu 6))
  check (decide (0x6003 = state.pc))
  check (decide (1 = (← Addressable.read b state.address_map 0x01ff)))
  check (decide ((false, false) = (state.ps.negative, state.ps.zero)))) := by
  decide +kernel

/-- `should_cycle_on_inc_absolute_indexed_with_x_operation`,
    `src/cpu/mos6502/tests/mod.rs:1557-1566`. -/
example : passes (fun b => do
  let cpu := (withGpRegister (← testCpu b [0xfe, 0xfa, 0x01]) .X 0x05)
  let state := (StepState.unwrap (← run b cpu 7))
  check (decide (0x6003 = state.pc))
  check (decide (1 = (← Addressable.read b state.address_map 0x01ff)))
  check (decide ((false, false) = (state.ps.negative, state.ps.zero)))) := by
  decide +kernel

/-- `should_cycle_on_inc_zeropage_operation`, `src/cpu/mos6502/tests/mod.rs:1568-1576`. -/
example : passes (fun b => do
  let cpu := (← testCpu b [0xe6, 0xff])
  let state := (StepState.unwrap (← run b cpu 5))
  check (decide (0x6002 = state.pc))
  check (decide (1 = (← Addressable.read b state.address_map 0xff)))
  check (decide ((false, false) = (state.ps.negative, state.ps.zero)))) := by
  decide +kernel

/-- `should_cycle_on_inc_zeropage_indexed_with_x_operation`,
    `src/cpu/mos6502/tests/mod.rs:1578-1587`. -/
example : passes (fun b => do
  let cpu := (withGpRegister (← testCpu b [0xf6, 0xfa]) .X 0x05)
  let state := (StepState.unwrap (← run b cpu 6))
  check (decide (0x6002 = state.pc))
  check (decide (1 = (← Addressable.read b state.address_map 0xff)))
  check (decide ((false, false) = (state.ps.negative, state.ps.zero)))) := by
  decide +kernel

/-- `should_cycle_on_inx_implied_operation`, `src/cpu/mos6502/tests/mod.rs:1589-1599`. -/
example : passes (fun b => do
  let cpu := (withGpRegister (← testCpu b [0xe8]) .X 127)
  check (!cpu.ps.negative)
  let state := (StepState.unwrap (← run b cpu 2))
  check (decide (0x6001 = state.pc))
  check (decide (128 = state.x))
  check (decide ((true, false) = (state.ps.negative, state.ps.zero)))) := by
  decide +kernel

/-- `should_cycle_on_iny_implied_operation`, `src/cpu/mos6502/tests/mod.rs:1601-1611`. -/
example : passes (fun b => do
  let cpu := (withGpRegister (← testCpu b [0xc8]) .Y 127)
  check (!cpu.ps.negative)
  let state := (StepState.unwrap (← run b cpu 2))
  check (decide (0x6001 = state.pc))
  check (decide (128 = state.y))
  check (decide ((true, false) = (state.ps.negative, state.ps.zero)))) := by
  decide +kernel

/-- `should_cycle_on_jmp_absolute_operation`, `src/cpu/mos6502/tests/mod.rs:1613-1619`. -/
example : passes (fun b => do
  let cpu := (← testCpu b [0x4c, 0x50, 0x60])
  let state := (StepState.unwrap (← run b cpu 3))
  check (decide (0x6050 = state.pc))) := by
  decide +kernel

/-- `should_cycle_on_jmp_indirect_operation`, `src/cpu/mos6502/tests/mod.rs:1621-1627`. -/
example : passes (fun b => do
  let cpu := (← testCpu b [0x6c, 0x50, 0x60])
  let state := (StepState.unwrap (← run b cpu 5))
  check (decide (0xeaea = state.pc))) := by
  decide +kernel

/-- `should_cycle_on_jsr_absolute_operation`, `src/cpu/mos6502/tests/mod.rs:1629-1644`. -/
example : passes (fun b => do
  let cpu := (← testCpu b [0x20, 0x50, 0x60])
  let sph : Word := 0x1ff
  let spl : Word := 0x1fe
  let stack_base : Word := 0x0100
  let state := (StepState.unwrap (← run b cpu 6))
  check (decide (0x6050 = state.pc))
  check (decide (0x01fd = (stack_base + (u16OfU8 state.sp))))
  check (decide ((0x02, 0x60) = ((← Addressable.read b state.address_map spl), (← Addressable.read b
      state.address_map sph))))) := by
  decide +kernel

/-- `should_cycle_on_lda_immediate_operation`, `src/cpu/mos6502/tests/mod.rs:1646-1654`. -/
example : passes (fun b => do
  let cpu := (← testCpu b [0xa9, 0xff, 0xa9, 0x0f])
  let state := (StepState.unwrap (← run b cpu 4))
  check (decide (0x6004 = state.pc))
  check (decide (0x0f = state.acc))
  check (decide ((state.ps.negative, state.ps.zero) = (false, false)))) := by
  decide +kernel

/-- `should_cycle_on_lda_zeropage_operation`, `src/cpu/mos6502/tests/mod.rs:1656-1664`. -/
example : passes (fun b => do
  let cpu := (← testCpu b [0xa5, 0xff])
  let state := (StepState.unwrap (← run b cpu 3))
  check (decide (0x6002 = state.pc))
  check (decide (0x00 = state.acc))
  check (decide ((state.ps.negative, state.ps.zero) = (false, true)))) := by
  decide +kernel

/-- `should_cycle_on_lda_zeropage_indexed_with_x_operation`,
    `src/cpu/mos6502/tests/mod.rs:1666-1676`. -/
example : passes (fun b => do
  let cpu := (withGpRegister (← testCpu b [0xb5, 0x00]) .X 0x05)
  let cpu ← store b cpu 0x05 0xff
  let state := (StepState.unwrap (← run b cpu 4))
  check (decide (0x6002 = state.pc))
  check (decide (0xff = state.acc))
  check (decide ((state.ps.negative, state.ps.zero) = (true, false)))) := by
  decide +kernel

/-- `should_cycle_on_lda_absolute_operation`, `src/cpu/mos6502/tests/mod.rs:1678-1692`. -/
example : passes (fun b => do
  let ram_start : Word := 0x0200
  let ram_end : Word := 0x5fff
  let cpu := (← unwrapResult (registerAddressSpace (withGpRegister (← testCpu b [0xad, 0x00, 0x02])
      .Acc 0xff) ⟨ram_start, ram_end⟩ (← Memory.new b .readWrite ram_start ram_end)))
  let state := (StepState.unwrap (← run b cpu 4))
  check (decide (0x00 = state.acc))
  check (decide (0x00 = (← Addressable.read b state.address_map 0x0200)))
  check (decide ((state.ps.negative, state.ps.zero) = (false, true)))) := by
  decide +kernel

/-- `should_cycle_on_lda_absolute_indexed_with_x_operation`,
    `src/cpu/mos6502/tests/mod.rs:1694-1704`. -/
example : passes (fun b => do
  let cpu := (withGpRegister (← testCpu b [0xbd, 0x00, 0x00]) .X 0x05)
  let cpu ← store b cpu 0x05 0xff
  let state := (StepState.unwrap (← run b cpu 4))
  check (decide (0x6003 = state.pc))
  check (decide (0xff = state.acc))
  check (decide ((state.ps.negative, state.ps.zero) = (true, false)))) := by
  decide +kernel

/-- `should_cycle_on_lda_absolute_indexed_with_y_operation`,
    `src/cpu/mos6502/tests/mod.rs:1706-1716`. -/
example : passes (fun b => do
  let cpu := (withGpRegister (← testCpu b [0xb9, 0x00, 0x00]) .Y 0x05)
  let cpu ← store b cpu 0x05 0xff
  let state := (StepState.unwrap (← run b cpu 4))
  check (decide (0x6003 = state.pc))
  check (decide (0xff = state.acc))
  check (decide ((state.ps.negative, state.ps.zero) = (true, false)))) := by
  decide +kernel

/-- `should_cycle_on_lda_indirect_y_indexed_operation`, `src/cpu/mos6502/tests/mod.rs:1718-1730`. -/
example : passes (fun b => do
  let cpu := (withGpRegister (← testCpu b [0xb1, 0x00]) .Y 0x05)
  let cpu ← store b cpu 0x00 0xfa
  let cpu ← store b cpu 0x01 0x00
  let cpu ← store b cpu 0xff 0xea
  let state := (StepState.unwrap (← run b cpu 6))
  check (decide (0x6002 = state.pc))
  check (decide (0xea = state.acc))
  check (decide ((state.ps.negative, state.ps.zero) = (true, false)))) := by
  decide +kernel

/-- `should_cycle_on_lda_x_indexed_indirect_operation`, `src/cpu/mos6502/tests/mod.rs:1732-1744`. -/
example : passes (fun b => do
  let cpu := (withGpRegister (← testCpu b [0xa1, 0x05]) .X 0x00)
  let cpu ← store b cpu 0x05 0xff
  let cpu ← store b cpu 0x06 0x00
  let cpu ← store b cpu 0xff 0xea
  let state := (StepState.unwrap (← run b cpu 6))
  check (decide (0x6002 = state.pc))
  check (decide (0xea = state.acc))
  check (decide ((state.ps.negative, state.ps.zero) = (true, false)))) := by
  decide +kernel

/-- `should_cycle_on_ldx_absolute_operation`, `src/cpu/mos6502/tests/mod.rs:1746-1760`. -/
example : passes (fun b => do
  let ram_start : Word := 0x0200
  let ram_end : Word := 0x5fff
  let cpu := (← unwrapResult (registerAddressSpace (withGpRegister (← testCpu b [0xae, 0x00, 0x02])
      .X 0xff) ⟨ram_start, ram_end⟩ (← Memory.new b .readWrite ram_start ram_end)))
  let state := (StepState.unwrap (← run b cpu 4))
  check (decide (0x00 = state.x))
  check (decide (0x00 = (← Addressable.read b state.address_map 0x0200)))
  check (decide ((state.ps.negative, state.ps.zero) = (false, true)))) := by
  decide +kernel

/-- `should_cycle_on_ldx_absolute_indexed_with_y_operation`,
    `src/cpu/mos6502/tests/mod.rs:1762-1772`. -/
example : passes (fun b => do
  let cpu := (withGpRegister (← testCpu b [0xbe, 0x00, 0x00]) .Y 0x05)
  let cpu ← store b cpu 0x05 0xff
  let state := (StepState.unwrap (← run b cpu 4))
  check (decide (0x6003 = state.pc))
  check (decide (0xff = state.x))
  check (decide ((state.ps.negative, state.ps.zero) = (true, false)))) := by
  decide +kernel

/-- `should_cycle_on_ldx_immediate_operation`, `src/cpu/mos6502/tests/mod.rs:1774-1782`. -/
example : passes (fun b => do
  let cpu := (← testCpu b [0xa2, 0xff])
  let state := (StepState.unwrap (← run b cpu 2))
  check (decide (0x6002 = state.pc))
  check (decide (0xff = state.x))
  check (decide ((state.ps.negative, state.ps.zero) = (true, false)))) := by
  decide +kernel

/-- `should_cycle_on_ldx_zeropage_operation`, `src/cpu/mos6502/tests/mod.rs:1784-1792`. -/
example : passes (fun b => do
  let cpu := (← testCpu b [0xa6, 0xff])
  let state := (StepState.unwrap (← run b cpu 3))
  check (decide (0x6002 = state.pc))
  check (decide (0x00 = state.x))
  check (decide ((state.ps.negative, state.ps.zero) = (false, true)))) := by
  decide +kernel

/-- `should_cycle_on_ldx_zeropage_indexed_with_y_operation`,
    `src/cpu/mos6502/tests/mod.rs:1794-1804`. -/
example : passes (fun b => do
  let cpu := (withGpRegister (← testCpu b [0xb6, 0x00]) .Y 0x05)
  let cpu ← store b cpu 0x05 0xff
  let state := (StepState.unwrap (← run b cpu 4))
  check (decide (0x6002 = state.pc))
  check (decide (0xff = state.x))
  check (decide ((state.ps.negative, state.ps.zero) = (true, false)))) := by
  decide +kernel

/-- `should_cycle_on_ldy_absolute_operation`, `src/cpu/mos6502/tests/mod.rs:1806-1820`. -/
example : passes (fun b => do
  let ram_start : Word := 0x0200
  let ram_end : Word := 0x5fff
  let cpu := (← unwrapResult (registerAddressSpace (withGpRegister (← testCpu b [0xac, 0x00, 0x02])
      .Y 0xff) ⟨ram_start, ram_end⟩ (← Memory.new b .readWrite ram_start ram_end)))
  let state := (StepState.unwrap (← run b cpu 4))
  check (decide (0x00 = state.x))
  check (decide (0x00 = (← Addressable.read b state.address_map 0x0200)))
  check (decide ((state.ps.negative, state.ps.zero) = (false, true)))) := by
  decide +kernel

/-- `should_cycle_on_ldy_absolute_indexed_with_x_operation`,
    `src/cpu/mos6502/tests/mod.rs:1822-1832`. -/
example : passes (fun b => do
  let cpu := (withGpRegister (← testCpu b [0xbc, 0x00, 0x00]) .X 0x05)
  let cpu ← store b cpu 0x05 0xff
  let state := (StepState.unwrap (← run b cpu 4))
  check (decide (0x6003 = state.pc))
  check (decide (0xff = state.y))
  check (decide ((state.ps.negative, state.ps.zero) = (true, false)))) := by
  decide +kernel

/-- `should_cycle_on_ldy_immediate_operation`, `src/cpu/mos6502/tests/mod.rs:1834-1842`. -/
example : passes (fun b => do
  let cpu := (← testCpu b [0xa0, 0xff])
  let state := (StepState.unwrap (← run b cpu 2))
  check (decide (0x6002 = state.pc))
  check (decide (0xff = state.y))
  check (decide ((state.ps.negative, state.ps.zero) = (true, false)))) := by
  decide +kernel

/-- `should_cycle_on_ldy_zeropage_operation`, `src/cpu/mos6502/tests/mod.rs:1844-1852`. -/
example : passes (fun b => do
  let cpu := (← testCpu b [0xa4, 0xff])
  let state := (StepState.unwrap (← run b cpu 3))
  check (decide (0x6002 = state.pc))
  check (decide (0x00 = state.y))
  check (decide ((state.ps.negative, state.ps.zero) = (false, true)))) := by
  decide +kernel

/-- `should_cycle_on_ldy_zeropage_indexed_with_x_operation`,
    `src/cpu/mos6502/tests/mod.rs:1854-1864`. -/
example : passes (fun b => do
  let cpu := (withGpRegister (← testCpu b [0xb4, 0x00]) .X 0x05)
  let cpu ← store b cpu 0x05 0xff
  let state := (StepState.unwrap (← run b cpu 4))
  check (decide (0x6002 = state.pc))
  check (decide (0xff = state.y))
  check (decide ((state.ps.negative, state.ps.zero) = (true, false)))) := by
  decide +kernel

/-- `should_cycle_on_lsr_absolute_operation`, `src/cpu/mos6502/tests/mod.rs:1866-1878`. -/
example : passes (fun b => do
  let cpu := (← testCpu b [0x4e, 0xff, 0x00])
  let cpu ← store b cpu 0x00ff 0x55
  let state := (StepState.unwrap (← run b cpu 6))
  check (decide (0x6003 = state.pc))
  check (decide (0x2a = (← Addressable.read b state.address_map 0x00ff)))
  check (decide ((state.ps.carry, state.ps.negative, state.ps.zero) = (true, false, false)))) := by
  decide +kernel

/-- `should_cycle_on_lsr_absolute_indexed_with_x_operation`,
    `src/cpu/mos6502/tests/mod.rs:1880-1893`. -/
example : passes (fun b => do
  let cpu := (withGpRegister (← testCpu b [0x5e, 0xfa, 0x00]) .X 0x05)
  let cpu ← store b cpu 0x00ff 0x55
  let state := (StepState.unwrap (← run b cpu 7))
  check (decide (0x6003 = state.pc))
  check (decide (0x2a = (← Addressable.read b state.address_map 0x00ff)))
  check (decide ((state.ps.carry, state.ps.negative, state.ps.zero) = (true, false, false)))) := by
  decide +kernel

/-- `should_cycle_on_lsr_accumulator_operation`, `src/cpu/mos6502/tests/mod.rs:1895-1907`. -/
example : passes (fun b => do
  let cpu := (withGpRegister (← testCpu b [0x4a]) .Acc 0x55)
  let state := (StepState.unwrap (← run b cpu 2))
  check (decide (0x6001 = state.pc))
  check (decide (0x2a = state.acc))
  check (decide ((state.ps.carry, state.ps.negative, state.ps.zero) = (true, false, false)))) := by
  decide +kernel

/-- `should_cycle_on_lsr_zeropage_operation`, `src/cpu/mos6502/tests/mod.rs:1909-1921`. -/
example : passes (fun b => do
  let cpu := (← testCpu b [0x46, 0xff])
  let cpu ← store b cpu 0x00ff 0x55
  let state := (StepState.unwrap (← run b cpu 5))
  check (decide (0x6002 = state.pc))
  check (decide (0x2a = (← Addressable.read b state.address_map 0x00ff)))
  check (decide ((state.ps.carry, state.ps.negative, state.ps.zero) = (true, false, false)))) := by
  decide +kernel

/-- `should_cycle_on_lsr_zeropage_indexed_with_x_operation`,
    `src/cpu/mos6502/tests/mod.rs:1923-1936`. -/
example : passes (fun b => do
  let cpu := (withGpRegister (← testCpu b [0x56, 0xfa]) .X 0x05)
  let cpu ← store b cpu 0x00ff 0x55
  let state := (StepState.unwrap (← run b cpu 6))
  check (decide (0x6002 = state.pc))
  check (decide (0x2a = (← Addressable.read b state.address_map 0x00ff)))
  check (decide ((state.ps.carry, state.ps.negative, state.ps.zero) = (true, false, false)))) := by
  decide +kernel

/-- `should_cycle_on_nop_implied_operation`, `src/cpu/mos6502/tests/mod.rs:1938-1947`. -/
example : passes (fun b => do
  let cpu := (← testCpu b [])
  let state := (StepState.unwrap (← run b cpu 3))
  check (decide (0x6001 = state.pc))
  let next_state := (StepState.unwrap (← run b state 2))
  check (decide (0x6002 = next_state.pc))) := by
  decide +kernel

/-- `should_cycle_on_ora_absolute_operation`, `src/cpu/mos6502/tests/mod.rs:1949-1959`. -/
example : passes (fun b => do
  let cpu := (withGpRegister (← testCpu b [0x0d, 0xff, 0x00]) .Acc 0xff)
  let cpu ← store b cpu 0x00ff 0x55
  let state := (StepState.unwrap (← run b cpu 4))
  check (decide (0x6003 = state.pc))
  check (decide (0xff = state.acc))
  check (decide ((state.ps.negative, state.ps.zero) = (true, false)))) := by
  decide +kernel

/-- `should_cycle_on_ora_absolute_indexed_with_x_operation`,
    `src/cpu/mos6502/tests/mod.rs:1961-1972`. -/
example : passes (fun b => do
  let cpu := (withGpRegister (withGpRegister (← testCpu b [0x1d, 0xfa, 0x00]) .X 0x05) .Acc 0xff)
  let cpu ← store b cpu 0x00ff 0x55
  let state := (StepState.unwrap (← run b cpu 4))
  check (decide (0x6003 = state.pc))
  check (decide (0xff = state.acc))
  check (decide ((state.ps.negative, state.ps.zero) = (true, false)))) := by
  decide +kernel

/-- `should_cycle_on_ora_absolute_indexed_with_y_operation`,
    `src/cpu/mos6502/tests/mod.rs:1974-1985`. -/
example : passes (fun b => do
  let cpu := (withGpRegister (withGpRegister (← testCpu b [0x19, 0xfa, 0x00]) .Y 0x05) .Acc 0xff)
  let cpu ← store b cpu 0x00ff 0x55
  let state := (StepState.unwrap (← run b cpu 4))
  check (decide (0x6003 = state.pc))
  check (decide (0xff = state.acc))
  check (decide ((state.ps.negative, state.ps.zero) = (true, false)))) := by
  decide +kernel

/-- `should_cycle_on_ora_indirect_y_indexed_operation`, `src/cpu/mos6502/tests/mod.rs:1987-2000`. -/
example : passes (fun b => do
  let cpu := (withGpRegister (withGpRegister (← testCpu b [0x11, 0x00]) .Acc 0xff) .Y 0x05)
  let cpu ← store b cpu 0x00 0xfa
  let cpu ← store b cpu 0x01 0x00
  let cpu ← store b cpu 0xff 0x55
  let state := (StepState.unwrap (← run b cpu 5))
  check (decide (0x6002 = state.pc))
  check (decide (0xff = state.acc))
  check (decide ((state.ps.negative, state.ps.zero) = (true, false)))) := by
  decide +kernel

/-- `should_cycle_on_ora_immediate_operation`, `src/cpu/mos6502/tests/mod.rs:2002-2011`. -/
example : passes (fun b => do
  let cpu := (withGpRegister (← testCpu b [0x09, 0x55]) .Acc 0xff)
  let state := (StepState.unwrap (← run b cpu 2))
  check (decide (0x6002 = state.pc))
  check (decide (0xff = state.acc))
  check (decide ((state.ps.negative, state.ps.zero) = (true, false)))) := by
  decide +kernel

/-- `should_cycle_on_ora_x_indexed_indirect_operation`, `src/cpu/mos6502/tests/mod.rs:2013-2026`. -/
example : passes (fun b => do
  let cpu := (withGpRegister (withGpRegister (← testCpu b [0x01, 0x00]) .Acc 0xff) .X 0x05)
  let cpu ← store b cpu 0x05 0xff
  let cpu ← store b cpu 0x06 0x00
  let cpu ← store b cpu 0xff 0x55
  let state := (StepState.unwrap (← run b cpu 6))
  check (decide (0x6002 = state.pc))
  check (decide (0xff = state.acc))
  check (decide ((state.ps.negative, state.ps.zero) = (true, false)))) := by
  decide +kernel

/-- `should_cycle_on_ora_zeropage_operation`, `src/cpu/mos6502/tests/mod.rs:2028-2038`. -/
example : passes (fun b => do
  let cpu := (withGpRegister (← testCpu b [0x05, 0xff]) .Acc 0xff)
  let cpu ← store b cpu 0x00ff 0x55
  let state := (StepState.unwrap (← run b cpu 3))
  check (decide (0x6002 = state.pc))
  check (decide (0xff = state.acc))
  check (decide ((state.ps.negative, state.ps.zero) = (true, false)))) := by
  decide +kernel

/-- `should_cycle_on_ora_zeropage_indexed_with_x_operation`,
    `src/cpu/mos6502/tests/mod.rs:2040-2051`. -/
example : passes (fun b => do
  let cpu := (withGpRegister (withGpRegister (← testCpu b [0x15, 0xfa]) .Acc 0xff) .X 0x05)
  let cpu ← store b cpu 0x00ff 0x55
  let state := (StepState.unwrap (← run b cpu 4))
  check (decide (0x6002 = state.pc))
  check (decide (0xff = state.acc))
  check (decide ((state.ps.negative, state.ps.zero) = (true, false)))) := by
  decide +kernel

/-- `should_cycle_on_pha_implied_operation`, `src/cpu/mos6502/tests/mod.rs:2053-2061`. -/
example : passes (fun b => do
  let cpu := (withGpRegister (← testCpu b [0x48]) .Acc 0xff)
  let state := (StepState.unwrap (← run b cpu 3))
  check (decide (0x6001 = state.pc))
  check (decide (0xff = (← Addressable.read b state.address_map 0x01ff)))) := by
  decide +kernel

/-- `should_cycle_on_php_implied_operation`, `src/cpu/mos6502/tests/mod.rs:2063-2071`. -/
example : passes (fun b => do
  let cpu := (withPsRegister (← testCpu b [0x08]) (ProcessorStatus.withValue 0x55))
  let state := (StepState.unwrap (← run b cpu 3))
  check (decide (0x6001 = state.pc))
  check (decide (0x55 = (← Addressable.read b state.address_map 0x01ff)))) := by
  decide +kernel

/-- `should_cycle_on_pla_implied_operation`, `src/cpu/mos6502/tests/mod.rs:2073-2084`. -/
example : passes (fun b => do
  let cpu := (withSpRegister (← testCpu b [0x68]) 0xfe)
  let cpu ← store b cpu 0x01ff 0xff
  let state := (StepState.unwrap (← run b cpu 4))
  check (decide (0x6001 = state.pc))
  check (decide (0xff = state.acc))
  check (decide ((true, false) = (state.ps.negative, state.ps.zero)))) := by
  decide +kernel

/-- `should_cycle_on_plp_implied_operation`, `src/cpu/mos6502/tests/mod.rs:2086-2096`. -/
example : passes (fun b => do
  let cpu := (withSpRegister (← testCpu b [0x28]) 0xfe)
  let cpu ← store b cpu 0x01ff 0x55
  let state := (StepState.unwrap (← run b cpu 4))
  check (decide (0x6001 = state.pc))
  check (decide (0x55 = (state.ps).read))) := by
  decide +kernel

/-- `should_cycle_on_rol_absolute_operation`, `src/cpu/mos6502/tests/mod.rs:2098-2114`. -/
example : passes (fun b => do
  let cpu := (withPsRegister (← testCpu b [0x2e, 0xff, 0x00]) ({ (ProcessorStatus.default :
      ProcessorStatus) with carry := true }))
  let cpu ← store b cpu 0x00ff 0xaa
  let state := (StepState.unwrap (← run b cpu 6))
  check (decide (0x6003 = state.pc))
  check (decide (0x55 = (← Addressable.read b state.address_map 0x00ff)))
  check (decide ((state.ps.carry, state.ps.negative, state.ps.zero) = (true, false, false)))) := by
  decide +kernel

/-- `should_cycle_on_rol_absolute_indexed_with_x_operation`,
    `src/cpu/mos6502/tests/mod.rs:2116-2134`. -/
example : passes (fun b => do
  let cpu := (withPsRegister (withGpRegister (← testCpu b [0x3e, 0xfa, 0x00]) .X 0x05) ({
      (ProcessorStatus.default : ProcessorStatus) with carry := true }))
  let cpu ← store b cpu 0x00ff 0xaa
  let state := (StepState.unwrap (← run b cpu 7))
  check (decide (0x6003 = state.pc))
  check (decide (0x55 = (← Addressable.read b state.address_map 0x00ff)))
  check (decide ((state.ps.carry, state.ps.negative, state.ps.zero) = (true, false, false)))) := by
  decide +kernel

/-- `should_cycle_on_rol_accumulator_operation`, `src/cpu/mos6502/tests/mod.rs:2136-2153`. -/
example : passes (fun b => do
  let cpu := (withPsRegister (withGpRegister (← testCpu b [0x2a]) .Acc 0xaa) ({
      (ProcessorStatus.default : ProcessorStatus) with carry := true }))
  let state := (StepState.unwrap (← run b cpu 2))
  check (decide (0x6001 = state.pc))
  check (decide (0x55 = state.acc))
  check (decide ((state.ps.carry, state.ps.negative, state.ps.zero) = (true, false, false)))) := by
  decide +kernel

/-- `should_cycle_on_rol_zeropage_operation`, `src/cpu/mos6502/tests/mod.rs:2155-2171`. -/
example : passes (fun b => do
  let cpu := (withPsRegister (← testCpu b [0x26, 0xff]) ({ (ProcessorStatus.default :
      ProcessorStatus) with carry := true }))
  let cpu ← store b cpu 0x00ff 0xaa
  let state := (StepState.unwrap (← run b cpu 5))
  check (decide (0x6002 = state.pc))
  check (decide (0x55 = (← Addressable.read b state.address_map 0x00ff)))
  check (decide ((state.ps.carry, state.ps.negative, state.ps.zero) = (true, false, false)))) := by
  decide +kernel

/-- `should_cycle_on_rol_zeropage_indexed_with_x_operation`,
    `src/cpu/mos6502/tests/mod.rs:2173-2191`. -/
example : passes (fun b => do
  let cpu := (withPsRegister (withGpRegister (← testCpu b [0x36, 0xfa]) .X 0x05) ({
      (ProcessorStatus.default : ProcessorStatus) with carry := true }))
  let cpu ← store b cpu 0x00ff 0xaa
  let state := (StepState.unwrap (← run b cpu 6))
  check (decide (0x6002 = state.pc))
  check (decide (0x55 = (← Addressable.read b state.address_map 0x00ff)))
  check (decide ((state.ps.carry, state.ps.negative, state.ps.zero) = (true, false, false)))) := by
  decide +kernel

/-- `should_cycle_on_ror_absolute_operation`, `src/cpu/mos6502/tests/mod.rs:2193-2209`. -/
example : passes (fun b => do
  let cpu := (withPsRegister (← testCpu b [0x6e, 0xff, 0x00]) ({ (ProcessorStatus.default :
      ProcessorStatus) with carry := true }))
  let cpu ← store b cpu 0x00ff 0xaa
  let state := (StepState.unwrap (← run b cpu 6))
  check (decide (0x6003 = state.pc))
  check (decide (0xd5 = (← Addressable.read b state.address_map 0x00ff)))
  check (decide ((state.ps.carry, state.ps.negative, state.ps.zero) = (false, true, false)))) := by
  decide +kernel

/-- `should_cycle_on_ror_absolute_indexed_with_x_operation`,
    `src/cpu/mos6502/tests/mod.rs:2211-2229`. -/
example : passes (fun b => do
  let cpu := (withPsRegister (withGpRegister (← testCpu b [0x7e, 0xfa, 0x00]) .X 0x05) ({
      (ProcessorStatus.default : ProcessorStatus) with carry := true }))
  let cpu ← store b cpu 0x00ff 0xaa
  let state := (StepState.unwrap (← run b cpu 7))
  check (decide (0x6003 = state.pc))
  check (decide (0xd5 = (← Addressable.read b state.address_map 0x00ff)))
  check (decide ((state.ps.carry, state.ps.negative, state.ps.zero) = (false, true, false)))) := by
  decide +kernel

/-- `should_cycle_on_ror_accumulator_operation`, `src/cpu/mos6502/tests/mod.rs:2231-2248`. -/
example : passes (fun b => do
  let cpu := (withPsRegister (withGpRegister (← testCpu b [0x6a]) .Acc 0xaa) ({
      (ProcessorStatus.default : ProcessorStatus) with carry := true }))
  let state := (StepState.unwrap (← run b cpu 2))
  check (decide (0x6001 = state.pc))
  check (decide (0xd5 = state.acc))
  check (decide ((state.ps.carry, state.ps.negative, state.ps.zero) = (false, true, false)))) := by
  decide +kernel

/-- `should_cycle_on_ror_zeropage_operation`, `src/cpu/mos6502/tests/mod.rs:2250-2266`. -/
example : passes (fun b => do
  let cpu := (withPsRegister (← testCpu b [0x66, 0xff]) ({ (ProcessorStatus.default :
      ProcessorStatus) with carry := true }))
  let cpu ← store b cpu 0x00ff 0xaa
  let state := (StepState.unwrap (← run b cpu 5))
  check (decide (0x6002 = state.pc))
  check (decide (0xd5 = (← Addressable.read b state.address_map 0x00ff)))
  check (decide ((state.ps.carry, state.ps.negative, state.ps.zero) = (false, true, false)))) := by
  decide +kernel

/-- `should_cycle_on_ror_zeropage_indexed_with_x_operation`,
    `src/cpu/mos6502/tests/mod.rs:2268-2286`. -/
example : passes (fun b => do
  let cpu := (withPsRegister (withGpRegister (← testCpu b [0x76, 0xfa]) .X 0x05) ({
      (ProcessorStatus.default : ProcessorStatus) with carry := true }))
  let cpu ← store b cpu 0x00ff 0xaa
  let state := (StepState.unwrap (← run b cpu 6))
  check (decide (0x6002 = state.pc))
  check (decide (0xd5 = (← Addressable.read b state.address_map 0x00ff)))
  check (decide ((state.ps.carry, state.ps.negative, state.ps.zero) = (false, true, false)))) := by
  decide +kernel

/-- `should_cycle_on_rti_implied_operation`, `src/cpu/mos6502/tests/mod.rs:2288-2314`. -/
example : passes (fun b => do
  let cpu := (withPsRegister (withSpRegister (← testCpu b [0x40]) 0xfc) ({ (ProcessorStatus.default
      : ProcessorStatus) with brk := true, interrupt_disable := true }))
  let cpu ← store b cpu 0x01ff 0x12
  let cpu ← store b cpu 0x01fe 0x34
  let cpu ← store b cpu 0x01fd (ProcessorStatus.read { (ProcessorStatus.default : ProcessorStatus)
      with brk := false, interrupt_disable := false })
  let state := (StepState.unwrap (← run b cpu 6))
  check (decide (0xff = state.sp))
  check (decide (0x1235 = state.pc))
  check (decide ((false, false) = (state.ps.brk, state.ps.interrupt_disable)))) := by
  decide +kernel

/-- `should_cycle_on_rts_implied_operation`, `src/cpu/mos6502/tests/mod.rs:2316-2326`. -/
example : passes (fun b => do
  let cpu := (withSpRegister (← testCpu b [0x60]) 0xfd)
  let cpu ← store b cpu 0x01ff 0x60
  let cpu ← store b cpu 0x01fe 0x02
  let state := (StepState.unwrap (← run b cpu 6))
  check (decide (0xff = state.sp))
  check (decide (0x6003 = state.pc))) := by
  decide +kernel

/-- `should_cycle_on_sbc_absolute_operation_with_overflow`,
    `src/cpu/mos6502/tests/mod.rs:2328-2351`. -/
example : passes (fun b => do
  let cpu := (withPsRegister (withGpRegister (← testCpu b [0xed, 0xff, 0x00]) .Acc 0x50) ({ ((←
      defaultCpu b).ps : ProcessorStatus) with carry := true }))
  let cpu ← store b cpu 0x00ff 0xb0
  let state := (StepState.unwrap (← run b cpu 4))
  check (decide (0x6003 = state.pc))
  check (decide (0xa0 = state.acc))
  check (decide ((state.ps.carry, state.ps.negative, state.ps.overflow, state.ps.zero) = (false,
      true, true, false)))) := by
  decide +kernel

/-- `should_cycle_on_sbc_absolute_operation_without_overflow`,
    `src/cpu/mos6502/tests/mod.rs:2353-2371`. -/
example : passes (fun b => do
  let cpu := (withGpRegister (← testCpu b [0xed, 0xff, 0x00]) .Acc 0xff)
  let cpu ← store b cpu 0x00ff 0x80
  let state := (StepState.unwrap (← run b cpu 4))
  check (decide (0x6003 = state.pc))
  check (decide (0x7e = state.acc))
  check (decide ((state.ps.carry, state.ps.negative, state.ps.overflow, state.ps.zero) = (true,
      false, false, false)))) := by
  decide +kernel

/-- `should_cycle_on_sbc_absolute_indexed_with_x_operation_with_overflow`,
    `src/cpu/mos6502/tests/mod.rs:2373-2397`. -/
example : passes (fun b => do
  let cpu := (withPsRegister (withGpRegister (withGpRegister (← testCpu b [0xfd, 0xfa, 0x00]) .Acc
      0x50) .X 0x05) ({ ((← defaultCpu b).ps : ProcessorStatus) with carry := true }))
  let cpu ← store b cpu 0x00ff 0xb0
  let state := (StepState.unwrap (← run b cpu 4))
  check (decide (0x6003 = state.pc))
  check (decide (0xa0 = state.acc))
  check (decide ((state.ps.carry, state.ps.negative, state.ps.overflow, state.ps.zero) = (false,
      true, true, false)))) := by
  decide +kernel

/-- `should_cycle_on_sbc_absolute_indexed_with_x_operation_without_overflow`,
    `src/cpu/mos6502/tests/mod.rs:2399-2418`. -/
example : passes (fun b => do
  let cpu := (withGpRegister (withGpRegister (← testCpu b [0xfd, 0xfa, 0x00]) .Acc 0xff) .X 0x05)
  let cpu ← store b cpu 0x00ff 0x80
  let state := (StepState.unwrap (← run b cpu 4))
  check (decide (0x6003 = state.pc))
  check (decide (0x7e = state.acc))
  check (decide ((state.ps.carry, state.ps.negative, state.ps.overflow, state.ps.zero) = (true,
      false, false, false)))) := by
  decide +kernel

/-- `should_cycle_on_sbc_absolute_indexed_with_y_operation_with_overflow`,
    `src/cpu/mos6502/tests/mod.rs:2420-2444`. -/
example : passes (fun b => do
  let cpu := (withPsRegister (withGpRegister (withGpRegister (← testCpu b [0xf9, 0xfa, 0x00]) .Acc
      0x50) .Y 0x05) ({ ((← defaultCpu b).ps : ProcessorStatus) with carry := true }))
  let cpu ← store b cpu 0x00ff 0xb0
  let state := (StepState.unwrap (← run b cpu 4))
  check (decide (0x6003 = state.pc))
  check (decide (0xa0 = state.acc))
  check (decide ((state.ps.carry, state.ps.negative, state.ps.overflow, state.ps.zero) = (false,
      true, true, false)))) := by
  decide +kernel

/-- `should_cycle_on_sbc_absolute_indexed_with_y_operation_without_overflow`,
    `src/cpu/mos6502/tests/mod.rs:2446-2465`. -/
example : passes (fun b => do
  let cpu := (withGpRegister (withGpRegister (← testCpu b [0xf9, 0xfa, 0x00]) .Acc 0xff) .Y 0x05)
  let cpu ← store b cpu 0x00ff 0x80
  let state := (StepState.unwrap (← run b cpu 4))
  check (decide (0x6003 = state.pc))
  check (decide (0x7e = state.acc))
  check (decide ((state.ps.carry, state.ps.negative, state.ps.overflow, state.ps.zero) = (true,
      false, false, false)))) := by
  decide +kernel

/-- `should_cycle_on_sbc_indirect_y_indexed_operation_with_overflow`,
    `src/cpu/mos6502/tests/mod.rs:2467-2493`. -/
example : passes (fun b => do
  let cpu := (withPsRegister (withGpRegister (withGpRegister (← testCpu b [0xf1, 0x00]) .Acc 0x50)
      .Y 0x05) ({ ((← defaultCpu b).ps : ProcessorStatus) with carry := true }))
  let cpu ← store b cpu 0x00 0xfa
  let cpu ← store b cpu 0x01 0x00
  let cpu ← store b cpu 0xff 0xb0
  let state := (StepState.unwrap (← run b cpu 5))
  check (decide (0x6002 = state.pc))
  check (decide (0xa0 = state.acc))
  check (decide ((state.ps.carry, state.ps.negative, state.ps.overflow, state.ps.zero) = (false,
      true, true, false)))) := by
  decide +kernel

/-- `should_cycle_on_sbc_indirect_y_indexed_operation_without_overflow`,
    `src/cpu/mos6502/tests/mod.rs:2495-2516`. -/
example : passes (fun b => do
  let cpu := (withGpRegister (withGpRegister (← testCpu b [0xf1, 0x00]) .Acc 0xff) .Y 0x05)
  let cpu ← store b cpu 0x00 0xfa
  let cpu ← store b cpu 0x01 0x00
  let cpu ← store b cpu 0xff 0x80
  let state := (StepState.unwrap (← run b cpu 5))
  check (decide (0x6002 = state.pc))
  check (decide (0x7e = state.acc))
  check (decide ((state.ps.carry, state.ps.negative, state.ps.overflow, state.ps.zero) = (true,
      false, false, false)))) := by
  decide +kernel

/-- `should_cycle_on_sbc_immediate_operation_with_overflow`,
    `src/cpu/mos6502/tests/mod.rs:2518-2545`. -/
example : passes (fun b => do
  let cpu := (withPsRegister (withGpRegister (← testCpu b [0xe9, 0xb0]) .Acc 0x50) ({ ((← defaultCpu
      b).ps : ProcessorStatus) with carry := true }))
  let ps := cpu.ps
  let ps := { ps with carry := true }
  let cpu := { cpu with ps := ps }
  let state := (StepState.unwrap (← run b cpu 2))
  check (decide (0x6002 = state.pc))
  check (decide (0xa0 = state.acc))
  check (decide ((state.ps.carry, state.ps.negative, state.ps.overflow, state.ps.zero) = (false,
      true, true, false)))) := by
  decide +kernel

/-- `should_cycle_on_sbc_immediate_operation_without_overflow`,
    `src/cpu/mos6502/tests/mod.rs:2547-2564`. -/
example : passes (fun b => do
  let cpu := (withGpRegister (← testCpu b [0xe9, 0x80]) .Acc 0xff)
  let state := (StepState.unwrap (← run b cpu 2))
  check (decide (0x6002 = state.pc))
  check (decide (0x7e = state.acc))
  check (decide ((state.ps.carry, state.ps.negative, state.ps.overflow, state.ps.zero) = (true,
      false, false, false)))) := by
  decide +kernel

/-- `should_cycle_on_sbc_x_indexed_indirect_operation_with_overflow`,
    `src/cpu/mos6502/tests/mod.rs:2566-2592`. -/
example : passes (fun b => do
  let cpu := (withPsRegister (withGpRegister (withGpRegister (← testCpu b [0xe1, 0x00]) .Acc 0x50)
      .X 0x05) ({ ((← defaultCpu b).ps : ProcessorStatus) with carry := true }))
  let cpu ← store b cpu 0x05 0xff
  let cpu ← store b cpu 0x06 0x00
  let cpu ← store b cpu 0xff 0xb0
  let state := (StepState.unwrap (← run b cpu 6))
  check (decide (0x6002 = state.pc))
  check (decide (0xa0 = state.acc))
  check (decide ((state.ps.carry, state.ps.negative, state.ps.overflow, state.ps.zero) = (false,
      true, true, false)))) := by
  decide +kernel

/-- `should_cycle_on_sbc_x_indexed_indirect_operation_without_overflow`,
    `src/cpu/mos6502/tests/mod.rs:2594-2615`. -/
example : passes (fun b => do
  let cpu := (withGpRegister (withGpRegister (← testCpu b [0xe1, 0x00]) .Acc 0xff) .X 0x05)
  let cpu ← store b cpu 0x05 0xff
  let cpu ← store b cpu 0x06 0x00
  let cpu ← store b cpu 0xff 0x80
  let state := (StepState.unwrap (← run b cpu 6))
  check (decide (0x6002 = state.pc))
  check (decide (0x7e = state.acc))
  check (decide ((state.ps.carry, state.ps.negative, state.ps.overflow, state.ps.zero) = (true,
      false, false, false)))) := by
  decide +kernel

/-- `should_cycle_on_sbc_zeropage_operation_with_overflow`,
    `src/cpu/mos6502/tests/mod.rs:2617-2640`. -/
example : passes (fun b => do
  let cpu := (withPsRegister (withGpRegister (← testCpu b [0xe5, 0xff]) .Acc 0x50) ({ ((← defaultCpu
      b).ps : ProcessorStatus) with carry := true }))
  let cpu ← store b cpu 0x00ff 0xb0
  let state := (StepState.unwrap (← run b cpu 3))
  check (decide (0x6002 = state.pc))
  check (decide (0xa0 = state.acc))
  check (decide ((state.ps.carry, state.ps.negative, state.ps.overflow, state.ps.zero) = (false,
      true, true, false)))) := by
  decide +kernel

/-- `should_cycle_on_sbc_zeropage_operation_without_overflow`,
    `src/cpu/mos6502/tests/mod.rs:2642-2660`. -/
example : passes (fun b => do
  let cpu := (withGpRegister (← testCpu b [0xe5, 0xff]) .Acc 0xff)
  let cpu ← store b cpu 0x00ff 0x80
  let state := (StepState.unwrap (← run b cpu 3))
  check (decide (0x6002 = state.pc))
  check (decide (0x7e = state.acc))
  check (decide ((state.ps.carry, state.ps.negative, state.ps.overflow, state.ps.zero) = (true,
      false, false, false)))) := by
  decide +kernel

/-- `should_cycle_on_sbc_zeropage_indexed_with_x_operation_with_overflow`,
    `src/cpu/mos6502/tests/mod.rs:2662-2686`. -/
example : passes (fun b => do
  let cpu := (withPsRegister (withGpRegister (withGpRegister (← testCpu b [0xf5, 0xfa]) .Acc 0x50)
      .X 0x05) ({ ((← defaultCpu b).ps : ProcessorStatus) with carry := true }))
  let cpu ← store b cpu 0x00ff 0xb0
  let state := (StepState.unwrap (← run b cpu 4))
  check (decide (0x6002 = state.pc))
  check (decide (0xa0 = state.acc))
  check (decide ((state.ps.carry, state.ps.negative, state.ps.overflow, state.ps.zero) = (false,
      true, true, false)))) := by
  decide +kernel

/-- `should_cycle_on_sbc_zeropage_indexed_with_x_operation_without_overflow`,
    `src/cpu/mos6502/tests/mod.rs:2688-2707`. -/
example : passes (fun b => do
  let cpu := (withGpRegister (withGpRegister (← testCpu b [0xf5, 0xfa]) .Acc 0xff) .X 0x05)
  let cpu ← store b cpu 0x00ff 0x80
  let state := (StepState.unwrap (← run b cpu 4))
  check (decide (0x6002 = state.pc))
  check (decide (0x7e = state.acc))
  check (decide ((state.ps.carry, state.ps.negative, state.ps.overflow, state.ps.zero) = (true,
      false, false, false)))) := by
  decide +kernel

/-- `should_cycle_on_sec_implied_operation`, `src/cpu/mos6502/tests/mod.rs:2709-2717`. -/
example : passes (fun b => do
  let cpu := (← testCpu b [0x38])
  let cpu := { cpu with ps := { cpu.ps with carry := false } }
  let state := (StepState.unwrap (← run b cpu 2))
  check (decide (0x6001 = state.pc))
  check state.ps.carry) := by
  decide +kernel

/-- `should_cycle_on_sed_implied_operation`, `src/cpu/mos6502/tests/mod.rs:2719-2726`. -/
example : passes (fun b => do
  let cpu := (← testCpu b [0xf8])
  let state := (StepState.unwrap (← run b cpu 2))
  check (decide (0x6001 = state.pc))
  check state.ps.decimal) := by
  decide +kernel

/-- `should_cycle_on_sei_implied_operation`, `src/cpu/mos6502/tests/mod.rs:2728-2735`. -/
example : passes (fun b => do
  let cpu := (← testCpu b [0x78])
  let state := (StepState.unwrap (← run b cpu 2))
  check (decide (0x6001 = state.pc))
  check state.ps.interrupt_disable) := by
  decide +kernel

/-- `should_cycle_on_sta_absolute_operation`, `src/cpu/mos6502/tests/mod.rs:2737-2749`. -/
example : passes (fun b => do
  let ram_start : Word := 0x0200
  let ram_end : Word := 0x5fff
  let cpu := (← unwrapResult (registerAddressSpace (withGpRegister (← testCpu b [0x8d, 0x00, 0x02])
      .Acc 0xff) ⟨ram_start, ram_end⟩ (← Memory.new b .readWrite ram_start ram_end)))
  let state := (StepState.unwrap (← run b cpu 4))
  check (decide (0x6003 = state.pc))
  check (decide (0xff = state.acc))
  check (decide (0xff = (← Addressable.read b state.address_map 0x0200)))) := by
  decide +kernel

/-- `should_cycle_on_sta_absolute_indexed_with_x_operation`,
    `src/cpu/mos6502/tests/mod.rs:2751-2764`. -/
example : passes (fun b => do
  let ram_start : Word := 0x0200
  let ram_end : Word := 0x5fff
  let cpu := (← unwrapResult (registerAddressSpace (withGpRegister (withGpRegister (← testCpu b
      [0x9d, 0x00, 0x02]) .X 0x5) .Acc 0xff) ⟨ram_start, ram_end⟩ (← Memory.new b .readWrite
      ram_start ram_end)))
  let state := (StepState.unwrap (← run b cpu 5))
  check (decide (0x6003 = state.pc))
  check (decide (0xff = state.acc))
  check (decide (0xff = (← Addressable.read b state.address_map 0x0205)))) := by
  decide +kernel

/-- `should_cycle_on_sta_absolute_indexed_with_y_operation`,
    `src/cpu/mos6502/tests/mod.rs:2766-2779`. -/
example : passes (fun b => do
  let ram_start : Word := 0x0200
  let ram_end : Word := 0x5fff
  let cpu := (← unwrapResult (registerAddressSpace (withGpRegister (withGpRegister (← testCpu b
      [0x99, 0x00, 0x02]) .Y 0x5) .Acc 0xff) ⟨ram_start, ram_end⟩ (← Memory.new b .readWrite
      ram_start ram_end)))
  let state := (StepState.unwrap (← run b cpu 5))
  check (decide (0x6003 = state.pc))
  check (decide (0xff = state.acc))
  check (decide (0xff = (← Addressable.read b state.address_map 0x0205)))) := by
  decide +kernel

/-- `should_cycle_on_sta_y_indexed_indirect_operation`, `src/cpu/mos6502/tests/mod.rs:2781-2793`. -/
example : passes (fun b => do
  let cpu := (withGpRegister (withGpRegister (← testCpu b [0x91, 0x00]) .Y 0x05) .Acc 0xff)
  let cpu ← store b cpu 0x00 0xfa
  let cpu ← store b cpu 0x01 0x00
  let state := (StepState.unwrap (← run b cpu 6))
  check (decide (0x6002 = state.pc))
  check (decide (0xff = state.acc))
  check (decide (0xff = (← Addressable.read b state.address_map 0xff)))) := by
  decide +kernel

/-- `should_cycle_on_sta_x_indexed_indirect_operation`, `src/cpu/mos6502/tests/mod.rs:2795-2807`. -/
example : passes (fun b => do
  let cpu := (withGpRegister (withGpRegister (← testCpu b [0x81, 0x00]) .X 0x05) .Acc 0xff)
  let cpu ← store b cpu 0x05 0xff
  let cpu ← store b cpu 0x06 0x00
  let state := (StepState.unwrap (← run b cpu 6))
  check (decide (0x6002 = state.pc))
  check (decide (0xff = state.acc))
  check (decide (0xff = (← Addressable.read b state.address_map 0xff)))) := by
  decide +kernel

/-- `should_cycle_on_sta_zeropage_operation`, `src/cpu/mos6502/tests/mod.rs:2809-2818`. -/
example : passes (fun b => do
  let cpu := (withGpRegister (← testCpu b [0x85, 0x02]) .Acc 0xff)
  let state := (StepState.unwrap (← run b cpu 3))
  check (decide (0x6002 = state.pc))
  check (decide (0xff = state.acc))
  check (decide (0xff = (← Addressable.read b state.address_map 0x02)))) := by
  decide +kernel

/-- `should_cycle_on_sta_zeropage_with_x_index_operation`, `src/cpu/mos6502/tests/mod.rs:2820-2830`.
    -/
example : passes (fun b => do
  let cpu := (withGpRegister (withGpRegister (← testCpu b [0x95, 0x00]) .Acc 0xff) .X 0x05)
  let state := (StepState.unwrap (← run b cpu 4))
  check (decide (0x6002 = state.pc))
  check (decide (0xff = state.acc))
  check (decide (0xff = (← Addressable.read b state.address_map 0x05)))) := by
  decide +kernel

/-- `should_cycle_on_stx_absolute_operation`, `src/cpu/mos6502/tests/mod.rs:2832-2844`. -/
example : passes (fun b => do
  let ram_start : Word := 0x0200
  let ram_end : Word := 0x5fff
  let cpu := (← unwrapResult (registerAddressSpace (withGpRegister (← testCpu b [0x8e, 0x00, 0x02])
      .X 0xff) ⟨ram_start, ram_end⟩ (← Memory.new b .readWrite ram_start ram_end)))
  let state := (StepState.unwrap (← run b cpu 4))
  check (decide (0x6003 = state.pc))
  check (decide (0xff = state.x))
  check (decide (0xff = (← Addressable.read b state.address_map 0x0200)))) := by
  decide +kernel

/-- `should_cycle_on_stx_zeropage_operation`, `src/cpu/mos6502/tests/mod.rs:2846-2855`. -/
example : passes (fun b => do
  let cpu := (withGpRegister (← testCpu b [0x86, 0x02]) .X 0xff)
  let state := (StepState.unwrap (← run b cpu 3))
  check (decide (0x6002 = state.pc))
  check (decide (0xff = state.x))
  check (decide (0xff = (← Addressable.read b state.address_map 0x02)))) := by
  decide +kernel

/-- `should_cycle_on_stx_zeropage_with_y_index_operation`, `src/cpu/mos6502/tests/mod.rs:2857-2867`.
    -/
example : passes (fun b => do
  let cpu := (withGpRegister (withGpRegister (← testCpu b [0x96, 0x00]) .X 0xff) .Y 0x05)
  let state := (StepState.unwrap (← run b cpu 4))
  check (decide (0x6002 = state.pc))
  check (decide (0xff = state.x))
  check (decide (0xff = (← Addressable.read b state.address_map 0x05)))) := by
  decide +kernel

/-- `should_cycle_on_sty_absolute_operation`, `src/cpu/mos6502/tests/mod.rs:2869-2881`. -/
example : passes (fun b => do
  let ram_start : Word := 0x0200
  let ram_end : Word := 0x5fff
  let cpu := (← unwrapResult (registerAddressSpace (withGpRegister (← testCpu b [0x8c, 0x00, 0x02])
      .Y 0xff) ⟨ram_start, ram_end⟩ (← Memory.new b .readWrite ram_start ram_end)))
  let state := (StepState.unwrap (← run b cpu 4))
  check (decide (0x6003 = state.pc))
  check (decide (0xff = state.y))
  check (decide (0xff = (← Addressable.read b state.address_map 0x0200)))) := by
  decide +kernel

/-- `should_cycle_on_sty_zeropage_operation`, `src/cpu/mos6502/tests/mod.rs:2883-2892`. -/
example : passes (fun b => do
  let cpu := (withGpRegister (← testCpu b [0x84, 0x02]) .Y 0xff)
  let state := (StepState.unwrap (← run b cpu 3))
  check (decide (0x6002 = state.pc))
  check (decide (0xff = state.y))
  check (decide (0xff = (← Addressable.read b state.address_map 0x02)))) := by
  decide +kernel

/-- `should_cycle_on_sty_zeropage_with_x_index_operation`, `src/cpu/mos6502/tests/mod.rs:2894-2904`.
    -/
example : passes (fun b => do
  let cpu := (withGpRegister (withGpRegister (← testCpu b [0x94, 0x00]) .X 0x05) .Y 0xff)
  let state := (StepState.unwrap (← run b cpu 4))
  check (decide (0x6002 = state.pc))
  check (decide (0xff = state.y))
  check (decide (0xff = (← Addressable.read b state.address_map 0x05)))) := by
  decide +kernel

/-- `should_cycle_on_tax_implied_operation`, `src/cpu/mos6502/tests/mod.rs:2906-2917`. -/
example : passes (fun b => do
  let cpu := (withGpRegister (withGpRegister (← testCpu b [0xaa]) .Acc 0xff) .X 0x00)
  let state := (StepState.unwrap (← run b cpu 2))
  check (decide (0x6001 = state.pc))
  check (decide (0xff = state.acc))
  check (decide (0xff = state.x))
  check (decide ((state.ps.negative, state.ps.zero) = (true, false)))) := by
  decide +kernel

/-- `should_cycle_on_tay_implied_operation`, `src/cpu/mos6502/tests/mod.rs:2919-2930`. -/
example : passes (fun b => do
  let cpu := (withGpRegister (withGpRegister (← testCpu b [0xa8]) .Acc 0xff) .Y 0x00)
  let state := (StepState.unwrap (← run b cpu 2))
  check (decide (0x6001 = state.pc))
  check (decide (0xff = state.acc))
  check (decide (0xff = state.y))
  check (decide ((state.ps.negative, state.ps.zero) = (true, false)))) := by
  decide +kernel

/-- `should_cycle_on_tsx_implied_operation`, `src/cpu/mos6502/tests/mod.rs:2932-2943`. -/
example : passes (fun b => do
  let cpu := (withSpRegister (withGpRegister (← testCpu b [0xba]) .X 0x00) 0xff)
  let state := (StepState.unwrap (← run b cpu 2))
  check (decide (0x6001 = state.pc))
  check (decide (0xff = state.sp))
  check (decide (0xff = state.x))
  check (decide ((state.ps.negative, state.ps.zero) = (true, false)))) := by
  decide +kernel

/-- `should_cycle_on_txa_implied_operation`, `src/cpu/mos6502/tests/mod.rs:2945-2956`. -/
example : passes (fun b => do
  let cpu := (withGpRegister (withGpRegister (← testCpu b [0x8a]) .Acc 0x00) .X 0xff)
  let state := (StepState.unwrap (← run b cpu 2))
  check (decide (0x6001 = state.pc))
  check (decide (0xff = state.acc))
  check (decide (0xff = state.x))
  check (decide ((state.ps.negative, state.ps.zero) = (true, false)))) := by
  decide +kernel

/-- `should_cycle_on_txs_implied_operation`, `src/cpu/mos6502/tests/mod.rs:2958-2968`. -/
example : passes (fun b => do
  let cpu := (withSpRegister (withGpRegister (← testCpu b [0x9a]) .X 0x00) 0xff)
  let state := (StepState.unwrap (← run b cpu 2))
  check (decide (0x6001 = state.pc))
  check (decide (0x00 = state.sp))
  check (decide (0x00 = state.x))) := by
  decide +kernel

/-- `should_cycle_on_tya_implied_operation`, `src/cpu/mos6502/tests/mod.rs:2970-2981`. -/
example : passes (fun b => do
  let cpu := (withGpRegister (withGpRegister (← testCpu b [0x98]) .Acc 0x00) .Y 0xff)
  let state := (StepState.unwrap (← run b cpu 2))
  check (decide (0x6001 = state.pc))
  check (decide (0xff = state.acc))
  check (decide (0xff = state.y))
  check (decide ((state.ps.negative, state.ps.zero) = (true, false)))) := by
  decide +kernel

end Verif.Conformance
