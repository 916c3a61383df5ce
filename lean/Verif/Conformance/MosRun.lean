import Verif.Conformance.MosBasic

/-!
# `src/cpu/mos6502/tests/mod.rs`, first half
-/

namespace Verif.Conformance

open Verif Verif.Mos

/-- `should_access_address_map_through_wrapper_methods`, `src/cpu/mos6502/tests/mod.rs:31-47`. -/
example : passes (fun b => do
  let cpu ← store b (← testCpu b []) 0x00ff 0xea
  check (decide (0xea = (← withAddressMap cpu (fun am => am.read b 0xff))))
  let (r, cpu) ← withAddressMapMut cpu (fun am => am.write b 0xff 0xff)
  check (decide (Except.ok 0xff = r))
  let cpu ← withOwnedAddressMap cpu (fun am => do
    let (_, am) ← am.write b 0xff 0xea
    .ok am)
  check (decide (0xea = (← cpu.address_map.read b 0xff)))) := by
  decide +kernel

/-- `should_cycle_on_adc_absolute_operation_with_overflow`, `src/cpu/mos6502/tests/mod.rs:49-67`. -/
example : passes (fun b => do
  let cpu := (withGpRegister (← testCpu b [0x6d, 0xff, 0x00]) .Acc 0x80)
  let cpu ← store b cpu 0x00ff 0xff
  let state := (StepState.unwrap (← run b cpu 4))
  check (decide (0x6003 = state.pc))
  check (decide (0x7f = state.acc))
  check (decide ((state.ps.carry, state.ps.negative, state.ps.overflow, state.ps.zero) = (true,
      false, true, false)))) := by
  decide +kernel

/-- `should_cycle_on_adc_absolute_operation_without_overflow`, `src/cpu/mos6502/tests/mod.rs:69-87`.
    -/
example : passes (fun b => do
  let cpu := (withGpRegister (← testCpu b [0x6d, 0xff, 0x00]) .Acc 0x10)
  let cpu ← store b cpu 0x00ff 0x50
  let state := (StepState.unwrap (← run b cpu 4))
  check (decide (0x6003 = state.pc))
  check (decide (0x60 = state.acc))
  check (decide ((state.ps.carry, state.ps.negative, state.ps.overflow, state.ps.zero) = (false,
      false, false, false)))) := by
  decide +kernel

/-- `should_cycle_on_adc_absolute_indexed_with_x_operation_with_overflow`,
    `src/cpu/mos6502/tests/mod.rs:89-108`. -/
example : passes (fun b => do
  let cpu := (withGpRegister (withGpRegister (← testCpu b [0x7d, 0xfa, 0x00]) .Acc 0x80) .X 0x05)
  let cpu ← store b cpu 0x00ff 0xff
  let state := (StepState.unwrap (← run b cpu 4))
  check (decide (0x6003 = state.pc))
  check (decide (0x7f = state.acc))
  check (decide ((state.ps.carry, state.ps.negative, state.ps.overflow, state.ps.zero) = (true,
      false, true, false)))) := by
  decide +kernel

/-- `should_cycle_on_adc_absolute_indexed_with_x_operation_without_overflow`,
    `src/cpu/mos6502/tests/mod.rs:110-129`. -/
example : passes (fun b => do
  let cpu := (withGpRegister (withGpRegister (← testCpu b [0x7d, 0xfa, 0x00]) .Acc 0x10) .X 0x05)
  let cpu ← store b cpu 0x00ff 0x50
  let state := (StepState.unwrap (← run b cpu 4))
  check (decide (0x6003 = state.pc))
  check (decide (0x60 = state.acc))
  check (decide ((state.ps.carry, state.ps.negative, state.ps.overflow, state.ps.zero) = (false,
      false, false, false)))) := by
  decide +kernel

/-- `should_cycle_on_adc_absolute_indexed_with_y_operation_with_overflow`,
    `src/cpu/mos6502/tests/mod.rs:131-150`. -/
example : passes (fun b => do
  let cpu := (withGpRegister (withGpRegister (← testCpu b [0x79, 0xfa, 0x00]) .Acc 0x80) .Y 0x05)
  let cpu ← store b cpu 0x00ff 0xff
  let state := (StepState.unwrap (← run b cpu 4))
  check (decide (0x6003 = state.pc))
  check (decide (0x7f = state.acc))
  check (decide ((state.ps.carry, state.ps.negative, state.ps.overflow, state.ps.zero) = (true,
      false, true, false)))) := by
  decide +kernel

/-- `should_cycle_on_adc_absolute_indexed_with_y_operation_without_overflow`,
    `src/cpu/mos6502/tests/mod.rs:152-171`. -/
example : passes (fun b => do
  let cpu := (withGpRegister (withGpRegister (← testCpu b [0x79, 0xfa, 0x00]) .Acc 0x10) .Y 0x05)
  let cpu ← store b cpu 0x00ff 0x50
  let state := (StepState.unwrap (← run b cpu 4))
  check (decide (0x6003 = state.pc))
  check (decide (0x60 = state.acc))
  check (decide ((state.ps.carry, state.ps.negative, state.ps.overflow, state.ps.zero) = (false,
      false, false, false)))) := by
  decide +kernel

/-- `should_cycle_on_adc_indirect_y_indexed_operation_with_overflow`,
    `src/cpu/mos6502/tests/mod.rs:173-194`. -/
example : passes (fun b => do
  let cpu := (withGpRegister (withGpRegister (← testCpu b [0x71, 0x00]) .Acc 0x80) .Y 0x05)
  let cpu ← store b cpu 0x00 0xfa
  let cpu ← store b cpu 0x01 0x00
  let cpu ← store b cpu 0xff 0xff
  let state := (StepState.unwrap (← run b cpu 5))
  check (decide (0x6002 = state.pc))
  check (decide (0x7f = state.acc))
  check (decide ((state.ps.carry, state.ps.negative, state.ps.overflow, state.ps.zero) = (true,
      false, true, false)))) := by
  decide +kernel

/-- `should_cycle_on_adc_indirect_y_indexed_operation_without_overflow`,
    `src/cpu/mos6502/tests/mod.rs:196-217`. -/
example : passes (fun b => do
  let cpu := (withGpRegister (withGpRegister (← testCpu b [0x71, 0x00]) .Acc 0x10) .Y 0x05)
  let cpu ← store b cpu 0x00 0xfa
  let cpu ← store b cpu 0x01 0x00
  let cpu ← store b cpu 0xff 0x50
  let state := (StepState.unwrap (← run b cpu 5))
  check (decide (0x6002 = state.pc))
  check (decide (0x60 = state.acc))
  check (decide ((state.ps.carry, state.ps.negative, state.ps.overflow, state.ps.zero) = (false,
      false, false, false)))) := by
  decide +kernel

/-- `should_cycle_on_adc_immediate_operation_with_overflow`, `src/cpu/mos6502/tests/mod.rs:219-236`.
    -/
example : passes (fun b => do
  let cpu := (withGpRegister (← testCpu b [0x69, 0xff]) .Acc 0x80)
  let state := (StepState.unwrap (← run b cpu 2))
  check (decide (0x6002 = state.pc))
  check (decide (0x7f = state.acc))
  check (decide ((state.ps.carry, state.ps.negative, state.ps.overflow, state.ps.zero) = (true,
      false, true, false)))) := by
  decide +kernel

/-- `should_cycle_on_adc_x_indexed_indirect_operation_with_overflow`,
    `src/cpu/mos6502/tests/mod.rs:238-259`. -/
example : passes (fun b => do
  let cpu := (withGpRegister (withGpRegister (← testCpu b [0x61, 0x00]) .Acc 0x80) .X 0x05)
  let cpu ← store b cpu 0x05 0xff
  let cpu ← store b cpu 0x06 0x00
  let cpu ← store b cpu 0xff 0xff
  let state := (StepState.unwrap (← run b cpu 6))
  check (decide (0x6002 = state.pc))
  check (decide (0x7f = state.acc))
  check (decide ((state.ps.carry, state.ps.negative, state.ps.overflow, state.ps.zero) = (true,
      false, true, false)))) := by
  decide +kernel

/-- `should_cycle_on_adc_x_indexed_indirect_operation_without_overflow`,
    `src/cpu/mos6502/tests/mod.rs:261-282`. -/
example : passes (fun b => do
  let cpu := (withGpRegister (withGpRegister (← testCpu b [0x61, 0x00]) .Acc 0x10) .X 0x05)
  let cpu ← store b cpu 0x05 0xff
  let cpu ← store b cpu 0x06 0x00
  let cpu ← store b cpu 0xff 0x50
  let state := (StepState.unwrap (← run b cpu 6))
  check (decide (0x6002 = state.pc))
  check (decide (0x60 = state.acc))
  check (decide ((state.ps.carry, state.ps.negative, state.ps.overflow, state.ps.zero) = (false,
      false, false, false)))) := by
  decide +kernel

/-- `should_cycle_on_adc_immediate_operation_without_overflow`,
    `src/cpu/mos6502/tests/mod.rs:284-301`. -/
example : passes (fun b => do
  let cpu := (withGpRegister (← testCpu b [0x69, 0x50]) .Acc 0x10)
  let state := (StepState.unwrap (← run b cpu 2))
  check (decide (0x6002 = state.pc))
  check (decide (0x60 = state.acc))
  check (decide ((state.ps.carry, state.ps.negative, state.ps.overflow, state.ps.zero) = (false,
      false, false, false)))) := by
  decide +kernel

/-- `should_cycle_on_adc_zeropage_operation_with_overflow`, `src/cpu/mos6502/tests/mod.rs:303-321`.
    -/
example : passes (fun b => do
  let cpu := (withGpRegister (← testCpu b [0x65, 0xff]) .Acc 0x80)
  let cpu ← store b cpu 0x00ff 0xff
  let state := (StepState.unwrap (← run b cpu 3))
  check (decide (0x6002 = state.pc))
  check (decide (0x7f = state.acc))
  check (decide ((state.ps.carry, state.ps.negative, state.ps.overflow, state.ps.zero) = (true,
      false, true, false)))) := by
  decide +kernel

/-- `should_cycle_on_adc_zeropage_operation_without_overflow`,
    `src/cpu/mos6502/tests/mod.rs:323-341`. -/
example : passes (fun b => do
  let cpu := (withGpRegister (← testCpu b [0x65, 0xff]) .Acc 0x10)
  let cpu ← store b cpu 0x00ff 0x50
  let state := (StepState.unwrap (← run b cpu 3))
  check (decide (0x6002 = state.pc))
  check (decide (0x60 = state.acc))
  check (decide ((state.ps.carry, state.ps.negative, state.ps.overflow, state.ps.zero) = (false,
      false, false, false)))) := by
  decide +kernel

/-- `should_cycle_on_adc_zeropage_indexed_with_x_operation_with_overflow`,
    `src/cpu/mos6502/tests/mod.rs:343-362`. -/
example : passes (fun b => do
  let cpu := (withGpRegister (withGpRegister (← testCpu b [0x75, 0xfa]) .Acc 0x80) .X 0x05)
  let cpu ← store b cpu 0x00ff 0xff
  let state := (StepState.unwrap (← run b cpu 4))
  check (decide (0x6002 = state.pc))
  check (decide (0x7f = state.acc))
  check (decide ((state.ps.carry, state.ps.negative, state.ps.overflow, state.ps.zero) = (true,
      false, true, false)))) := by
  decide +kernel

/-- `should_cycle_on_adc_zeropage_indexed_with_x_operation_without_overflow`,
    `src/cpu/mos6502/tests/mod.rs:364-383`. -/
example : passes (fun b => do
  let cpu := (withGpRegister (withGpRegister (← testCpu b [0x75, 0xfa]) .Acc 0x10) .X 0x05)
  let cpu ← store b cpu 0x00ff 0x50
  let state := (StepState.unwrap (← run b cpu 4))
  check (decide (0x6002 = state.pc))
  check (decide (0x60 = state.acc))
  check (decide ((state.ps.carry, state.ps.negative, state.ps.overflow, state.ps.zero) = (false,
      false, false, false)))) := by
  decide +kernel

/-- `should_cycle_on_and_absolute_operation`, `src/cpu/mos6502/tests/mod.rs:385-395`. -/
example : passes (fun b => do
  let cpu := (withGpRegister (← testCpu b [0x2d, 0xff, 0x00]) .Acc 0xff)
  let cpu ← store b cpu 0x00ff 0x55
  let state := (StepState.unwrap (← run b cpu 4))
  check (decide (0x6003 = state.pc))
  check (decide (0x55 = state.acc))
  check (decide ((state.ps.negative, state.ps.zero) = (false, false)))) := by
  decide +kernel

/-- `should_cycle_on_and_absolute_indexed_with_x_operation`, `src/cpu/mos6502/tests/mod.rs:397-408`.
    -/
example : passes (fun b => do
  let cpu := (withGpRegister (withGpRegister (← testCpu b [0x3d, 0xfa, 0x00]) .X 0x05) .Acc 0xff)
  let cpu ← store b cpu 0x00ff 0x55
  let state := (StepState.unwrap (← run b cpu 4))
  check (decide (0x6003 = state.pc))
  check (decide (0x55 = state.acc))
  check (decide ((state.ps.negative, state.ps.zero) = (false, false)))) := by
  decide +kernel

/-- `should_cycle_on_and_absolute_indexed_with_y_operation`, `src/cpu/mos6502/tests/mod.rs:410-421`.
    -/
example : passes (fun b => do
  let cpu := (withGpRegister (withGpRegister (← testCpu b [0x39, 0xfa, 0x00]) .Y 0x05) .Acc 0xff)
  let cpu ← store b cpu 0x00ff 0x55
  let state := (StepState.unwrap (← run b cpu 4))
  check (decide (0x6003 = state.pc))
  check (decide (0x55 = state.acc))
  check (decide ((state.ps.negative, state.ps.zero) = (false, false)))) := by
  decide +kernel

/-- `should_cycle_on_and_indirect_y_indexed_operation`, `src/cpu/mos6502/tests/mod.rs:423-436`. -/
example : passes (fun b => do
  let cpu := (withGpRegister (withGpRegister (← testCpu b [0x31, 0x00]) .Acc 0xff) .Y 0x05)
  let cpu ← store b cpu 0x00 0xfa
  let cpu ← store b cpu 0x01 0x00
  let cpu ← store b cpu 0xff 0x55
  let state := (StepState.unwrap (← run b cpu 5))
  check (decide (0x6002 = state.pc))
  check (decide (0x55 = state.acc))
  check (decide ((state.ps.negative, state.ps.zero) = (false, false)))) := by
  decide +kernel

/-- `should_cycle_on_and_immediate_operation`, `src/cpu/mos6502/tests/mod.rs:438-447`. -/
example : passes (fun b => do
  let cpu := (withGpRegister (← testCpu b [0x29, 0x55]) .Acc 0xff)
  let state := (StepState.unwrap (← run b cpu 2))
  check (decide (0x6002 = state.pc))
  check (decide (0x55 = state.acc))
  check (decide ((state.ps.negative, state.ps.zero) = (false, false)))) := by
  decide +kernel

/-- `should_cycle_on_and_x_indexed_indirect_operation`, `src/cpu/mos6502/tests/mod.rs:449-462`. -/
example : passes (fun b => do
  let cpu := (withGpRegister (withGpRegister (← testCpu b [0x21, 0x00]) .Acc 0xff) .X 0x05)
  let cpu ← store b cpu 0x05 0xff
  let cpu ← store b cpu 0x06 0x00
  let cpu ← store b cpu 0xff 0x55
  let state := (StepState.unwrap (← run b cpu 6))
  check (decide (0x6002 = state.pc))
  check (decide (0x55 = state.acc))
  check (decide ((state.ps.negative, state.ps.zero) = (false, false)))) := by
  decide +kernel

/-- `should_cycle_on_and_zeropage_operation`, `src/cpu/mos6502/tests/mod.rs:464-474`. -/
example : passes (fun b => do
  let cpu := (withGpRegister (← testCpu b [0x25, 0xff]) .Acc 0xff)
  let cpu ← store b cpu 0x00ff 0x55
  let state := (StepState.unwrap (← run b cpu 3))
  check (decide (0x6002 = state.pc))
  check (decide (0x55 = state.acc))
  check (decide ((state.ps.negative, state.ps.zero) = (false, false)))) := by
  decide +kernel

/-- `should_cycle_on_and_zeropage_indexed_with_x_operation`, `src/cpu/mos6502/tests/mod.rs:476-487`.
    -/
example : passes (fun b => do
  let cpu := (withGpRegister (withGpRegister (← testCpu b [0x35, 0xfa]) .Acc 0xff) .X 0x05)
  let cpu ← store b cpu 0x00ff 0x55
  let state := (StepState.unwrap (← run b cpu 4))
  check (decide (0x6002 = state.pc))
  check (decide (0x55 = state.acc))
  check (decide ((state.ps.negative, state.ps.zero) = (false, false)))) := by
  decide +kernel

/-- `should_cycle_on_asl_absolute_operation`, `src/cpu/mos6502/tests/mod.rs:489-501`. -/
example : passes (fun b => do
  let cpu := (← testCpu b [0x0e, 0xff, 0x00])
  let cpu ← store b cpu 0x00ff 0xaa
  let state := (StepState.unwrap (← run b cpu 6))
  check (decide (0x6003 = state.pc))
  check (decide (0x54 = (← Addressable.read b state.address_map 0x00ff)))
  check (decide ((state.ps.carry, state.ps.negative, state.ps.zero) = (true, false, false)))) := by
  decide +kernel

/-- `should_cycle_on_asl_absolute_indexed_with_x_operation`, `src/cpu/mos6502/tests/mod.rs:503-516`.
    -/
example : passes (fun b => do
  let cpu := (withGpRegister (← testCpu b [0x1e, 0xfa, 0x00]) .X 0x05)
  let cpu ← store b cpu 0x00ff 0xaa
  let state := (StepState.unwrap (← run b cpu 7))
  check (decide (0x6003 = state.pc))
  check (decide (0x54 = (← Addressable.read b state.address_map 0x00ff)))
  check (decide ((state.ps.carry, state.ps.negative, state.ps.zero) = (true, false, false)))) := by
  decide +kernel

/-- `should_cycle_on_asl_accumulator_operation`, `src/cpu/mos6502/tests/mod.rs:518-530`. -/
example : passes (fun b => do
  let cpu := (withGpRegister (← testCpu b [0x0a]) .Acc 0xaa)
  let state := (StepState.unwrap (← run b cpu 2))
  check (decide (0x6001 = state.pc))
  check (decide (0x54 = state.acc))
  check (decide ((state.ps.carry, state.ps.negative, state.ps.zero) = (true, false, false)))) := by
  decide +kernel

/-- `should_cycle_on_asl_zeropage_operation`, `src/cpu/mos6502/tests/mod.rs:532-544`. -/
example : passes (fun b => do
  let cpu := (← testCpu b [0x06, 0xff])
  let cpu ← store b cpu 0x00ff 0xaa
  let state := (StepState.unwrap (← run b cpu 5))
  check (decide (0x6002 = state.pc))
  check (decide (0x54 = (← Addressable.read b state.address_map 0x00ff)))
  check (decide ((state.ps.carry, state.ps.negative, state.ps.zero) = (true, false, false)))) := by
  decide +kernel

/-- `should_cycle_on_asl_zeropage_indexed_with_x_operation`, `src/cpu/mos6502/tests/mod.rs:546-559`.
    -/
example : passes (fun b => do
  let cpu := (withGpRegister (← testCpu b [0x16, 0xfa]) .X 0x05)
  let cpu ← store b cpu 0x00ff 0xaa
  let state := (StepState.unwrap (← run b cpu 6))
  check (decide (0x6002 = state.pc))
  check (decide (0x54 = (← Addressable.read b state.address_map 0x00ff)))
  check (decide ((state.ps.carry, state.ps.negative, state.ps.zero) = (true, false, false)))) := by
  decide +kernel

/-- `bcc_relative_operation_should_jump_when_zero_set`, `src/cpu/mos6502/tests/mod.rs:561-569`. -/
example : passes (fun b => do
  let cpu := (← testCpu b [0x90, 0x08])
  let cpu := { cpu with ps := { cpu.ps with carry := false } }
  let state := (StepState.unwrap (← run b cpu 3))
  check (decide (0x6008 = state.pc))) := by
  decide +kernel

/-- `bcc_relative_operation_should_incur_penalty_at_page_boundary`,
    `src/cpu/mos6502/tests/mod.rs:571-579`. -/
example : passes (fun b => do
  let cpu := (← testCpu b [0x90, 0xf8])
  let cpu := { cpu with ps := { cpu.ps with carry := false } }
  let state := (StepState.unwrap (← run b cpu 4))
  check (decide (0x5ff8 = state.pc))) := by
  decide +kernel

/-- `bcc_relative_operation_should_not_jump_when_zero_unset`,
    `src/cpu/mos6502/tests/mod.rs:581-588`. -/
example : passes (fun b => do
  let cpu := (← testCpu b [0x90, 0x08])
  let cpu := { cpu with ps := { cpu.ps with carry := true } }
  let state := (StepState.unwrap (← run b cpu 2))
  check (decide (0x6002 = state.pc))) := by
  decide +kernel

/-- `bcs_relative_operation_should_jump_when_zero_set`, `src/cpu/mos6502/tests/mod.rs:590-598`. -/
example : passes (fun b => do
  let cpu := (← testCpu b [0xb0, 0x08])
  let cpu := { cpu with ps := { cpu.ps with carry := true } }
  let state := (StepState.unwrap (← run b cpu 3))
  check (decide (0x6008 = state.pc))) := by
  decide +kernel

/-- `bcs_relative_operation_should_incur_penalty_at_page_boundary`,
    `src/cpu/mos6502/tests/mod.rs:600-608`. -/
example : passes (fun b => do
  let cpu := (← testCpu b [0xb0, 0xf8])
  let cpu := { cpu with ps := { cpu.ps with carry := true } }
  let state := (StepState.unwrap (← run b cpu 4))
  check (decide (0x5ff8 = state.pc))) := by
  decide +kernel

/-- `bcs_relative_operation_should_not_jump_when_zero_unset`,
    `src/cpu/mos6502/tests/mod.rs:610-617`. -/
example : passes (fun b => do
  let cpu := (← testCpu b [0xb0, 0x08])
  let cpu := { cpu with ps := { cpu.ps with carry := false } }
  let state := (StepState.unwrap (← run b cpu 2))
  check (decide (0x6002 = state.pc))) := by
  decide +kernel

/-- `beq_relative_operation_should_jump_when_zero_set`, `src/cpu/mos6502/tests/mod.rs:619-627`. -/
example : passes (fun b => do
  let cpu := (← testCpu b [0xf0, 0x08])
  let cpu := { cpu with ps := { cpu.ps with zero := true } }
  let state := (StepState.unwrap (← run b cpu 3))
  check (decide (0x6008 = state.pc))) := by
  decide +kernel

/-- `beq_relative_operation_should_incur_penalty_at_page_boundary`,
    `src/cpu/mos6502/tests/mod.rs:629-637`. -/
example : passes (fun b => do
  let cpu := (← testCpu b [0xf0, 0xf8])
  let cpu := { cpu with ps := { cpu.ps with zero := true } }
  let state := (StepState.unwrap (← run b cpu 4))
  check (decide (0x5ff8 = state.pc))) := by
  decide +kernel

/-- `beq_relative_operation_should_not_jump_when_zero_unset`,
    `src/cpu/mos6502/tests/mod.rs:639-646`. -/
example : passes (fun b => do
  let cpu := (← testCpu b [0xf0, 0x08])
  let cpu := { cpu with ps := { cpu.ps with zero := false } }
  let state := (StepState.unwrap (← run b cpu 2))
  check (decide (0x6002 = state.pc))) := by
  decide +kernel

/-- `bmi_relative_operation_should_jump_when_zero_set`, `src/cpu/mos6502/tests/mod.rs:648-656`. -/
example : passes (fun b => do
  let cpu := (← testCpu b [0x30, 0x08])
  let cpu := { cpu with ps := { cpu.ps with negative := true } }
  let state := (StepState.unwrap (← run b cpu 3))
  check (decide (0x6008 = state.pc))) := by
  decide +kernel

/-- `bmi_relative_operation_should_incur_penalty_at_page_boundary`,
    `src/cpu/mos6502/tests/mod.rs:658-666`. -/
example : passes (fun b => do
  let cpu := (← testCpu b [0x30, 0xf8])
  let cpu := { cpu with ps := { cpu.ps with negative := true } }
  let state := (StepState.unwrap (← run b cpu 4))
  check (decide (0x5ff8 = state.pc))) := by
  decide +kernel

/-- `bmi_relative_operation_should_not_jump_when_zero_unset`,
    `src/cpu/mos6502/tests/mod.rs:668-675`. -/
example : passes (fun b => do
  let cpu := (← testCpu b [0x30, 0x08])
  let cpu := { cpu with ps := { cpu.ps with negative := false } }
  let state := (StepState.unwrap (← run b cpu 2))
  check (decide (0x6002 = state.pc))) := by
  decide +kernel

/-- `should_cycle_on_bit_absolute_operation`, `src/cpu/mos6502/tests/mod.rs:677-690`. -/
example : passes (fun b => do
  let cpu := (withGpRegister (← testCpu b [0x2c, 0xff, 0x00]) .Acc 0xff)
  let cpu ← store b cpu 0x00ff 0x55
  let state := (StepState.unwrap (← run b cpu 4))
  check (decide (0x6003 = state.pc))
  check (decide (0xff = state.acc))
  check (decide ((false, true, false) = (state.ps.negative, state.ps.overflow, state.ps.zero)))) :=
      by
  decide +kernel

/-- `should_cycle_on_bit_zeropage_operation`, `src/cpu/mos6502/tests/mod.rs:692-705`. -/
example : passes (fun b => do
  let cpu := (withGpRegister (← testCpu b [0x24, 0xff]) .Acc 0xff)
  let cpu ← store b cpu 0x00ff 0x55
  let state := (StepState.unwrap (← run b cpu 3))
  check (decide (0x6002 = state.pc))
  check (decide (0xff = state.acc))
  check (decide ((false, true, false) = (state.ps.negative, state.ps.overflow, state.ps.zero)))) :=
      by
  decide +kernel

/-- `bne_relative_operation_should_jump_when_zero_set`, `src/cpu/mos6502/tests/mod.rs:707-715`. -/
example : passes (fun b => do
  let cpu := (← testCpu b [0xd0, 0x08])
  let cpu := { cpu with ps := { cpu.ps with zero := false } }
  let state := (StepState.unwrap (← run b cpu 3))
  check (decide (0x6008 = state.pc))) := by
  decide +kernel

/-- `bne_relative_operation_should_incur_penalty_at_page_boundary`,
    `src/cpu/mos6502/tests/mod.rs:717-725`. -/
example : passes (fun b => do
  let cpu := (← testCpu b [0xd0, 0xf8])
  let cpu := { cpu with ps := { cpu.ps with zero := false } }
  let state := (StepState.unwrap (← run b cpu 4))
  check (decide (0x5ff8 = state.pc))) := by
  decide +kernel

/-- `bne_relative_operation_should_not_jump_when_zero_unset`,
    `src/cpu/mos6502/tests/mod.rs:727-734`. -/
example : passes (fun b => do
  let cpu := (← testCpu b [0xd0, 0x08])
  let cpu := { cpu with ps := { cpu.ps with zero := true } }
  let state := (StepState.unwrap (← run b cpu 2))
  check (decide (0x6002 = state.pc))) := by
  decide +kernel

/-- `bpl_relative_operation_should_jump_when_zero_set`, `src/cpu/mos6502/tests/mod.rs:736-744`. -/
example : passes (fun b => do
  let cpu := (← testCpu b [0x10, 0x08])
  let cpu := { cpu with ps := { cpu.ps with negative := false } }
  let state := (StepState.unwrap (← run b cpu 3))
  check (decide (0x6008 = state.pc))) := by
  decide +kernel

/-- `bpl_relative_operation_should_incur_penalty_at_page_boundary`,
    `src/cpu/mos6502/tests/mod.rs:746-754`. -/
example : passes (fun b => do
  let cpu := (← testCpu b [0x10, 0xf8])
  let cpu := { cpu with ps := { cpu.ps with negative := false } }
  let state := (StepState.unwrap (← run b cpu 4))
  check (decide (0x5ff8 = state.pc))) := by
  decide +kernel

/-- `bpl_relative_operation_should_not_jump_when_zero_unset`,
    `src/cpu/mos6502/tests/mod.rs:756-763`. -/
example : passes (fun b => do
  let cpu := (← testCpu b [0x10, 0x08])
  let cpu := { cpu with ps := { cpu.ps with negative := true } }
  let state := (StepState.unwrap (← run b cpu 2))
  check (decide (0x6002 = state.pc))) := by
  decide +kernel

/-- `should_cycle_on_brk_implied_operation`, `src/cpu/mos6502/tests/mod.rs:765-781`. -/
example : passes (fun b => do
  let cpu := (← unwrapResult (registerAddressSpace (withPsRegister (← testCpu b [0x00, 0x12]) ({
      (ProcessorStatus.default : ProcessorStatus) with brk := false })) ⟨0xfffe, 0xffff⟩
      (Memory.load (← Memory.new b .readOnly 0xfffe 0xffff) [0x78, 0x56])))
  let state := (StepState.unwrap (← run b cpu 7))
  check (decide (0x5678 = state.pc))
  check (decide ((true, true) = (state.ps.brk, state.ps.interrupt_disable)))) := by
  decide +kernel

/-- `bvc_relative_operation_should_jump_when_overflow_set`, `src/cpu/mos6502/tests/mod.rs:783-791`.
    -/
example : passes (fun b => do
  let cpu := (← testCpu b [0x50, 0x08])
  let cpu := { cpu with ps := { cpu.ps with overflow := false } }
  let state := (StepState.unwrap (← run b cpu 3))
  check (decide (0x6008 = state.pc))) := by
  decide +kernel

/-- `bvc_relative_operation_should_incur_penalty_at_page_boundary`,
    `src/cpu/mos6502/tests/mod.rs:793-801`. -/
example : passes (fun b => do
  let cpu := (← testCpu b [0x50, 0xf8])
  let cpu := { cpu with ps := { cpu.ps with overflow := false } }
  let state := (StepState.unwrap (← run b cpu 4))
  check (decide (0x5ff8 = state.pc))) := by
  decide +kernel

/-- `bvc_relative_operation_should_not_jump_when_overflow_unset`,
    `src/cpu/mos6502/tests/mod.rs:803-810`. -/
example : passes (fun b => do
  let cpu := (← testCpu b [0x50, 0x08])
  let cpu := { cpu with ps := { cpu.ps with overflow := true } }
  let state := (StepState.unwrap (← run b cpu 2))
  check (decide (0x6002 = state.pc))) := by
  decide +kernel

/-- `bvs_relative_operation_should_jump_when_overflow_set`, `src/cpu/mos6502/tests/mod.rs:812-820`.
    -/
example : passes (fun b => do
  let cpu := (← testCpu b [0x70, 0x08])
  let cpu := { cpu with ps := { cpu.ps with overflow := true } }
  let state := (StepState.unwrap (← run b cpu 3))
  check (decide (0x6008 = state.pc))) := by
  decide +kernel

/-- `bvs_relative_operation_should_incur_penalty_at_page_boundary`,
    `src/cpu/mos6502/tests/mod.rs:822-830`. -/
example : passes (fun b => do
  let cpu := (← testCpu b [0x70, 0xf8])
  let cpu := { cpu with ps := { cpu.ps with overflow := true } }
  let state := (StepState.unwrap (← run b cpu 4))
  check (decide (0x5ff8 = state.pc))) := by
  decide +kernel

/-- `bvs_relative_operation_should_not_jump_when_overflow_unset`,
    `src/cpu/mos6502/tests/mod.rs:832-839`. -/
example : passes (fun b => do
  let cpu := (← testCpu b [0x70, 0x08])
  let cpu := { cpu with ps := { cpu.ps with overflow := false } }
  let state := (StepState.unwrap (← run b cpu 2))
  check (decide (0x6002 = state.pc))) := by
  decide +kernel

/-- `should_cycle_on_clc_implied_operation`, `src/cpu/mos6502/tests/mod.rs:841-848`. -/
example : passes (fun b => do
  let cpu := (← testCpu b [0x18])
  let state := (StepState.unwrap (← run b cpu 2))
  check (decide (0x6001 = state.pc))
  check (!state.ps.carry)) := by
  decide +kernel

/-- `should_cycle_on_cld_implied_operation`, `src/cpu/mos6502/tests/mod.rs:850-857`. -/
example : passes (fun b => do
  let cpu := (← testCpu b [0xd8])
  let state := (StepState.unwrap (← run b cpu 2))
  check (decide (0x6001 = state.pc))
  check (!state.ps.decimal)) := by
  decide +kernel

/-- `should_cycle_on_cli_implied_operation`, `src/cpu/mos6502/tests/mod.rs:859-867`. -/
example : passes (fun b => do
  let cpu := (← testCpu b [0x58])
  let cpu := { cpu with ps := { cpu.ps with interrupt_disable := true } }
  let state := (StepState.unwrap (← run b cpu 2))
  check (decide (0x6001 = state.pc))
  check (!state.ps.interrupt_disable)) := by
  decide +kernel

/-- `should_cycle_on_clv_implied_operation`, `src/cpu/mos6502/tests/mod.rs:869-877`. -/
example : passes (fun b => do
  let cpu := (← testCpu b [0xb8])
  let cpu := { cpu with ps := { cpu.ps with overflow := true } }
  let state := (StepState.unwrap (← run b cpu 2))
  check (decide (0x6001 = state.pc))
  check (!state.ps.overflow)) := by
  decide +kernel

/-- `should_cycle_on_cmp_absolute_operation_with_equal_operands`,
    `src/cpu/mos6502/tests/mod.rs:879-893`. -/
example : passes (fun b => do
  let cpu := (withGpRegister (← testCpu b [0xcd, 0xff, 0x00]) .Acc 0xff)
  let cpu ← store b cpu 0x00ff 0xff
  let state := (StepState.unwrap (← run b cpu 4))
  check (decide (0x6003 = state.pc))
  check (decide ((state.ps.carry, state.ps.negative, state.ps.zero) = (true, false, true)))) := by
  decide +kernel

/-- `should_cycle_on_cmp_absolute_operation_with_inequal_operands`,
    `src/cpu/mos6502/tests/mod.rs:895-909`. -/
example : passes (fun b => do
  let cpu := (withGpRegister (← testCpu b [0xcd, 0xff, 0x00]) .Acc 0x00)
  let cpu ← store b cpu 0x00ff 0xff
  let state := (StepState.unwrap (← run b cpu 4))
  check (decide (0x6003 = state.pc))
  check (decide ((state.ps.carry, state.ps.negative, state.ps.zero) = (false, false, false)))) := by
  decide +kernel

/-- `should_cycle_on_cmp_absolute_indexed_with_x_operation_with_inequal_operands`,
    `src/cpu/mos6502/tests/mod.rs:911-930`. -/
example : passes (fun b => do
  let cpu := (withGpRegister (withGpRegister (← testCpu b [0xdd, 0xfa, 0x00]) .Acc 0x00) .X 0x05)
  let cpu ← store b cpu 0x00ff 0xff
  let state := (StepState.unwrap (← run b cpu 4))
  check (decide (0x6003 = state.pc))
  check (decide ((state.ps.carry, state.ps.negative, state.ps.zero) = (false, false, false)))) := by
  decide +kernel

/-- `should_cycle_on_cmp_absolute_indexed_with_x_operation_with_equal_operands`,
    `src/cpu/mos6502/tests/mod.rs:932-951`. -/
example : passes (fun b => do
  let cpu := (withGpRegister (withGpRegister (← testCpu b [0xdd, 0xfa, 0x00]) .Acc 0xff) .X 0x05)
  let cpu ← store b cpu 0x00ff 0xff
  let state := (StepState.unwrap (← run b cpu 4))
  check (decide (0x6003 = state.pc))
  check (decide ((state.ps.carry, state.ps.negative, state.ps.zero) = (true, false, true)))) := by
  decide +kernel

/-- `should_cycle_on_cmp_absolute_indexed_with_y_operation_with_inequal_operands`,
    `src/cpu/mos6502/tests/mod.rs:953-972`. -/
example : passes (fun b => do
  let cpu := (withGpRegister (withGpRegister (← testCpu b [0xd9, 0xfa, 0x00]) .Acc 0x00) .Y 0x05)
  let cpu ← store b cpu 0x00ff 0xff
  let state := (StepState.unwrap (← run b cpu 4))
  check (decide (0x6003 = state.pc))
  check (decide ((state.ps.carry, state.ps.negative, state.ps.zero) = (false, false, false)))) := by
  decide +kernel

/-- `should_cycle_on_cmp_absolute_indexed_with_y_operation_with_equal_operands`,
    `src/cpu/mos6502/tests/mod.rs:974-993`. -/
example : passes (fun b => do
  let cpu := (withGpRegister (withGpRegister (← testCpu b [0xd9, 0xfa, 0x00]) .Acc 0xff) .Y 0x05)
  let cpu ← store b cpu 0x00ff 0xff
  let state := (StepState.unwrap (← run b cpu 4))
  check (decide (0x6003 = state.pc))
  check (decide ((state.ps.carry, state.ps.negative, state.ps.zero) = (true, false, true)))) := by
  decide +kernel

/-- `should_cycle_on_cmp_indirect_y_indexed_operation_with_equal_operands`,
    `src/cpu/mos6502/tests/mod.rs:995-1016`. -/
example : passes (fun b => do
  let cpu := (withGpRegister (withGpRegister (← testCpu b [0xd1, 0x01, 0x00]) .Acc 0xea) .Y 0x05)
  let cpu ← store b cpu 0x01 0xfa
  let cpu ← store b cpu 0x02 0x00
  let cpu ← store b cpu 0xff 0xea
  let state := (StepState.unwrap (← run b cpu 5))
  check (decide (0x6002 = state.pc))
  check (decide ((state.ps.carry, state.ps.negative, state.ps.zero) = (true, false, true)))) := by
  decide +kernel

/-- `should_cycle_on_cmp_indirect_y_indexed_operation_with_inequal_operands`,
    `src/cpu/mos6502/tests/mod.rs:1018-1039`. -/
example : passes (fun b => do
  let cpu := (withGpRegister (withGpRegister (← testCpu b [0xd1, 0x01, 0x00]) .Acc 0xff) .Y 0x05)
  let cpu ← store b cpu 0x01 0xfa
  let cpu ← store b cpu 0x02 0x00
  let cpu ← store b cpu 0xff 0xea
  let state := (StepState.unwrap (← run b cpu 5))
  check (decide (0x6002 = state.pc))
  check (decide ((state.ps.carry, state.ps.negative, state.ps.zero) = (true, false, false)))) := by
  decide +kernel

/-- `should_cycle_on_cmp_immediate_operation_with_inequal_operands`,
    `src/cpu/mos6502/tests/mod.rs:1041-1054`. -/
example : passes (fun b => do
  let cpu := (withGpRegister (← testCpu b [0xc9, 0xff]) .Acc 0x00)
  let state := (StepState.unwrap (← run b cpu 2))
  check (decide (0x6002 = state.pc))
  check (decide ((state.ps.carry, state.ps.negative, state.ps.zero) = (false, false, false)))) := by
  decide +kernel

/-- `should_cycle_on_cmp_immediate_operation_with_equal_operands`,
    `src/cpu/mos6502/tests/mod.rs:1056-1069`. -/
example : passes (fun b => do
  let cpu := (withGpRegister (← testCpu b [0xc9, 0xff]) .Acc 0xff)
  let state := (StepState.unwrap (← run b cpu 2))
  check (decide (0x6002 = state.pc))
  check (decide ((state.ps.carry, state.ps.negative, state.ps.zero) = (true, false, true)))) := by
  decide +kernel

/-- `should_cycle_on_cmp_x_indexed_indirect_operation_with_equal_operands`,
    `src/cpu/mos6502/tests/mod.rs:1071-1092`. -/
example : passes (fun b => do
  let cpu := (withGpRegister (withGpRegister (← testCpu b [0xc1, 0x01, 0x00]) .Acc 0xea) .X 0x05)
  let cpu ← store b cpu 0x06 0xff
  let cpu ← store b cpu 0x07 0x00
  let cpu ← store b cpu 0xff 0xea
  let state := (StepState.unwrap (← run b cpu 6))
  check (decide (0x6002 = state.pc))
  check (decide ((state.ps.carry, state.ps.negative, state.ps.zero) = (true, false, true)))) := by
  decide +kernel

/-- `should_cycle_on_cmp_x_indexed_indirect_operation_with_inequal_operands`,
    `src/cpu/mos6502/tests/mod.rs:1094-1115`. -/
example : passes (fun b => do
  let cpu := (withGpRegister (withGpRegister (← testCpu b [0xc1, 0x01, 0x00]) .Acc 0xff) .X 0x05)
  let cpu ← store b cpu 0x06 0xff
  let cpu ← store b cpu 0x07 0x00
  let cpu ← store b cpu 0xff 0xea
  let state := (StepState.unwrap (← run b cpu 6))
  check (decide (0x6002 = state.pc))
  check (decide ((state.ps.carry, state.ps.negative, state.ps.zero) = (true, false, false)))) := by
  decide +kernel

/-- `should_cycle_on_cmp_zeropage_operation_with_inequal_operands`,
    `src/cpu/mos6502/tests/mod.rs:1117-1131`. -/
example : passes (fun b => do
  let cpu := (withGpRegister (← testCpu b [0xc5, 0xff]) .Acc 0x00)
  let cpu ← store b cpu 0x00ff 0xff
  let state := (StepState.unwrap (← run b cpu 3))
  check (decide (0x6002 = state.pc))
  check (decide ((state.ps.carry, state.ps.negative, state.ps.zero) = (false, false, false)))) := by
  decide +kernel

/-- `should_cycle_on_cmp_zeropage_operation_with_equal_operands`,
    `src/cpu/mos6502/tests/mod.rs:1133-1147`. -/
example : passes (fun b => do
  let cpu := (withGpRegister (← testCpu b [0xc5, 0xff]) .Acc 0xff)
  let cpu ← store b cpu 0x00ff 0xff
  let state := (StepState.unwrap (← run b cpu 3))
  check (decide (0x6002 = state.pc))
  check (decide ((state.ps.carry, state.ps.negative, state.ps.zero) = (true, false, true)))) := by
  decide +kernel

/-- `should_cycle_on_cmp_zeropage_indexed_with_x_operation_with_inequal_operands`,
    `src/cpu/mos6502/tests/mod.rs:1149-1168`. -/
example : passes (fun b => do
  let cpu := (withGpRegister (withGpRegister (← testCpu b [0xd5, 0xfa]) .Acc 0x00) .X 0x05)
  let cpu ← store b cpu 0x00ff 0xff
  let state := (StepState.unwrap (← run b cpu 4))
  check (decide (0x6002 = state.pc))
  check (decide ((state.ps.carry, state.ps.negative, state.ps.zero) = (false, false, false)))) := by
  decide +kernel

/-- `should_cycle_on_cmp_zeropage_indexed_with_x_operation_with_equal_operands`,
    `src/cpu/mos6502/tests/mod.rs:1170-1189`. -/
example : passes (fun b => do
  let cpu := (withGpRegister (withGpRegister (← testCpu b [0xd5, 0xfa]) .Acc 0xff) .X 0x05)
  let cpu ← store b cpu 0x00ff 0xff
  let state := (StepState.unwrap (← run b cpu 4))
  check (decide (0x6002 = state.pc))
  check (decide ((state.ps.carry, state.ps.negative, state.ps.zero) = (true, false, true)))) := by
  decide +kernel

/-- `should_cycle_on_cpx_absolute_operation_with_equal_operands`,
    `src/cpu/mos6502/tests/mod.rs:1191-1205`. -/
example : passes (fun b => do
  let cpu := (withGpRegister (← testCpu b [0xec, 0xff, 0x00]) .X 0xff)
  let cpu ← store b cpu 0x00ff 0xff
  let state := (StepState.unwrap (← run b cpu 4))
  check (decide (0x6003 = state.pc))
  check (decide ((state.ps.carry, state.ps.negative, state.ps.zero) = (true, false, true)))) := by
  decide +kernel

/-- `should_cycle_on_cpx_absolute_operation_with_inequal_operands`,
    `src/cpu/mos6502/tests/mod.rs:1207-1221`. -/
example : passes (fun b => do
  let cpu := (withGpRegister (← testCpu b [0xec, 0xff, 0x00]) .X 0x00)
  let cpu ← store b cpu 0x00ff 0xff
  let state := (StepState.unwrap (← run b cpu 4))
  check (decide (0x6003 = state.pc))
  check (decide ((state.ps.carry, state.ps.negative, state.ps.zero) = (false, false, false)))) := by
  decide +kernel

/-- `should_cycle_on_cpx_immediate_operation_with_inequal_operands`,
    `src/cpu/mos6502/tests/mod.rs:1223-1236`. -/
example : passes (fun b => do
  let cpu := (withGpRegister (← testCpu b [0xe0, 0xff]) .X 0x00)
  let state := (StepState.unwrap (← run b cpu 2))
  check (decide (0x6002 = state.pc))
  check (decide ((state.ps.carry, state.ps.negative, state.ps.zero) = (false, false, false)))) := by
  decide +kernel

/-- `should_cycle_on_cpx_immediate_operation_with_equal_operands`,
    `src/cpu/mos6502/tests/mod.rs:1238-1251`. -/
example : passes (fun b => do
  let cpu := (withGpRegister (← testCpu b [0xe0, 0xff]) .X 0xff)
  let state := (StepState.unwrap (← run b cpu 2))
  check (decide (0x6002 = state.pc))
  check (decide ((state.ps.carry, state.ps.negative, state.ps.zero) = (true, false, true)))) := by
  decide +kernel

/-- `should_cycle_on_cpx_zeropage_operation_with_inequal_operands`,
    `src/cpu/mos6502/tests/mod.rs:1253-1267`. -/
example : passes (fun b => do
  let cpu := (withGpRegister (← testCpu b [0xe4, 0xff]) .X 0x00)
  let cpu ← store b cpu 0x00ff 0xff
  let state := (StepState.unwrap (← run b cpu 3))
  check (decide (0x6002 = state.pc))
  check (decide ((state.ps.carry, state.ps.negative, state.ps.zero) = (false, false, false)))) := by
  decide +kernel

/-- `should_cycle_on_cpx_zeropage_operation_with_equal_operands`,
    `src/cpu/mos6502/tests/mod.rs:1269-1283`. -/
example : passes (fun b => do
  let cpu := (withGpRegister (← testCpu b [0xe4, 0xff]) .X 0xff)
  let cpu ← store b cpu 0x00ff 0xff
  let state := (StepState.unwrap (← run b cpu 3))
  check (decide (0x6002 = state.pc))
  check (decide ((state.ps.carry, state.ps.negative, state.ps.zero) = (true, false, true)))) := by
  decide +kernel

/-- `should_cycle_on_cpy_absolute_operation_with_equal_operands`,
    `src/cpu/mos6502/tests/mod.rs:1285-1299`. -/
example : passes (fun b => do
  let cpu := (withGpRegister (← testCpu b [0xcc, 0xff, 0x00]) .Y 0xff)
  let cpu ← store b cpu 0x00ff 0xff
  let state := (StepState.unwrap (← run b cpu 4))
  check (decide (0x6003 = state.pc))
  check (decide ((state.ps.carry, state.ps.negative, state.ps.zero) = (true, false, true)))) := by
  decide +kernel

/-- `should_cycle_on_cpy_absolute_operation_with_inequal_operands`,
    `src/cpu/mos6502/tests/mod.rs:1301-1315`. -/
example : passes (fun b => do
  let cpu := (withGpRegister (← testCpu b [0xcc, 0xff, 0x00]) .Y 0x00)
  let cpu ← store b cpu 0x00ff 0xff
  let state := (StepState.unwrap (← run b cpu 4))
  check (decide (0x6003 = state.pc))
  check (decide ((state.ps.carry, state.ps.negative, state.ps.zero) = (false, false, false)))) := by
  decide +kernel

/-- `should_cycle_on_cpy_immediate_operation_with_inequal_operands`,
    `src/cpu/mos6502/tests/mod.rs:1317-1330`. -/
example : passes (fun b => do
  let cpu := (withGpRegister (← testCpu b [0xc0, 0xff]) .Y 0x00)
  let state := (StepState.unwrap (← run b cpu 2))
  check (decide (0x6002 = state.pc))
  check (decide ((state.ps.carry, state.ps.negative, state.ps.zero) = (false, false, false)))) := by
  decide +kernel

/-- `should_cycle_on_cpy_immediate_operation_with_equal_operands`,
    `src/cpu/mos6502/tests/mod.rs:1332-1345`. -/
example : passes (fun b => do
  let cpu := (withGpRegister (← testCpu b [0xc0, 0xff]) .Y 0xff)
  let state := (StepState.unwrap (← run b cpu 2))
  check (decide (0x6002 = state.pc))
  check (decide ((state.ps.carry, state.ps.negative, state.ps.zero) = (true, false, true)))) := by
  decide +kernel

/-- `should_cycle_on_cpy_zeropage_operation_with_inequal_operands`,
    `src/cpu/mos6502/tests/mod.rs:1347-1361`. -/
example : passes (fun b => do
  let cpu := (withGpRegister (← testCpu b [0xc4, 0xff]) .Y 0x00)
  let cpu ← store b cpu 0x00ff 0xff
  let state := (StepState.unwrap (← run b cpu 3))
  check (decide (0x6002 = state.pc))
  check (decide ((state.ps.carry, state.ps.negative, state.ps.zero) = (false, false, false)))) := by
  decide +kernel

/-- `should_cycle_on_cpy_zeropage_operation_with_equal_operands`,
    `src/cpu/mos6502/tests/mod.rs:1363-1377`. -/
example : passes (fun b => do
  let cpu := (withGpRegister (← testCpu b [0xc4, 0xff]) .Y 0xff)
  let cpu ← store b cpu 0x00ff 0xff
  let state := (StepState.unwrap (← run b cpu 3))
  check (decide (0x6002 = state.pc))
  check (decide ((state.ps.carry, state.ps.negative, state.ps.zero) = (true, false, true)))) := by
  decide +kernel

/-- `should_cycle_on_dec_absolute_operation`, `src/cpu/mos6502/tests/mod.rs:1379-1387`. -/
example : passes (fun b => do
  let cpu := (← testCpu b [0xce, 0xff, 0x01])
  let state := (StepState.unwrap (← run b cpu 6))
  check (decide (0x6003 = state.pc))
  check (decide (0xff = (← Addressable.read b state.address_map 0x01ff)))
  check (decide ((true, false) = (state.ps.negative, state.ps.zero)))) := by
  decide +kernel

/-- `should_cycle_on_dec_absolute_indexed_with_x_operation`,
    `src/cpu/mos6502/tests/mod.rs:1389-1398`. -/
example : passes (fun b => do
  let cpu := (withGpRegister (← testCpu b [0xde, 0xfa, 0x01]) .X 0x05)
  let state := (StepState.unwrap (← run b cpu 7))
  check (decide (0x6003 = state.pc))
  check (decide (0xff = (← Addressable.read b state.address_map 0x01ff)))
  check (decide ((true, false) = (state.ps.negative, state.ps.zero)))) := by
  decide +kernel

/-- `should_cycle_on_dec_zeropage_operation`, `src/cpu/mos6502/tests/mod.rs:1400-1408`. -/
example : passes (fun b => do
  let cpu := (← testCpu b [0xc6, 0xff])
  let state := (StepState.unwrap (← run b cpu 5))
  check (decide (0x6002 = state.pc))
  check (decide (0xff = (← Addressable.read b state.address_map 0xff)))
  check (decide ((true, false) = (state.ps.negative, state.ps.zero)))) := by
  decide +kernel

/-- `should_cycle_on_dec_zeropage_indexed_with_x_operation`,
    `src/cpu/mos6502/tests/mod.rs:1410-1419`. -/
example : passes (fun b => do
  let cpu := (withGpRegister (← testCpu b [0xd6, 0xfa]) .X 0x05)
  let state := (StepState.unwrap (← run b cpu 6))
  check (decide (0x6002 = state.pc))
  check (decide (0xff = (← Addressable.read b state.address_map 0xff)))
  check (decide ((true, false) = (state.ps.negative, state.ps.zero)))) := by
  decide +kernel

/-- `should_cycle_on_dex_implied_operation`, `src/cpu/mos6502/tests/mod.rs:1421-1430`. -/
example : passes (fun b => do
  let cpu := (withGpRegister (← testCpu b [0xca]) .X 0x51)
  let state := (StepState.unwrap (← run b cpu 2))
  check (decide (0x6001 = state.pc))
  check (decide (0x50 = state.x))
  check (decide ((false, false) = (state.ps.negative, state.ps.zero)))) := by
  decide +kernel

/-- `should_cycle_on_dey_implied_operation`, `src/cpu/mos6502/tests/mod.rs:1432-1441`. -/
example : passes (fun b => do
  let cpu := (withGpRegister (← testCpu b [0x88]) .Y 0xff)
  let state := (StepState.unwrap (← run b cpu 2))
  check (decide (0x6001 = state.pc))
  check (decide (0xfe = state.y))
  check (decide ((true, false) = (state.ps.negative, state.ps.zero)))) := by
  decide +kernel

/-- `should_cycle_on_eor_absolute_operation`, `src/cpu/mos6502/tests/mod.rs:1443-1453`. -/
example : passes (fun b => do
  let cpu := (withGpRegister (← testCpu b [0x4d, 0xff, 0x00]) .Acc 0xff)
  let cpu ← store b cpu 0x00ff 0x55
  let state := (StepState.unwrap (← run b cpu 4))
  check (decide (0x6003 = state.pc))
  check (decide (0xaa = state.acc))
  check (decide ((state.ps.negative, state.ps.zero) = (true, false)))) := by
  decide +kernel

/-- `should_cycle_on_eor_absolute_indexed_with_x_operation`,
    `src/cpu/mos6502/tests/mod.rs:1455-1466`. -/
example : passes (fun b => do
  let cpu := (withGpRegister (withGpRegister (← testCpu b [0x5d, 0xfa, 0x00]) .X 0x05) .Acc 0xff)
  let cpu ← store b cpu 0x00ff 0x55
  let state := (StepState.unwrap (← run b cpu 4))
  check (decide (0x6003 = state.pc))
  check (decide (0xaa = state.acc))
  check (decide ((state.ps.negative, state.ps.zero) = (true, false)))) := by
  decide +kernel

/-- `should_cycle_on_eor_absolute_indexed_with_y_operation`,
    `src/cpu/mos6502/tests/mod.rs:1468-1479`. -/
example : passes (fun b => do
  let cpu := (withGpRegister (withGpRegister (← testCpu b [0x59, 0xfa, 0x00]) .Y 0x05) .Acc 0xff)
  let cpu ← store b cpu 0x00ff 0x55
  let state := (StepState.unwrap (← run b cpu 4))
  check (decide (0x6003 = state.pc))
  check (decide (0xaa = state.acc))
  check (decide ((state.ps.negative, state.ps.zero) = (true, false)))) := by
  decide +kernel

/-- `should_cycle_on_eor_indirect_y_indexed_operation`, `src/cpu/mos6502/tests/mod.rs:1481-1494`. -/
example : passes (fun b => do
  let cpu := (withGpRegister (withGpRegister (← testCpu b [0x51, 0x00]) .Acc 0xff) .Y 0x05)
  let cpu ← store b cpu 0x00 0xfa
  let cpu ← store b cpu 0x01 0x00
  let cpu ← store b cpu 0xff 0x55
  let state := (StepState.unwrap (← run b cpu 5))
  check (decide (0x6002 = state.pc))
  check (decide (0xaa = state.acc))
  check (decide ((state.ps.negative, state.ps.zero) = (true, false)))) := by
  decide +kernel

end Verif.Conformance
