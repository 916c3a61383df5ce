import Verif.Conformance.Chip8Basic

/-!
# `src/cpu/chip8/operations/tests/mod.rs`
-/

namespace Verif.Conformance

open Verif Verif.Chip8

/-- `should_parse_cls_opcode`, `src/cpu/chip8/operations/tests/mod.rs:26` (macro at lines 5-22). -/
example : passes (fun _ => do
  parsesTo 0x00 0xe0 (.Cls)) := by
  decide +kernel

/-- `should_parse_ret_opcode`, `src/cpu/chip8/operations/tests/mod.rs:27` (macro at lines 5-22). -/
example : passes (fun _ => do
  parsesTo 0x00 0xee (.Ret)) := by
  decide +kernel

/-- `should_parse_drw_opcode`, `src/cpu/chip8/operations/tests/mod.rs:28` (macro at lines 5-22). -/
example : passes (fun _ => do
  parsesTo 0xd0 0x15 (.Drw .V0 .V1 5)) := by
  decide +kernel

/-- `should_parse_jump_absolute_opcode`, `src/cpu/chip8/operations/tests/mod.rs:29` (macro at lines
    5-22). -/
example : passes (fun _ => do
  parsesTo 0x1f 0xff (.JpNonV0Indexed (← U12.new 0xfff))) := by
  decide +kernel

/-- `should_parse_jump_absolute_indexed_by_v0_opcode`, `src/cpu/chip8/operations/tests/mod.rs:30`
    (macro at lines 5-22). -/
example : passes (fun _ => do
  parsesTo 0xbf 0xff (.JpV0Indexed (← U12.new 0xfff))) := by
  decide +kernel

/-- `should_parse_load_absolute_into_i_opcode`, `src/cpu/chip8/operations/tests/mod.rs:31` (macro at
    lines 5-22). -/
example : passes (fun _ => do
  parsesTo 0xaf 0xff (.LdAbsolute (← U12.new 0xfff))) := by
  decide +kernel

/-- `should_parse_load_immediate_into_i_opcode`, `src/cpu/chip8/operations/tests/mod.rs:32` (macro
    at lines 5-22). -/
example : passes (fun _ => do
  parsesTo 0x68 0xff (.LdImmediate .V8 0xff)) := by
  decide +kernel

/-- `should_parse_load_byte_register_operation_opcode`, `src/cpu/chip8/operations/tests/mod.rs:33`
    (macro at lines 5-22). -/
example : passes (fun _ => do
  parsesTo 0x80 0x10 (.LdVxVy .V0 .V1)) := by
  decide +kernel

/-- `should_parse_load_byte_into_sound_timer_opcode`, `src/cpu/chip8/operations/tests/mod.rs:34`
    (macro at lines 5-22). -/
example : passes (fun _ => do
  parsesTo 0xf8 0x18 (.LdSoundTimerDestTx .V8)) := by
  decide +kernel

/-- `should_parse_load_byte_into_delay_timer_opcode`, `src/cpu/chip8/operations/tests/mod.rs:35`
    (macro at lines 5-22). -/
example : passes (fun _ => do
  parsesTo 0xf8 0x15 (.LdDelayTimerDestTx .V8)) := by
  decide +kernel

/-- `should_parse_load_byte_into_register_from_delay_timer_opcode`,
    `src/cpu/chip8/operations/tests/mod.rs:36` (macro at lines 5-22). -/
example : passes (fun _ => do
  parsesTo 0xf8 0x07 (.LdDelayTimerSrcTx .V8)) := by
  decide +kernel

/-- `should_parse_sprite_location_from_vx_operation`, `src/cpu/chip8/operations/tests/mod.rs:37`
    (macro at lines 5-22). -/
example : passes (fun _ => do
  parsesTo 0xf8 0x29 (.LdSpriteLocation .V8)) := by
  decide +kernel

/-- `should_parse_load_bcd_from_vx_i_indirect_operation`, `src/cpu/chip8/operations/tests/mod.rs:38`
    (macro at lines 5-22). -/
example : passes (fun _ => do
  parsesTo 0xf8 0x33 (.LdBcd .V8)) := by
  decide +kernel

/-- `should_parse_load_keypress_into_register_operation`, `src/cpu/chip8/operations/tests/mod.rs:39`
    (macro at lines 5-22). -/
example : passes (fun _ => do
  parsesTo 0xf8 0x0a (.LdK .V8)) := by
  decide +kernel

/-- `should_parse_read_registers_from_memory_operation`, `src/cpu/chip8/operations/tests/mod.rs:40`
    (macro at lines 5-22). -/
example : passes (fun _ => do
  parsesTo 0xf2 0x65 (.ReadRegistersFromMemory .V2)) := by
  decide +kernel

/-- `should_parse_store_registers_to_memory_operation`, `src/cpu/chip8/operations/tests/mod.rs:41`
    (macro at lines 5-22). -/
example : passes (fun _ => do
  parsesTo 0xf2 0x55 (.StoreRegistersToMemory .V2)) := by
  decide +kernel

/-- `should_parse_sys_opcode`, `src/cpu/chip8/operations/tests/mod.rs:42` (macro at lines 5-22). -/
example : passes (fun _ => do
  parsesTo 0x0f 0xff (.Sys (← U12.new 0xfff))) := by
  decide +kernel

/-- `should_parse_call_opcode`, `src/cpu/chip8/operations/tests/mod.rs:43` (macro at lines 5-22). -/
example : passes (fun _ => do
  parsesTo 0x2f 0xff (.Call (← U12.new 0xfff))) := by
  decide +kernel

/-- `should_parse_add_immediate_opcode`, `src/cpu/chip8/operations/tests/mod.rs:44` (macro at lines
    5-22). -/
example : passes (fun _ => do
  parsesTo 0x70 0xff (.AddImmediate .V0 0xff)) := by
  decide +kernel

/-- `should_parse_add_i_register_indexed_opcode`, `src/cpu/chip8/operations/tests/mod.rs:45` (macro
    at lines 5-22). -/
example : passes (fun _ => do
  parsesTo 0xf0 0x1e (.AddIRegisterIndexed .V0)) := by
  decide +kernel

/-- `should_parse_add_vxvy_with_carry_operation`, `src/cpu/chip8/operations/tests/mod.rs:46` (macro
    at lines 5-22). -/
example : passes (fun _ => do
  parsesTo 0x80 0x14 (.AddVxVy .V0 .V1)) := by
  decide +kernel

/-- `should_parse_sub_vxvy_without_borrow_operation`, `src/cpu/chip8/operations/tests/mod.rs:47`
    (macro at lines 5-22). -/
example : passes (fun _ => do
  parsesTo 0x80 0x15 (.Sub .V0 .V1)) := by
  decide +kernel

/-- `should_parse_subn_vxvy_without_borrow_operation`, `src/cpu/chip8/operations/tests/mod.rs:48`
    (macro at lines 5-22). -/
example : passes (fun _ => do
  parsesTo 0x80 0x17 (.Subn .V0 .V1)) := by
  decide +kernel

/-- `should_parse_and_byte_register_operation_opcode`, `src/cpu/chip8/operations/tests/mod.rs:49`
    (macro at lines 5-22). -/
example : passes (fun _ => do
  parsesTo 0x80 0x12 (.And .V0 .V1)) := by
  decide +kernel

/-- `should_parse_or_byte_register_operation_opcode`, `src/cpu/chip8/operations/tests/mod.rs:50`
    (macro at lines 5-22). -/
example : passes (fun _ => do
  parsesTo 0x80 0x11 (.Or .V0 .V1)) := by
  decide +kernel

/-- `should_parse_xor_byte_register_operation_opcode`, `src/cpu/chip8/operations/tests/mod.rs:51`
    (macro at lines 5-22). -/
example : passes (fun _ => do
  parsesTo 0x80 0x13 (.Xor .V0 .V1)) := by
  decide +kernel

/-- `should_parse_shl_vxvy_with_flag_operation`, `src/cpu/chip8/operations/tests/mod.rs:52` (macro
    at lines 5-22). -/
example : passes (fun _ => do
  parsesTo 0x80 0x1e (.Shl .V0 .V1)) := by
  decide +kernel

/-- `should_parse_shr_vxvy_with_flag_operation`, `src/cpu/chip8/operations/tests/mod.rs:53` (macro
    at lines 5-22). -/
example : passes (fun _ => do
  parsesTo 0x80 0x16 (.Shr .V0 .V1)) := by
  decide +kernel

/-- `should_parse_se_immediate_operation_opcode`, `src/cpu/chip8/operations/tests/mod.rs:54` (macro
    at lines 5-22). -/
example : passes (fun _ => do
  parsesTo 0x30 0xff (.SeImmediate .V0 0xff)) := by
  decide +kernel

/-- `should_parse_se_byte_register_operation_opcode`, `src/cpu/chip8/operations/tests/mod.rs:55`
    (macro at lines 5-22). -/
example : passes (fun _ => do
  parsesTo 0x50 0x10 (.SeVxVy .V0 .V1)) := by
  decide +kernel

/-- `should_parse_sne_immediate_operation_opcode`, `src/cpu/chip8/operations/tests/mod.rs:56` (macro
    at lines 5-22). -/
example : passes (fun _ => do
  parsesTo 0x40 0xff (.SneImmediate .V0 0xff)) := by
  decide +kernel

/-- `should_parse_sne_byte_register_operation_opcode`, `src/cpu/chip8/operations/tests/mod.rs:57`
    (macro at lines 5-22). -/
example : passes (fun _ => do
  parsesTo 0x90 0x10 (.SneVxVy .V0 .V1)) := by
  decide +kernel

/-- `should_parse_rnd_immediate_operation_opcode`, `src/cpu/chip8/operations/tests/mod.rs:58` (macro
    at lines 5-22). -/
example : passes (fun _ => do
  parsesTo 0xc0 0xff (.Rnd .V0 0xff)) := by
  decide +kernel

/-- `should_parse_skp_opcode`, `src/cpu/chip8/operations/tests/mod.rs:59` (macro at lines 5-22). -/
example : passes (fun _ => do
  parsesTo 0xe0 0x9e (.Skp .V0)) := by
  decide +kernel

/-- `should_parse_sknp_opcode`, `src/cpu/chip8/operations/tests/mod.rs:60` (macro at lines 5-22). -/
example : passes (fun _ => do
  parsesTo 0xe0 0xa1 (.Sknp .V0)) := by
  decide +kernel

/-- `should_generate_cls_instruction`, `src/cpu/chip8/operations/tests/mod.rs:63-71`. -/
example : passes (fun b => do
  let _cpu := (← testChip8 b)
  check (decide ([.SetDisplayRange (0, 0) (64, 32) false] = genCls))) := by
  decide +kernel

/-- `should_generate_ret_instruction`, `src/cpu/chip8/operations/tests/mod.rs:73-90`. -/
example : passes (fun b => do
  let cpu := (withPcRegister (← testChip8 b) 0x200)
  let cpu := { cpu with stack := (← cpu.stack.writeSafe 0x0 0x200).2 }
  check (decide ([.PopStack 0x200, .Write16bitRegister .ProgramCounter 0x1fe] = (← genRet cpu)))) :=
      by
  decide +kernel

/-- `should_generate_jump_absolute_with_pc_incrementer`,
    `src/cpu/chip8/operations/tests/mod.rs:130-140`. -/
example : passes (fun b => do
  let _cpu := (← testChip8 b)
  check (decide ([.Write16bitRegister .ProgramCounter 0x1fe] = (genJp (← U12.new 0x200))))) := by
  decide +kernel

/-- `should_generate_load_absolute_into_i_incrementer`,
    `src/cpu/chip8/operations/tests/mod.rs:142-152`. -/
example : passes (fun b => do
  let _cpu := (← testChip8 b)
  check (decide ([.Write16bitRegister .I 0xfff] = (genLdAbsolute (← U12.new 0xfff))))) := by
  decide +kernel

/-- `should_generate_load_immediate_into_i_incrementer`,
    `src/cpu/chip8/operations/tests/mod.rs:154-168`. -/
example : passes (fun b => do
  let _cpu := (← testChip8 b)
  check (decide ([.Write8bitRegister (.GpRegisters .V8) 0xff] = (genLdImmediate .V8 0xff)))) := by
  decide +kernel

/-- `should_generate_load_byte_register_operation`, `src/cpu/chip8/operations/tests/mod.rs:170-193`.
    -/
example : passes (fun b => do
  let cpu := (← withGpRegister (← withGpRegister (← testChip8 b) .V0 0xff) .V1 0x0f)
  check (decide ([.Write8bitRegister (.GpRegisters .V0) 0x0f] = (← genLdVxVy cpu .V1 .V0)))) := by
  decide +kernel

/-- `should_generate_load_byte_into_sound_timer_operation`,
    `src/cpu/chip8/operations/tests/mod.rs:195-211`. -/
example : passes (fun b => do
  let cpu := (← withGpRegister (← testChip8 b) .V0 0xff)
  check (decide ([.Write8bitRegister (.TimerRegisters .Sound) 0xff] = (← genLdSoundTimer cpu .V0))))
      := by
  decide +kernel

/-- `should_generate_load_byte_into_delay_timer_operation`,
    `src/cpu/chip8/operations/tests/mod.rs:213-229`. -/
example : passes (fun b => do
  let cpu := (← withGpRegister (← testChip8 b) .V0 0xff)
  check (decide ([.Write8bitRegister (.TimerRegisters .Delay) 0xff] = (← genLdDelayTimer cpu .V0))))
      := by
  decide +kernel

/-- `should_generate_load_byte_into_register_from_delay_timer_operation`,
    `src/cpu/chip8/operations/tests/mod.rs:231-247`. -/
example : passes (fun b => do
  let cpu := (withTimerRegister (← testChip8 b) .Delay (ClockDecrementing.withValue 0 0xff))
  check (decide ([.Write8bitRegister (.GpRegisters .V0) 0xff] = (← genLdFromDelayTimer b ⟨0, 0, 0,
      0⟩ cpu .V0)))) := by
  decide +kernel

/-- `should_generate_load_bcd_from_vx_i_indirect_operation`,
    `src/cpu/chip8/operations/tests/mod.rs:249-267`. -/
example : passes (fun b => do
  let cpu := (withIRegister (← withGpRegister (← testChip8 b) .V0 0xfe) 0x0100)
  check (decide ([.WriteMemory 0x0100 2, .WriteMemory 0x0101 5, .WriteMemory 0x0102 4] = (← genLdBcd
      b cpu .V0)))) := by
  decide +kernel

/-- `should_generate_load_sprite_location_into_i_from_vx_operation`,
    `src/cpu/chip8/operations/tests/mod.rs:269-288`. -/
example : passes (fun b => do
  let cpu := (withIRegister (← withGpRegister (← testChip8 b) .V8 0xa) 0x0100)
  let expected_sprite_offset : Word := (0xA * 5)
  check (decide ([.Write16bitRegister .I expected_sprite_offset] = (← genLdSpriteLocation b cpu
      .V8)))) := by
  decide +kernel

/-- `should_generate_load_keypress_into_register_operation`,
    `src/cpu/chip8/operations/tests/mod.rs:290-321`. -/
example : passes (fun b => do
  let cpu_with_input_interrupt := (withInterrupt (← withGpRegister (← testChip8 b) .V8 0xab) (some
      (.KeyPress .Key4)))
  check (decide ([.Write8bitRegister (.GpRegisters .V8) 0x04] = (genLdK cpu_with_input_interrupt
      .V8)))
  let cpu_without_input_interrupt := (withInterrupt (← withGpRegister (← testChip8 b) .V8 0xab)
      none)
  check (decide ([.Dec16bitRegister .ProgramCounter 2] = (genLdK cpu_without_input_interrupt .V8))))
      := by
  decide +kernel

/-- `should_generate_store_registers_to_memory_operation`,
    `src/cpu/chip8/operations/tests/mod.rs:356-383`. -/
example : passes (fun b => do
  let cpu := (withIRegister (← withGpRegister (← withGpRegister (← withGpRegister (← testChip8 b)
      .V0 0x01) .V1 0x02) .V2 0x03) 0x0100)
  check (decide ([.WriteMemory 0x0100 0x01, .WriteMemory 0x0101 0x02, .WriteMemory 0x0102 0x03] = (←
      genStoreRegisters b cpu .V2)))) := by
  decide +kernel

/-- `should_generate_jump_absolute_indexed_by_v0_with_pc_incrementer`,
    `src/cpu/chip8/operations/tests/mod.rs:385-398`. -/
example : passes (fun b => do
  let cpu := (← withGpRegister (← testChip8 b) .V0 0x05)
  check (decide ([.Write16bitRegister .ProgramCounter 0x203] = (← genJpV0 cpu (← U12.new 0x200)))))
      := by
  decide +kernel

/-- `should_generate_sys_absolute_instruction`, `src/cpu/chip8/operations/tests/mod.rs:400-408`. -/
example : passes (fun b => do
  let cpu := (← testChip8 b)
  check (decide (([] : List Microcode) = (← generate b ⟨0, 0, 0, 0⟩ cpu (.Sys (← U12.new 0x200))))))
      := by
  decide +kernel

/-- `should_generate_call_absolute_instruction`, `src/cpu/chip8/operations/tests/mod.rs:410-425`. -/
example : passes (fun b => do
  let cpu := (withPcRegister (← testChip8 b) 0x200)
  check (decide ([.PushStack 0x200, .Write16bitRegister .ProgramCounter 0x3fe] = (genCall cpu (←
      U12.new 0x400))))) := by
  decide +kernel

/-- `should_generate_add_immediate`, `src/cpu/chip8/operations/tests/mod.rs:427-441`. -/
example : passes (fun b => do
  let _cpu := (← testChip8 b)
  check (decide ([.Inc8bitRegister (.GpRegisters .V5) 0xff] = (genAddImmediate .V5 0xff)))) := by
  decide +kernel

/-- `should_generate_add_i_register_indexed`, `src/cpu/chip8/operations/tests/mod.rs:443-459`. -/
example : passes (fun b => do
  let cpu := (← withGpRegister (← testChip8 b) .V5 0xff)
  check (decide ([.Inc16bitRegister .I 0xff] = (← genAddI cpu .V5)))) := by
  decide +kernel

/-- `should_generate_add_vxvy_with_carry_operation_that_overflows_when_sum_overflows_byte_capacity`,
    `src/cpu/chip8/operations/tests/mod.rs:461-487`. -/
example : passes (fun b => do
  let cpu := (← withGpRegister (← withGpRegister (← testChip8 b) .V0 0xfe) .V1 0x05)
  check (decide ([.Write8bitRegister (.GpRegisters .V0) 0x03, .Write8bitRegister (.GpRegisters .Vf)
      0x01] = (← genAddVxVy cpu .V1 .V0)))) := by
  decide +kernel

/-- `should_generate_add_vxvy_with_carry_operation_that_does_not_set_overflow_when_under_byte`,
    `src/cpu/chip8/operations/tests/mod.rs:489-515`. -/
example : passes (fun b => do
  let cpu := (← withGpRegister (← withGpRegister (← testChip8 b) .V0 0xfe) .V1 0x01)
  check (decide ([.Write8bitRegister (.GpRegisters .V0) 0xff, .Write8bitRegister (.GpRegisters .Vf)
      0x00] = (← genAddVxVy cpu .V1 .V0)))) := by
  decide +kernel

/-- `should_generate_set_borrow_for_sub_vxvy_if_vx_value_is_larger_than_vy_value`,
    `src/cpu/chip8/operations/tests/mod.rs:517-543`. -/
example : passes (fun b => do
  let cpu := (← withGpRegister (← withGpRegister (← testChip8 b) .V0 0xff) .V1 0x05)
  check (decide ([.Write8bitRegister (.GpRegisters .V0) 0xfa, .Write8bitRegister (.GpRegisters .Vf)
      0x01] = (← genSub cpu .V1 .V0)))) := by
  decide +kernel

/-- `should_generate_not_set_borrow_for_sub_vxvy_if_vx_value_is_larger_than_vy_value`,
    `src/cpu/chip8/operations/tests/mod.rs:545-571`. -/
example : passes (fun b => do
  let cpu := (← withGpRegister (← withGpRegister (← testChip8 b) .V0 0x01) .V1 0xff)
  check (decide ([.Write8bitRegister (.GpRegisters .V0) 0x02, .Write8bitRegister (.GpRegisters .Vf)
      0x00] = (← genSub cpu .V1 .V0)))) := by
  decide +kernel

/--
    `should_generate_subn_vxvy_without_borrow_operation_that_doesnt_set_underflow_when_difference_underflows_byte_capacity`,
    `src/cpu/chip8/operations/tests/mod.rs:573-600`. -/
example : passes (fun b => do
  let cpu := (← withGpRegister (← withGpRegister (← testChip8 b) .V0 0xff) .V1 0x05)
  check (decide ([.Write8bitRegister (.GpRegisters .V0) 0x06, .Write8bitRegister (.GpRegisters .Vf)
      0x00] = (← genSubn cpu .V1 .V0)))) := by
  decide +kernel

/--
    `should_generate_subn_vxvy_without_underflow_operation_that_does_set_underflow_when_difference_fits_within_byte`,
    `src/cpu/chip8/operations/tests/mod.rs:602-629`. -/
example : passes (fun b => do
  let cpu := (← withGpRegister (← withGpRegister (← testChip8 b) .V0 0x01) .V1 0xff)
  check (decide ([.Write8bitRegister (.GpRegisters .V0) 0xfe, .Write8bitRegister (.GpRegisters .Vf)
      0x01] = (← genSubn cpu .V1 .V0)))) := by
  decide +kernel

/-- `should_generate_and_byte_register_operation`, `src/cpu/chip8/operations/tests/mod.rs:631-654`.
    -/
example : passes (fun b => do
  let cpu := (← withGpRegister (← withGpRegister (← testChip8 b) .V0 0xff) .V1 0x0f)
  check (decide ([.Write8bitRegister (.GpRegisters .V0) 0x0f] = (← genAnd cpu .V1 .V0)))) := by
  decide +kernel

/-- `should_generate_or_byte_register_operation`, `src/cpu/chip8/operations/tests/mod.rs:656-679`.
    -/
example : passes (fun b => do
  let cpu := (← withGpRegister (← withGpRegister (← testChip8 b) .V0 0xff) .V1 0x0f)
  check (decide ([.Write8bitRegister (.GpRegisters .V0) 0xff] = (← genOr cpu .V1 .V0)))) := by
  decide +kernel

/-- `should_generate_shl_vxvy_with_flag_operation_that_overflows_byte_capacity`,
    `src/cpu/chip8/operations/tests/mod.rs:681-701`. -/
example : passes (fun b => do
  let cpu := (← withGpRegister (← testChip8 b) .V0 0x81)
  check (decide ([.Write8bitRegister (.GpRegisters .Vf) 0x01, .Write8bitRegister (.GpRegisters .V0)
      0x02] = (← genShl cpu .V1 .V0)))) := by
  decide +kernel

/-- `should_generate_shl_vxvy_with_flag_operation_that_does_not_overflow_byte_capacity`,
    `src/cpu/chip8/operations/tests/mod.rs:703-723`. -/
example : passes (fun b => do
  let cpu := (← withGpRegister (← testChip8 b) .V0 0x01)
  check (decide ([.Write8bitRegister (.GpRegisters .Vf) 0x0, .Write8bitRegister (.GpRegisters .V0)
      0x2] = (← genShl cpu .V1 .V0)))) := by
  decide +kernel

/-- `should_generate_shr_vxvy_with_flag_operation_that_overflows_byte_capacity`,
    `src/cpu/chip8/operations/tests/mod.rs:725-745`. -/
example : passes (fun b => do
  let cpu := (← withGpRegister (← testChip8 b) .V0 0x03)
  check (decide ([.Write8bitRegister (.GpRegisters .Vf) 0x01, .Write8bitRegister (.GpRegisters .V0)
      0x01] = (← genShr cpu .V1 .V0)))) := by
  decide +kernel

/-- `should_generate_shr_vxvy_with_flag_operation_that_does_not_overflow_byte_capacity`,
    `src/cpu/chip8/operations/tests/mod.rs:747-767`. -/
example : passes (fun b => do
  let cpu := (← withGpRegister (← testChip8 b) .V0 0x8)
  check (decide ([.Write8bitRegister (.GpRegisters .Vf) 0x0, .Write8bitRegister (.GpRegisters .V0)
      0x4] = (← genShr cpu .V1 .V0)))) := by
  decide +kernel

/-- `should_generate_xor_byte_register_operation`, `src/cpu/chip8/operations/tests/mod.rs:769-792`.
    -/
example : passes (fun b => do
  let cpu := (← withGpRegister (← withGpRegister (← testChip8 b) .V0 0xff) .V1 0x0f)
  check (decide ([.Write8bitRegister (.GpRegisters .V0) 0xf0] = (← genXor cpu .V1 .V0)))) := by
  decide +kernel

/-- `should_generate_se_immediate_operation`, `src/cpu/chip8/operations/tests/mod.rs:794-826`. -/
example : passes (fun b => do
  let cpu_eq := (← withGpRegister (← testChip8 b) .V0 0xff)
  check (decide ([.Inc16bitRegister .ProgramCounter 2] = (← genSeImmediate cpu_eq .V0 0xff)))
  let cpu_ne := (← withGpRegister (← testChip8 b) .V0 0xff)
  check (decide (([] : List Microcode) = (← genSeImmediate cpu_ne .V0 0x00)))) := by
  decide +kernel

/-- `should_generate_se_byte_register_operation`, `src/cpu/chip8/operations/tests/mod.rs:828-870`.
    -/
example : passes (fun b => do
  let cpu_eq := (← withGpRegister (← withGpRegister (← testChip8 b) .V0 0x0f) .V1 0x0f)
  check (decide ([.Inc16bitRegister .ProgramCounter 2] = (← genSeVxVy cpu_eq .V1 .V0)))
  let cpu_ne := (← withGpRegister (← withGpRegister (← testChip8 b) .V0 0xff) .V1 0x0f)
  check (decide (([] : List Microcode) = (← genSeVxVy cpu_ne .V1 .V0)))) := by
  decide +kernel

/-- `should_generate_sne_immediate_operation`, `src/cpu/chip8/operations/tests/mod.rs:872-904`. -/
example : passes (fun b => do
  let cpu_eq := (← withGpRegister (← testChip8 b) .V0 0xff)
  check (decide ([.Inc16bitRegister .ProgramCounter 2] = (← genSneImmediate cpu_eq .V0 0x00)))
  let cpu_ne := (← withGpRegister (← testChip8 b) .V0 0xff)
  check (decide (([] : List Microcode) = (← genSneImmediate cpu_ne .V0 0xff)))) := by
  decide +kernel

/-- `should_generate_sne_byte_register_operation`, `src/cpu/chip8/operations/tests/mod.rs:906-948`.
    -/
example : passes (fun b => do
  let cpu_eq := (← withGpRegister (← withGpRegister (← testChip8 b) .V0 0xff) .V1 0x00)
  check (decide ([.Inc16bitRegister .ProgramCounter 2] = (← genSneVxVy cpu_eq .V1 .V0)))
  let cpu_ne := (← withGpRegister (← withGpRegister (← testChip8 b) .V0 0xff) .V1 0xff)
  check (decide (([] : List Microcode) = (← genSneVxVy cpu_ne .V1 .V0)))) := by
  decide +kernel

/-- `should_generate_skp_operation`, `src/cpu/chip8/operations/tests/mod.rs:1002-1037`. -/
example : passes (fun b => do
  let cpu_some_eq := (withInterrupt (← withGpRegister (← testChip8 b) .V0 0x0f) (some (.KeyPress
      .KeyF)))
  check (decide ([.Inc16bitRegister .ProgramCounter 2] = (← genSkp cpu_some_eq .V0)))
  let cpu_some_ne := (withInterrupt cpu_some_eq (some (.KeyPress .Key0)))
  check (decide (([] : List Microcode) = (← genSkp cpu_some_ne .V0)))
  let cpu_none := (withInterrupt cpu_some_eq none)
  check (decide (([] : List Microcode) = (← genSkp cpu_none .V0)))) := by
  decide +kernel

/-- `should_generate_sknp_operation`, `src/cpu/chip8/operations/tests/mod.rs:1039-1077`. -/
example : passes (fun b => do
  let cpu_some_eq := (withInterrupt (← withGpRegister (← testChip8 b) .V0 0x0f) (some (.KeyPress
      .KeyF)))
  check (decide (([] : List Microcode) = (← genSknp cpu_some_eq .V0)))
  let cpu_some_ne := (withInterrupt cpu_some_eq (some (.KeyPress .Key0)))
  check (decide ([.Inc16bitRegister .ProgramCounter 2] = (← genSknp cpu_some_ne .V0)))
  let cpu_none := (withInterrupt cpu_some_eq none)
  check (decide ([.Inc16bitRegister .ProgramCounter 2] = (← genSknp cpu_none .V0)))) := by
  decide +kernel

/-- `should_generate_drw_instruction`, `src/cpu/chip8/operations/tests/mod.rs:92-128`. -/
example : passes (fun b => do
  let cpu ← withGpRegister (← testChip8 b) .V0 0
  let cpu := withIRegister (← withGpRegister cpu .V1 0) 0
  let cpu ← store8 b cpu 0x00 0xf0
  let expected := (List.range 8).map (fun x => Microcode.SetDisplayPixel (x, 0)
    (((0xf0 : Byte) >>> (7 - x)) &&& 1 != 0))
  let expected := expected ++ [.Write8bitRegister (.GpRegisters .Vf) 0]
  check (decide (expected = (← genDrw b cpu .V0 .V1 1)))) := by
  decide +kernel

/-- `should_generate_read_registers_from_memory_operation`,
    `src/cpu/chip8/operations/tests/mod.rs:323-354`. -/
example : passes (fun b => do
  let base_i_addr : Word := 0x200
  let cpu := withIRegister (← testChip8 b) base_i_addr
  let cpu ← ([1, 2, 3] : List Byte).foldlM (fun cpu v => do
    let addr_offset ← addU16 b base_i_addr (← subU16 b (u16OfU8 v) 1)
    store8 b cpu addr_offset v) cpu
  check (decide ([.Write8bitRegister (.GpRegisters .V0) 0x01,
    .Write8bitRegister (.GpRegisters .V1) 0x02,
    .Write8bitRegister (.GpRegisters .V2) 0x03] = (← genReadRegisters b cpu .V2)))) := by
  decide +kernel

/-- `should_generate_rnd_immediate_operation`, `src/cpu/chip8/operations/tests/mod.rs:950-1000`; the
    256 rounds of the loop do the
same, because the random generator is the closure `|| 0u8`. -/
example : passes (fun _ => do
  check (decide ([.Write8bitRegister (.GpRegisters .V0) 0] = genRnd ⟨0, 0, 0, 0⟩ .V0 0x00))
  match (genRnd ⟨0, 0, 0, 0⟩ .V0 0x00).head? with
  | some (.Write8bitRegister _ value) => check (decide (value.toNat ≤ 0x0f))
  | _ => check false
  match (genRnd ⟨0, 0, 0, 0⟩ .V0 0xf0).head? with
  | some (.Write8bitRegister _ value) => check (decide (value.toNat ≤ 0xf0))
  | _ => check false) := by
  decide +kernel

end Verif.Conformance
