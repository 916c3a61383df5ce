import Verif.Conformance.MosBasic

/-!
# `src/cpu/mos6502/operations/tests/code_generation.rs`
-/

namespace Verif.Conformance

open Verif Verif.Mos

/-- `should_generate_absolute_addressing_mode_adc_machine_code`,
    `src/cpu/mos6502/operations/tests/code_generation.rs:21-45`. -/
example : passes (fun b => do
  let cpu := (withGpRegister (← defaultCpu b) .Acc 0x80)
  let cpu ← store b cpu 0x00ff 0xff
  let op := (InstructionVariant.AdcAbsolute 0x00ff)
  let mc := (← InstructionVariant.generate b cpu op)
  check (decide ((⟨3, 4, [.SetProgramStatusFlagState .Carry true, .SetProgramStatusFlagState
      .Negative false, .SetProgramStatusFlagState .Overflow true, .SetProgramStatusFlagState .Zero
      false, .Write8bitRegister .Acc 0x7f]⟩ : Operations) = mc))) := by
  decide +kernel

/-- `should_generate_absolute_indexed_with_x_addressing_mode_adc_machine_code`,
    `src/cpu/mos6502/operations/tests/code_generation.rs:47-72`. -/
example : passes (fun b => do
  let cpu := (withGpRegister (withGpRegister (← defaultCpu b) .Acc 0x80) .X 0x05)
  let cpu ← store b cpu 0x00ff 0xff
  let op := (InstructionVariant.AdcAbsoluteIndexedWithX 0x00fa)
  let mc := (← InstructionVariant.generate b cpu op)
  check (decide ((⟨3, 4, [.SetProgramStatusFlagState .Carry true, .SetProgramStatusFlagState
      .Negative false, .SetProgramStatusFlagState .Overflow true, .SetProgramStatusFlagState .Zero
      false, .Write8bitRegister .Acc 0x7f]⟩ : Operations) = mc))) := by
  decide +kernel

/-- `should_generate_absolute_indexed_with_y_addressing_mode_adc_machine_code`,
    `src/cpu/mos6502/operations/tests/code_generation.rs:74-99`. -/
example : passes (fun b => do
  let cpu := (withGpRegister (withGpRegister (← defaultCpu b) .Acc 0x80) .Y 0x05)
  let cpu ← store b cpu 0x00ff 0xff
  let op := (InstructionVariant.AdcAbsoluteIndexedWithY 0x00fa)
  let mc := (← InstructionVariant.generate b cpu op)
  check (decide ((⟨3, 4, [.SetProgramStatusFlagState .Carry true, .SetProgramStatusFlagState
      .Negative false, .SetProgramStatusFlagState .Overflow true, .SetProgramStatusFlagState .Zero
      false, .Write8bitRegister .Acc 0x7f]⟩ : Operations) = mc))) := by
  decide +kernel

/-- `should_generate_indirect_y_indexed_addressing_mode_adc_machine_code`,
    `src/cpu/mos6502/operations/tests/code_generation.rs:101-128`. -/
example : passes (fun b => do
  let cpu := (withGpRegister (withGpRegister (← defaultCpu b) .Acc 0x80) .Y 0x05)
  let cpu ← store b cpu 0x00 0xfa
  let cpu ← store b cpu 0x01 0x00
  let cpu ← store b cpu 0xff 0xff
  let op := (InstructionVariant.AdcIndirectYIndexed 0x00)
  let mc := (← InstructionVariant.generate b cpu op)
  check (decide ((⟨2, 5, [.SetProgramStatusFlagState .Carry true, .SetProgramStatusFlagState
      .Negative false, .SetProgramStatusFlagState .Overflow true, .SetProgramStatusFlagState .Zero
      false, .Write8bitRegister .Acc 0x7f]⟩ : Operations) = mc))) := by
  decide +kernel

/-- `should_generate_immediate_addressing_mode_adc_machine_code`,
    `src/cpu/mos6502/operations/tests/code_generation.rs:130-152`. -/
example : passes (fun b => do
  let cpu := (withGpRegister (← defaultCpu b) .Acc 0x80)
  let op := (InstructionVariant.AdcImmediate 0xff)
  let mc := (← InstructionVariant.generate b cpu op)
  check (decide ((⟨2, 2, [.SetProgramStatusFlagState .Carry true, .SetProgramStatusFlagState
      .Negative false, .SetProgramStatusFlagState .Overflow true, .SetProgramStatusFlagState .Zero
      false, .Write8bitRegister .Acc 0x7f]⟩ : Operations) = mc))) := by
  decide +kernel

/-- `should_generate_x_indexed_indirect_addressing_mode_adc_machine_code`,
    `src/cpu/mos6502/operations/tests/code_generation.rs:154-181`. -/
example : passes (fun b => do
  let cpu := (withGpRegister (withGpRegister (← defaultCpu b) .Acc 0x80) .X 0x05)
  let cpu ← store b cpu 0x05 0xff
  let cpu ← store b cpu 0x06 0x00
  let cpu ← store b cpu 0xff 0xff
  let op := (InstructionVariant.AdcXIndexedIndirect 0x00)
  let mc := (← InstructionVariant.generate b cpu op)
  check (decide ((⟨2, 6, [.SetProgramStatusFlagState .Carry true, .SetProgramStatusFlagState
      .Negative false, .SetProgramStatusFlagState .Overflow true, .SetProgramStatusFlagState .Zero
      false, .Write8bitRegister .Acc 0x7f]⟩ : Operations) = mc))) := by
  decide +kernel

/-- `should_generate_zeropage_addressing_mode_adc_machine_code`,
    `src/cpu/mos6502/operations/tests/code_generation.rs:183-207`. -/
example : passes (fun b => do
  let cpu := (withGpRegister (← defaultCpu b) .Acc 0x80)
  let cpu ← store b cpu 0x00ff 0xff
  let op := (InstructionVariant.AdcZeroPage 0xff)
  let mc := (← InstructionVariant.generate b cpu op)
  check (decide ((⟨2, 3, [.SetProgramStatusFlagState .Carry true, .SetProgramStatusFlagState
      .Negative false, .SetProgramStatusFlagState .Overflow true, .SetProgramStatusFlagState .Zero
      false, .Write8bitRegister .Acc 0x7f]⟩ : Operations) = mc))) := by
  decide +kernel

/-- `should_generate_zeropage_indexed_with_x_addressing_mode_adc_machine_code`,
    `src/cpu/mos6502/operations/tests/code_generation.rs:209-234`. -/
example : passes (fun b => do
  let cpu := (withGpRegister (withGpRegister (← defaultCpu b) .Acc 0x80) .X 0x05)
  let cpu ← store b cpu 0xff 0xff
  let op := (InstructionVariant.AdcZeroPageIndexedWithX 0xfa)
  let mc := (← InstructionVariant.generate b cpu op)
  check (decide ((⟨2, 4, [.SetProgramStatusFlagState .Carry true, .SetProgramStatusFlagState
      .Negative false, .SetProgramStatusFlagState .Overflow true, .SetProgramStatusFlagState .Zero
      false, .Write8bitRegister .Acc 0x7f]⟩ : Operations) = mc))) := by
  decide +kernel

/-- `should_generate_absolute_addressing_mode_and_machine_code`,
    `src/cpu/mos6502/operations/tests/code_generation.rs:238-259`. -/
example : passes (fun b => do
  let cpu := (withGpRegister (← defaultCpu b) .Acc 0xff)
  let cpu ← store b cpu 0x00ff 0x55
  let op := (InstructionVariant.AndAbsolute 0x00ff)
  let mc := (← InstructionVariant.generate b cpu op)
  check (decide ((⟨3, 4, [.SetProgramStatusFlagState .Negative false, .SetProgramStatusFlagState
      .Zero false, .Write8bitRegister .Acc 0x55]⟩ : Operations) = mc))) := by
  decide +kernel

/-- `should_generate_absolute_indexed_with_x_addressing_mode_and_machine_code`,
    `src/cpu/mos6502/operations/tests/code_generation.rs:261-283`. -/
example : passes (fun b => do
  let cpu := (withGpRegister (withGpRegister (← defaultCpu b) .Acc 0x55) .X 0x05)
  let cpu ← store b cpu 0x00ff 0x55
  let op := (InstructionVariant.AndAbsoluteIndexedWithX 0x00fa)
  let mc := (← InstructionVariant.generate b cpu op)
  check (decide ((⟨3, 4, [.SetProgramStatusFlagState .Negative false, .SetProgramStatusFlagState
      .Zero false, .Write8bitRegister .Acc 0x55]⟩ : Operations) = mc))) := by
  decide +kernel

/-- `should_generate_absolute_indexed_with_y_addressing_mode_and_machine_code`,
    `src/cpu/mos6502/operations/tests/code_generation.rs:285-307`. -/
example : passes (fun b => do
  let cpu := (withGpRegister (withGpRegister (← defaultCpu b) .Acc 0x55) .Y 0x05)
  let cpu ← store b cpu 0x00ff 0x55
  let op := (InstructionVariant.AndAbsoluteIndexedWithY 0x00fa)
  let mc := (← InstructionVariant.generate b cpu op)
  check (decide ((⟨3, 4, [.SetProgramStatusFlagState .Negative false, .SetProgramStatusFlagState
      .Zero false, .Write8bitRegister .Acc 0x55]⟩ : Operations) = mc))) := by
  decide +kernel

/-- `should_generate_indirect_y_indexed_addressing_mode_and_machine_code`,
    `src/cpu/mos6502/operations/tests/code_generation.rs:309-334`. -/
example : passes (fun b => do
  let cpu := (withGpRegister (withGpRegister (← defaultCpu b) .Acc 0xff) .Y 0x05)
  let cpu ← store b cpu 0x00 0xfa
  let cpu ← store b cpu 0x01 0x00
  let cpu ← store b cpu 0xff 0x55
  let op := (InstructionVariant.AndIndirectYIndexed 0x00)
  let mc := (← InstructionVariant.generate b cpu op)
  check (decide ((⟨2, 5, [.SetProgramStatusFlagState .Negative false, .SetProgramStatusFlagState
      .Zero false, .Write8bitRegister .Acc 0x55]⟩ : Operations) = mc))) := by
  decide +kernel

/-- `should_generate_immediate_addressing_mode_and_machine_code`,
    `src/cpu/mos6502/operations/tests/code_generation.rs:336-356`. -/
example : passes (fun b => do
  let cpu := (withGpRegister (← defaultCpu b) .Acc 0xff)
  let op := (InstructionVariant.AndImmediate 0x55)
  let mc := (← InstructionVariant.generate b cpu op)
  check (decide ((⟨2, 2, [.SetProgramStatusFlagState .Negative false, .SetProgramStatusFlagState
      .Zero false, .Write8bitRegister .Acc 0x55]⟩ : Operations) = mc))) := by
  decide +kernel

/-- `should_generate_x_indexed_indirect_addressing_mode_and_machine_code`,
    `src/cpu/mos6502/operations/tests/code_generation.rs:358-383`. -/
example : passes (fun b => do
  let cpu := (withGpRegister (withGpRegister (← defaultCpu b) .Acc 0xff) .X 0x05)
  let cpu ← store b cpu 0x05 0xff
  let cpu ← store b cpu 0x06 0x00
  let cpu ← store b cpu 0xff 0x55
  let op := (InstructionVariant.AndXIndexedIndirect 0x00)
  let mc := (← InstructionVariant.generate b cpu op)
  check (decide ((⟨2, 6, [.SetProgramStatusFlagState .Negative false, .SetProgramStatusFlagState
      .Zero false, .Write8bitRegister .Acc 0x55]⟩ : Operations) = mc))) := by
  decide +kernel

/-- `should_generate_zeropage_addressing_mode_and_machine_code`,
    `src/cpu/mos6502/operations/tests/code_generation.rs:385-406`. -/
example : passes (fun b => do
  let cpu := (withGpRegister (← defaultCpu b) .Acc 0xff)
  let cpu ← store b cpu 0x00ff 0x55
  let op := (InstructionVariant.AndZeroPage 0xff)
  let mc := (← InstructionVariant.generate b cpu op)
  check (decide ((⟨2, 3, [.SetProgramStatusFlagState .Negative false, .SetProgramStatusFlagState
      .Zero false, .Write8bitRegister .Acc 0x55]⟩ : Operations) = mc))) := by
  decide +kernel

/-- `should_generate_zeropage_indexed_with_x_addressing_mode_and_machine_code`,
    `src/cpu/mos6502/operations/tests/code_generation.rs:408-430`. -/
example : passes (fun b => do
  let cpu := (withGpRegister (withGpRegister (← defaultCpu b) .Acc 0xff) .X 0x05)
  let cpu ← store b cpu 0x00ff 0x55
  let op := (InstructionVariant.AndZeroPageIndexedWithX 0xfa)
  let mc := (← InstructionVariant.generate b cpu op)
  check (decide ((⟨2, 4, [.SetProgramStatusFlagState .Negative false, .SetProgramStatusFlagState
      .Zero false, .Write8bitRegister .Acc 0x55]⟩ : Operations) = mc))) := by
  decide +kernel

/-- `should_generate_absolute_addressing_mode_asl_machine_code`,
    `src/cpu/mos6502/operations/tests/code_generation.rs:434-455`. -/
example : passes (fun b => do
  let cpu := (← defaultCpu b)
  let cpu ← store b cpu 0x00ff 0xaa
  let op := (InstructionVariant.AslAbsolute 0x00ff)
  let mc := (← InstructionVariant.generate b cpu op)
  check (decide ((⟨3, 6, [.SetProgramStatusFlagState .Carry true, .SetProgramStatusFlagState
      .Negative false, .SetProgramStatusFlagState .Zero false, .WriteMemory 0x00ff 0x54]⟩ :
      Operations) = mc))) := by
  decide +kernel

/-- `should_generate_absolute_indexed_with_x_addressing_mode_asl_machine_code`,
    `src/cpu/mos6502/operations/tests/code_generation.rs:457-479`. -/
example : passes (fun b => do
  let cpu := (withGpRegister (← defaultCpu b) .X 0x05)
  let cpu ← store b cpu 0x00ff 0xaa
  let op := (InstructionVariant.AslAbsoluteIndexedWithX 0x00fa)
  let mc := (← InstructionVariant.generate b cpu op)
  check (decide ((⟨3, 7, [.SetProgramStatusFlagState .Carry true, .SetProgramStatusFlagState
      .Negative false, .SetProgramStatusFlagState .Zero false, .WriteMemory 0x00ff 0x54]⟩ :
      Operations) = mc))) := by
  decide +kernel

/-- `should_generate_accumulator_addressing_mode_asl_machine_code`,
    `src/cpu/mos6502/operations/tests/code_generation.rs:481-502`. -/
example : passes (fun b => do
  let cpu := (withGpRegister (← defaultCpu b) .Acc 0xaa)
  let op := InstructionVariant.AslAccumulator
  let mc := (← InstructionVariant.generate b cpu op)
  check (decide ((⟨1, 2, [.SetProgramStatusFlagState .Carry true, .SetProgramStatusFlagState
      .Negative false, .SetProgramStatusFlagState .Zero false, .Write8bitRegister .Acc 0x54]⟩ :
      Operations) = mc))) := by
  decide +kernel

/-- `should_generate_zeropage_addressing_mode_asl_machine_code`,
    `src/cpu/mos6502/operations/tests/code_generation.rs:504-525`. -/
example : passes (fun b => do
  let cpu := (← defaultCpu b)
  let cpu ← store b cpu 0x00ff 0xaa
  let op := (InstructionVariant.AslZeroPage 0xff)
  let mc := (← InstructionVariant.generate b cpu op)
  check (decide ((⟨2, 5, [.SetProgramStatusFlagState .Carry true, .SetProgramStatusFlagState
      .Negative false, .SetProgramStatusFlagState .Zero false, .WriteMemory 0x00ff 0x54]⟩ :
      Operations) = mc))) := by
  decide +kernel

/-- `should_generate_zeropage_indexed_with_x_addressing_mode_asl_machine_code`,
    `src/cpu/mos6502/operations/tests/code_generation.rs:527-549`. -/
example : passes (fun b => do
  let cpu := (withGpRegister (← defaultCpu b) .X 0x05)
  let cpu ← store b cpu 0x00ff 0xaa
  let op := (InstructionVariant.AslZeroPageIndexedWithX 0xfa)
  let mc := (← InstructionVariant.generate b cpu op)
  check (decide ((⟨2, 6, [.SetProgramStatusFlagState .Carry true, .SetProgramStatusFlagState
      .Negative false, .SetProgramStatusFlagState .Zero false, .WriteMemory 0x00ff 0x54]⟩ :
      Operations) = mc))) := by
  decide +kernel

/-- `should_generate_bcc_machine_code_with_branch_penalty`,
    `src/cpu/mos6502/operations/tests/code_generation.rs:553-573`. -/
example : passes (fun b => do
  let cpu := (withPcRegister (← defaultCpu b) 0x6000)
  let cpu := { cpu with ps := { cpu.ps with carry := false } }
  let op := (InstructionVariant.BccRelative 8)
  let mc := (← InstructionVariant.generate b cpu op)
  let pc := (← addU16 b cpu.pc 8)
  check (decide ((⟨0, 3, [.Write16bitRegister .Pc pc]⟩ : Operations) = mc))) := by
  decide +kernel

/-- `should_generate_bcc_machine_code_with_branch_and_page_penalty`,
    `src/cpu/mos6502/operations/tests/code_generation.rs:575-595`. -/
example : passes (fun b => do
  let cpu := (withPcRegister (← defaultCpu b) 0x6000)
  let cpu := { cpu with ps := { cpu.ps with carry := false } }
  let op := (InstructionVariant.BccRelative (-8))
  let mc := (← InstructionVariant.generate b cpu op)
  let pc := (← subU16 b cpu.pc 8)
  check (decide ((⟨0, 4, [.Write16bitRegister .Pc pc]⟩ : Operations) = mc))) := by
  decide +kernel

/-- `should_generate_bcc_machine_code_with_no_jump`,
    `src/cpu/mos6502/operations/tests/code_generation.rs:597-616`. -/
example : passes (fun b => do
  let cpu := (withPcRegister (← defaultCpu b) 0x6000)
  let cpu := { cpu with ps := { cpu.ps with carry := true } }
  let op := (InstructionVariant.BccRelative (-8))
  let mc := (← InstructionVariant.generate b cpu op)
  let pc := (← addU16 b cpu.pc 2)
  check (decide ((⟨0, 2, [.Write16bitRegister .Pc pc]⟩ : Operations) = mc))) := by
  decide +kernel

/-- `should_generate_bcs_machine_code_with_branch_penalty`,
    `src/cpu/mos6502/operations/tests/code_generation.rs:620-640`. -/
example : passes (fun b => do
  let cpu := (withPcRegister (← defaultCpu b) 0x6000)
  let cpu := { cpu with ps := { cpu.ps with carry := true } }
  let op := (InstructionVariant.BcsRelative 8)
  let mc := (← InstructionVariant.generate b cpu op)
  let pc := (← addU16 b cpu.pc 8)
  check (decide ((⟨0, 3, [.Write16bitRegister .Pc pc]⟩ : Operations) = mc))) := by
  decide +kernel

/-- `should_generate_bcs_machine_code_with_branch_and_page_penalty`,
    `src/cpu/mos6502/operations/tests/code_generation.rs:642-662`. -/
example : passes (fun b => do
  let cpu := (withPcRegister (← defaultCpu b) 0x6000)
  let cpu := { cpu with ps := { cpu.ps with carry := true } }
  let op := (InstructionVariant.BcsRelative (-8))
  let mc := (← InstructionVariant.generate b cpu op)
  let pc := (← subU16 b cpu.pc 8)
  check (decide ((⟨0, 4, [.Write16bitRegister .Pc pc]⟩ : Operations) = mc))) := by
  decide +kernel

/-- `should_generate_bcs_machine_code_with_no_jump`,
    `src/cpu/mos6502/operations/tests/code_generation.rs:664-683`. -/
example : passes (fun b => do
  let cpu := (withPcRegister (← defaultCpu b) 0x6000)
  let cpu := { cpu with ps := { cpu.ps with carry := false } }
  let op := (InstructionVariant.BcsRelative (-8))
  let mc := (← InstructionVariant.generate b cpu op)
  let pc := (← addU16 b cpu.pc 2)
  check (decide ((⟨0, 2, [.Write16bitRegister .Pc pc]⟩ : Operations) = mc))) := by
  decide +kernel

/-- `should_generate_beq_machine_code_with_branch_penalty`,
    `src/cpu/mos6502/operations/tests/code_generation.rs:687-707`. -/
example : passes (fun b => do
  let cpu := (withPcRegister (← defaultCpu b) 0x6000)
  let cpu := { cpu with ps := { cpu.ps with zero := true } }
  let op := (InstructionVariant.BeqRelative 8)
  let mc := (← InstructionVariant.generate b cpu op)
  let pc := (← addU16 b cpu.pc 8)
  check (decide ((⟨0, 3, [.Write16bitRegister .Pc pc]⟩ : Operations) = mc))) := by
  decide +kernel

/-- `should_generate_beq_machine_code_with_branch_and_page_penalty`,
    `src/cpu/mos6502/operations/tests/code_generation.rs:709-729`. -/
example : passes (fun b => do
  let cpu := (withPcRegister (← defaultCpu b) 0x6000)
  let cpu := { cpu with ps := { cpu.ps with zero := true } }
  let op := (InstructionVariant.BeqRelative (-8))
  let mc := (← InstructionVariant.generate b cpu op)
  let pc := (← subU16 b cpu.pc 8)
  check (decide ((⟨0, 4, [.Write16bitRegister .Pc pc]⟩ : Operations) = mc))) := by
  decide +kernel

/-- `should_generate_beq_machine_code_with_no_jump`,
    `src/cpu/mos6502/operations/tests/code_generation.rs:731-750`. -/
example : passes (fun b => do
  let cpu := (withPcRegister (← defaultCpu b) 0x6000)
  let cpu := { cpu with ps := { cpu.ps with zero := false } }
  let op := (InstructionVariant.BeqRelative (-8))
  let mc := (← InstructionVariant.generate b cpu op)
  let pc := (← addU16 b cpu.pc 2)
  check (decide ((⟨0, 2, [.Write16bitRegister .Pc pc]⟩ : Operations) = mc))) := by
  decide +kernel

/-- `should_generate_bmi_machine_code_with_branch_penalty`,
    `src/cpu/mos6502/operations/tests/code_generation.rs:754-774`. -/
example : passes (fun b => do
  let cpu := (withPcRegister (← defaultCpu b) 0x6000)
  let cpu := { cpu with ps := { cpu.ps with negative := true } }
  let op := (InstructionVariant.BmiRelative 8)
  let mc := (← InstructionVariant.generate b cpu op)
  let pc := (← addU16 b cpu.pc 8)
  check (decide ((⟨0, 3, [.Write16bitRegister .Pc pc]⟩ : Operations) = mc))) := by
  decide +kernel

/-- `should_generate_bmi_machine_code_with_branch_and_page_penalty`,
    `src/cpu/mos6502/operations/tests/code_generation.rs:776-796`. -/
example : passes (fun b => do
  let cpu := (withPcRegister (← defaultCpu b) 0x6000)
  let cpu := { cpu with ps := { cpu.ps with negative := true } }
  let op := (InstructionVariant.BmiRelative (-8))
  let mc := (← InstructionVariant.generate b cpu op)
  let pc := (← subU16 b cpu.pc 8)
  check (decide ((⟨0, 4, [.Write16bitRegister .Pc pc]⟩ : Operations) = mc))) := by
  decide +kernel

/-- `should_generate_bmi_machine_code_with_no_jump`,
    `src/cpu/mos6502/operations/tests/code_generation.rs:798-817`. -/
example : passes (fun b => do
  let cpu := (withPcRegister (← defaultCpu b) 0x6000)
  let cpu := { cpu with ps := { cpu.ps with negative := false } }
  let op := (InstructionVariant.BmiRelative (-8))
  let mc := (← InstructionVariant.generate b cpu op)
  let pc := (← addU16 b cpu.pc 2)
  check (decide ((⟨0, 2, [.Write16bitRegister .Pc pc]⟩ : Operations) = mc))) := by
  decide +kernel

/-- `should_generate_absolute_addressing_mode_bit_machine_code`,
    `src/cpu/mos6502/operations/tests/code_generation.rs:821-842`. -/
example : passes (fun b => do
  let cpu := (withGpRegister (← defaultCpu b) .Acc 0xff)
  let cpu ← store b cpu 0x00ff 0x55
  let op := (InstructionVariant.BitAbsolute 0x00ff)
  let mc := (← InstructionVariant.generate b cpu op)
  check (decide ((⟨3, 4, [.SetProgramStatusFlagState .Negative false, .SetProgramStatusFlagState
      .Overflow true, .SetProgramStatusFlagState .Zero false]⟩ : Operations) = mc))) := by
  decide +kernel

/-- `should_generate_zeropage_addressing_mode_bit_machine_code`,
    `src/cpu/mos6502/operations/tests/code_generation.rs:844-865`. -/
example : passes (fun b => do
  let cpu := (withGpRegister (← defaultCpu b) .Acc 0xff)
  let cpu ← store b cpu 0x00ff 0x55
  let op := (InstructionVariant.BitZeroPage 0xff)
  let mc := (← InstructionVariant.generate b cpu op)
  check (decide ((⟨2, 3, [.SetProgramStatusFlagState .Negative false, .SetProgramStatusFlagState
      .Overflow true, .SetProgramStatusFlagState .Zero false]⟩ : Operations) = mc))) := by
  decide +kernel

/-- `should_generate_bne_machine_code_with_branch_penalty`,
    `src/cpu/mos6502/operations/tests/code_generation.rs:869-889`. -/
example : passes (fun b => do
  let cpu := (withPcRegister (← defaultCpu b) 0x6000)
  let cpu := { cpu with ps := { cpu.ps with zero := false } }
  let op := (InstructionVariant.BneRelative 8)
  let mc := (← InstructionVariant.generate b cpu op)
  let pc := (← addU16 b cpu.pc 8)
  check (decide ((⟨0, 3, [.Write16bitRegister .Pc pc]⟩ : Operations) = mc))) := by
  decide +kernel

/-- `should_generate_bne_machine_code_with_branch_and_page_penalty`,
    `src/cpu/mos6502/operations/tests/code_generation.rs:891-911`. -/
example : passes (fun b => do
  let cpu := (withPcRegister (← defaultCpu b) 0x6000)
  let cpu := { cpu with ps := { cpu.ps with zero := false } }
  let op := (InstructionVariant.BneRelative (-8))
  let mc := (← InstructionVariant.generate b cpu op)
  let pc := (← subU16 b cpu.pc 8)
  check (decide ((⟨0, 4, [.Write16bitRegister .Pc pc]⟩ : Operations) = mc))) := by
  decide +kernel

/-- `should_generate_bne_machine_code_with_no_jump`,
    `src/cpu/mos6502/operations/tests/code_generation.rs:913-932`. -/
example : passes (fun b => do
  let cpu := (withPcRegister (← defaultCpu b) 0x6000)
  let cpu := { cpu with ps := { cpu.ps with zero := true } }
  let op := (InstructionVariant.BneRelative (-8))
  let mc := (← InstructionVariant.generate b cpu op)
  let pc := (← addU16 b cpu.pc 2)
  check (decide ((⟨0, 2, [.Write16bitRegister .Pc pc]⟩ : Operations) = mc))) := by
  decide +kernel

/-- `should_generate_bpl_machine_code_with_branch_penalty`,
    `src/cpu/mos6502/operations/tests/code_generation.rs:936-956`. -/
example : passes (fun b => do
  let cpu := (withPcRegister (← defaultCpu b) 0x6000)
  let cpu := { cpu with ps := { cpu.ps with negative := false } }
  let op := (InstructionVariant.BplRelative 8)
  let mc := (← InstructionVariant.generate b cpu op)
  let pc := (← addU16 b cpu.pc 8)
  check (decide ((⟨0, 3, [.Write16bitRegister .Pc pc]⟩ : Operations) = mc))) := by
  decide +kernel

/-- `should_generate_bpl_machine_code_with_branch_and_page_penalty`,
    `src/cpu/mos6502/operations/tests/code_generation.rs:958-978`. -/
example : passes (fun b => do
  let cpu := (withPcRegister (← defaultCpu b) 0x6000)
  let cpu := { cpu with ps := { cpu.ps with negative := false } }
  let op := (InstructionVariant.BplRelative (-8))
  let mc := (← InstructionVariant.generate b cpu op)
  let pc := (← subU16 b cpu.pc 8)
  check (decide ((⟨0, 4, [.Write16bitRegister .Pc pc]⟩ : Operations) = mc))) := by
  decide +kernel

/-- `should_generate_bpl_machine_code_with_no_jump`,
    `src/cpu/mos6502/operations/tests/code_generation.rs:980-999`. -/
example : passes (fun b => do
  let cpu := (withPcRegister (← defaultCpu b) 0x6000)
  let cpu := { cpu with ps := { cpu.ps with negative := true } }
  let op := (InstructionVariant.BplRelative (-8))
  let mc := (← InstructionVariant.generate b cpu op)
  let pc := (← addU16 b cpu.pc 2)
  check (decide ((⟨0, 2, [.Write16bitRegister .Pc pc]⟩ : Operations) = mc))) := by
  decide +kernel

/-- `should_generate_implied_addressing_mode_brk_machine_code`,
    `src/cpu/mos6502/operations/tests/code_generation.rs:1003-1044`. -/
example : passes (fun b => do
  let cpu := (← unwrapResult (registerAddressSpace (withPcRegister (withPsRegister (StepState.unwrap
      (← reset b (← defaultCpu b))) ({ (ProcessorStatus.default : ProcessorStatus) with brk := false
      })) 0x1234) ⟨0xfffe, 0xffff⟩ (Memory.load (← Memory.new b .readOnly 0xfffe 0xffff) [0x78,
      0x56])))
  let op := InstructionVariant.BrkImplied
  let mc := (← InstructionVariant.generate b cpu op)
  let expected_ps_on_stack := (ProcessorStatus.withValue 0b00100000)
  check (decide ((⟨0, 7, [.SetProgramStatusFlagState .Break true, .SetProgramStatusFlagState
      .Interrupt true, .WriteMemory 0x01ff 0x35, .Dec8bitRegister .Sp 1, .WriteMemory 0x01fe 0x12,
      .Dec8bitRegister .Sp 1, .WriteMemory 0x01fd (ProcessorStatus.read expected_ps_on_stack),
      .Dec8bitRegister .Sp 1, .Write16bitRegister .Pc 0x5678]⟩ : Operations) = mc))) := by
  decide +kernel

/-- `should_generate_bvc_machine_code_with_branch_penalty`,
    `src/cpu/mos6502/operations/tests/code_generation.rs:1048-1068`. -/
example : passes (fun b => do
  let cpu := (withPcRegister (← defaultCpu b) 0x6000)
  let cpu := { cpu with ps := { cpu.ps with overflow := false } }
  let op := (InstructionVariant.BvcRelative 8)
  let mc := (← InstructionVariant.generate b cpu op)
  let pc := (← addU16 b cpu.pc 8)
  check (decide ((⟨0, 3, [.Write16bitRegister .Pc pc]⟩ : Operations) = mc))) := by
  decide +kernel

/-- `should_generate_bvc_machine_code_with_branch_and_page_penalty`,
    `src/cpu/mos6502/operations/tests/code_generation.rs:1070-1090`. -/
example : passes (fun b => do
  let cpu := (withPcRegister (← defaultCpu b) 0x6000)
  let cpu := { cpu with ps := { cpu.ps with overflow := false } }
  let op := (InstructionVariant.BvcRelative (-8))
  let mc := (← InstructionVariant.generate b cpu op)
  let pc := (← subU16 b cpu.pc 8)
  check (decide ((⟨0, 4, [.Write16bitRegister .Pc pc]⟩ : Operations) = mc))) := by
  decide +kernel

/-- `should_generate_bvc_machine_code_with_no_jump`,
    `src/cpu/mos6502/operations/tests/code_generation.rs:1092-1111`. -/
example : passes (fun b => do
  let cpu := (withPcRegister (← defaultCpu b) 0x6000)
  let cpu := { cpu with ps := { cpu.ps with overflow := true } }
  let op := (InstructionVariant.BvcRelative (-8))
  let mc := (← InstructionVariant.generate b cpu op)
  let pc := (← addU16 b cpu.pc 2)
  check (decide ((⟨0, 2, [.Write16bitRegister .Pc pc]⟩ : Operations) = mc))) := by
  decide +kernel

/-- `should_generate_bvs_machine_code_with_branch_penalty`,
    `src/cpu/mos6502/operations/tests/code_generation.rs:1115-1135`. -/
example : passes (fun b => do
  let cpu := (withPcRegister (← defaultCpu b) 0x6000)
  let cpu := { cpu with ps := { cpu.ps with overflow := true } }
  let op := (InstructionVariant.BvsRelative 8)
  let mc := (← InstructionVariant.generate b cpu op)
  let pc := (← addU16 b cpu.pc 8)
  check (decide ((⟨0, 3, [.Write16bitRegister .Pc pc]⟩ : Operations) = mc))) := by
  decide +kernel

/-- `should_generate_bvs_machine_code_with_branch_and_page_penalty`,
    `src/cpu/mos6502/operations/tests/code_generation.rs:1137-1157`. -/
example : passes (fun b => do
  let cpu := (withPcRegister (← defaultCpu b) 0x6000)
  let cpu := { cpu with ps := { cpu.ps with overflow := true } }
  let op := (InstructionVariant.BvsRelative (-8))
  let mc := (← InstructionVariant.generate b cpu op)
  let pc := (← subU16 b cpu.pc 8)
  check (decide ((⟨0, 4, [.Write16bitRegister .Pc pc]⟩ : Operations) = mc))) := by
  decide +kernel

/-- `should_generate_bvs_machine_code_with_no_jump`,
    `src/cpu/mos6502/operations/tests/code_generation.rs:1159-1178`. -/
example : passes (fun b => do
  let cpu := (withPcRegister (← defaultCpu b) 0x6000)
  let cpu := { cpu with ps := { cpu.ps with overflow := false } }
  let op := (InstructionVariant.BvsRelative (-8))
  let mc := (← InstructionVariant.generate b cpu op)
  let pc := (← addU16 b cpu.pc 2)
  check (decide ((⟨0, 2, [.Write16bitRegister .Pc pc]⟩ : Operations) = mc))) := by
  decide +kernel

/-- `should_generate_implied_addressing_mode_clc_machine_code`,
    `src/cpu/mos6502/operations/tests/code_generation.rs:1182-1201`. -/
example : passes (fun b => do
  let ps := ProcessorStatus.default
  let ps := { ps with carry := true }
  let cpu := (withPsRegister (← defaultCpu b) ps)
  let op := InstructionVariant.ClcImplied
  let mc := (← InstructionVariant.generate b cpu op)
  check (decide ((⟨1, 2, [.SetProgramStatusFlagState .Carry false]⟩ : Operations) = mc))) := by
  decide +kernel

/-- `should_generate_implied_addressing_mode_cld_machine_code`,
    `src/cpu/mos6502/operations/tests/code_generation.rs:1205-1224`. -/
example : passes (fun b => do
  let ps := ProcessorStatus.default
  let ps := { ps with carry := true }
  let cpu := (withPsRegister (← defaultCpu b) ps)
  let op := InstructionVariant.CldImplied
  let mc := (← InstructionVariant.generate b cpu op)
  check (decide ((⟨1, 2, [.SetProgramStatusFlagState .Decimal false]⟩ : Operations) = mc))) := by
  decide +kernel

/-- `should_generate_implied_addressing_mode_cli_machine_code`,
    `src/cpu/mos6502/operations/tests/code_generation.rs:1228-1247`. -/
example : passes (fun b => do
  let ps := ProcessorStatus.default
  let ps := { ps with interrupt_disable := true }
  let cpu := (withPsRegister (← defaultCpu b) ps)
  let op := InstructionVariant.CliImplied
  let mc := (← InstructionVariant.generate b cpu op)
  check (decide ((⟨1, 2, [.SetProgramStatusFlagState .Interrupt false]⟩ : Operations) = mc))) := by
  decide +kernel

/-- `should_generate_implied_addressing_mode_clv_machine_code`,
    `src/cpu/mos6502/operations/tests/code_generation.rs:1251-1270`. -/
example : passes (fun b => do
  let ps := ProcessorStatus.default
  let ps := { ps with overflow := true }
  let cpu := (withPsRegister (← defaultCpu b) ps)
  let op := InstructionVariant.ClvImplied
  let mc := (← InstructionVariant.generate b cpu op)
  check (decide ((⟨1, 2, [.SetProgramStatusFlagState .Overflow false]⟩ : Operations) = mc))) := by
  decide +kernel

/-- `should_generate_absolute_addressing_mode_cmp_machine_code`,
    `src/cpu/mos6502/operations/tests/code_generation.rs:1274-1288`. -/
example : passes (fun b => do
  let cpu := (withGpRegister (← defaultCpu b) .Acc 0x00)
  let op := (InstructionVariant.CmpAbsolute 0)
  let mc := (← InstructionVariant.generate b cpu op)
  let expected_mops : List Microcode := [.SetProgramStatusFlagState .Carry true,
      .SetProgramStatusFlagState .Negative false, .SetProgramStatusFlagState .Zero true]
  check (decide ((⟨3, 4, expected_mops⟩ : Operations) = mc))) := by
  decide +kernel

/-- `should_generate_absolute_indexed_with_x_addressing_mode_cmp_machine_code`,
    `src/cpu/mos6502/operations/tests/code_generation.rs:1290-1308`. -/
example : passes (fun b => do
  let cpu := (withGpRegister (withGpRegister (← defaultCpu b) .Acc 0x00) .X 0x00)
  let op := (InstructionVariant.CmpAbsoluteIndexedWithX 0)
  let mc := (← InstructionVariant.generate b cpu op)
  let expected_mops : List Microcode := [.SetProgramStatusFlagState .Carry true,
      .SetProgramStatusFlagState .Negative false, .SetProgramStatusFlagState .Zero true]
  check (decide ((⟨3, 4, expected_mops⟩ : Operations) = mc))) := by
  decide +kernel

/-- `should_generate_absolute_indexed_with_y_addressing_mode_cmp_machine_code`,
    `src/cpu/mos6502/operations/tests/code_generation.rs:1310-1328`. -/
example : passes (fun b => do
  let cpu := (withGpRegister (withGpRegister (← defaultCpu b) .Acc 0x00) .X 0x00)
  let op := (InstructionVariant.CmpAbsoluteIndexedWithY 0)
  let mc := (← InstructionVariant.generate b cpu op)
  let expected_mops : List Microcode := [.SetProgramStatusFlagState .Carry true,
      .SetProgramStatusFlagState .Negative false, .SetProgramStatusFlagState .Zero true]
  check (decide ((⟨3, 4, expected_mops⟩ : Operations) = mc))) := by
  decide +kernel

/-- `should_generate_indirect_y_indexed_addressing_mode_cmp_machine_code`,
    `src/cpu/mos6502/operations/tests/code_generation.rs:1330-1355`. -/
example : passes (fun b => do
  let cpu := (withGpRegister (withGpRegister (← defaultCpu b) .Y 0x05) .Acc 0xea)
  let cpu ← store b cpu 0x00 0xfa
  let cpu ← store b cpu 0x01 0x00
  let cpu ← store b cpu 0xff 0xea
  let op := (InstructionVariant.CmpIndirectYIndexed 0x00)
  let mc := (← InstructionVariant.generate b cpu op)
  check (decide ((⟨2, 5, [.SetProgramStatusFlagState .Carry true, .SetProgramStatusFlagState
      .Negative false, .SetProgramStatusFlagState .Zero true]⟩ : Operations) = mc))) := by
  decide +kernel

/-- `should_generate_immediate_addressing_mode_cmp_machine_code`,
    `src/cpu/mos6502/operations/tests/code_generation.rs:1357-1371`. -/
example : passes (fun b => do
  let cpu := (withGpRegister (← defaultCpu b) .Acc 0x00)
  let op := (InstructionVariant.CmpImmediate 0)
  let mc := (← InstructionVariant.generate b cpu op)
  let expected_mops : List Microcode := [.SetProgramStatusFlagState .Carry true,
      .SetProgramStatusFlagState .Negative false, .SetProgramStatusFlagState .Zero true]
  check (decide ((⟨2, 2, expected_mops⟩ : Operations) = mc))) := by
  decide +kernel

/-- `should_generate_x_indexed_indirect_addressing_mode_cmp_machine_code`,
    `src/cpu/mos6502/operations/tests/code_generation.rs:1373-1398`. -/
example : passes (fun b => do
  let cpu := (withGpRegister (withGpRegister (← defaultCpu b) .X 0x05) .Acc 0xea)
  let cpu ← store b cpu 0x05 0xff
  let cpu ← store b cpu 0x06 0x00
  let cpu ← store b cpu 0xff 0xea
  let op := (InstructionVariant.CmpXIndexedIndirect 0x00)
  let mc := (← InstructionVariant.generate b cpu op)
  check (decide ((⟨2, 6, [.SetProgramStatusFlagState .Carry true, .SetProgramStatusFlagState
      .Negative false, .SetProgramStatusFlagState .Zero true]⟩ : Operations) = mc))) := by
  decide +kernel

/-- `should_generate_zeropage_addressing_mode_cmp_machine_code`,
    `src/cpu/mos6502/operations/tests/code_generation.rs:1400-1414`. -/
example : passes (fun b => do
  let cpu := (withGpRegister (← defaultCpu b) .Acc 0x00)
  let op := (InstructionVariant.CmpZeroPage 0)
  let mc := (← InstructionVariant.generate b cpu op)
  let expected_mops : List Microcode := [.SetProgramStatusFlagState .Carry true,
      .SetProgramStatusFlagState .Negative false, .SetProgramStatusFlagState .Zero true]
  check (decide ((⟨2, 3, expected_mops⟩ : Operations) = mc))) := by
  decide +kernel

/-- `should_generate_zeropage_indexed_with_x_addressing_mode_cmp_machine_code`,
    `src/cpu/mos6502/operations/tests/code_generation.rs:1416-1434`. -/
example : passes (fun b => do
  let cpu := (withGpRegister (withGpRegister (← defaultCpu b) .Acc 0x00) .X 0x05)
  let op := (InstructionVariant.CmpZeroPageIndexedWithX 0)
  let mc := (← InstructionVariant.generate b cpu op)
  let expected_mops : List Microcode := [.SetProgramStatusFlagState .Carry true,
      .SetProgramStatusFlagState .Negative false, .SetProgramStatusFlagState .Zero true]
  check (decide ((⟨2, 4, expected_mops⟩ : Operations) = mc))) := by
  decide +kernel

/-- `should_generate_absolute_addressing_mode_cpx_machine_code`,
    `src/cpu/mos6502/operations/tests/code_generation.rs:1438-1457`. -/
example : passes (fun b => do
  let cpu := (withGpRegister (← defaultCpu b) .X 0x00)
  let op := (InstructionVariant.CpxAbsolute 0)
  let mc := (← InstructionVariant.generate b cpu op)
  check (decide ((⟨3, 4, [.SetProgramStatusFlagState .Carry true, .SetProgramStatusFlagState
      .Negative false, .SetProgramStatusFlagState .Zero true]⟩ : Operations) = mc))) := by
  decide +kernel

/-- `should_generate_immediate_addressing_mode_cpx_machine_code`,
    `src/cpu/mos6502/operations/tests/code_generation.rs:1459-1479`. -/
example : passes (fun b => do
  let cpu := (withGpRegister (← defaultCpu b) .Acc 0x00)
  let op := (InstructionVariant.CpxImmediate 0)
  let mc := (← InstructionVariant.generate b cpu op)
  check (decide ((⟨2, 2, [.SetProgramStatusFlagState .Carry true, .SetProgramStatusFlagState
      .Negative false, .SetProgramStatusFlagState .Zero true]⟩ : Operations) = mc))) := by
  decide +kernel

/-- `should_generate_zeropage_addressing_mode_cpx_machine_code`,
    `src/cpu/mos6502/operations/tests/code_generation.rs:1481-1501`. -/
example : passes (fun b => do
  let cpu := (withGpRegister (← defaultCpu b) .Acc 0x00)
  let op := (InstructionVariant.CpxZeroPage 0)
  let mc := (← InstructionVariant.generate b cpu op)
  check (decide ((⟨2, 3, [.SetProgramStatusFlagState .Carry true, .SetProgramStatusFlagState
      .Negative false, .SetProgramStatusFlagState .Zero true]⟩ : Operations) = mc))) := by
  decide +kernel

/-- `should_generate_absolute_addressing_mode_cpy_machine_code`,
    `src/cpu/mos6502/operations/tests/code_generation.rs:1505-1524`. -/
example : passes (fun b => do
  let cpu := (withGpRegister (← defaultCpu b) .X 0x00)
  let op := (InstructionVariant.CpyAbsolute 0)
  let mc := (← InstructionVariant.generate b cpu op)
  check (decide ((⟨3, 4, [.SetProgramStatusFlagState .Carry true, .SetProgramStatusFlagState
      .Negative false, .SetProgramStatusFlagState .Zero true]⟩ : Operations) = mc))) := by
  decide +kernel

/-- `should_generate_immediate_addressing_mode_cpy_machine_code`,
    `src/cpu/mos6502/operations/tests/code_generation.rs:1526-1546`. -/
example : passes (fun b => do
  let cpu := (withGpRegister (← defaultCpu b) .Acc 0x00)
  let op := (InstructionVariant.CpyImmediate 0)
  let mc := (← InstructionVariant.generate b cpu op)
  check (decide ((⟨2, 2, [.SetProgramStatusFlagState .Carry true, .SetProgramStatusFlagState
      .Negative false, .SetProgramStatusFlagState .Zero true]⟩ : Operations) = mc))) := by
  decide +kernel

/-- `should_generate_zeropage_addressing_mode_cpy_machine_code`,
    `src/cpu/mos6502/operations/tests/code_generation.rs:1548-1568`. -/
example : passes (fun b => do
  let cpu := (withGpRegister (← defaultCpu b) .Acc 0x00)
  let op := (InstructionVariant.CpyZeroPage 0)
  let mc := (← InstructionVariant.generate b cpu op)
  check (decide ((⟨2, 3, [.SetProgramStatusFlagState .Carry true, .SetProgramStatusFlagState
      .Negative false, .SetProgramStatusFlagState .Zero true]⟩ : Operations) = mc))) := by
  decide +kernel

/-- `should_generate_absolute_addressing_mode_dec_machine_code`,
    `src/cpu/mos6502/operations/tests/code_generation.rs:1572-1592`. -/
example : passes (fun b => do
  let cpu := (← defaultCpu b)
  let cpu ← store b cpu 0x01ff 0x05
  let op := (InstructionVariant.DecAbsolute 0x01ff)
  let mc := (← InstructionVariant.generate b cpu op)
  check (decide ((⟨3, 6, [.SetProgramStatusFlagState .Negative false, .SetProgramStatusFlagState
      .Zero false, .WriteMemory 0x01ff 0x04]⟩ : Operations) = mc))) := by
  decide +kernel

/-- `should_generate_absolute_indexed_by_x_addressing_mode_dec_machine_code`,
    `src/cpu/mos6502/operations/tests/code_generation.rs:1594-1615`. -/
example : passes (fun b => do
  let cpu := (withGpRegister (← defaultCpu b) .X 0x05)
  let cpu ← store b cpu 0x01ff 0x05
  let op := (InstructionVariant.DecAbsoluteIndexedWithX 0x01fa)
  let mc := (← InstructionVariant.generate b cpu op)
  check (decide ((⟨3, 7, [.SetProgramStatusFlagState .Negative false, .SetProgramStatusFlagState
      .Zero false, .WriteMemory 0x01ff 0x04]⟩ : Operations) = mc))) := by
  decide +kernel

/-- `should_generate_zeropage_addressing_mode_dec_machine_code`,
    `src/cpu/mos6502/operations/tests/code_generation.rs:1617-1637`. -/
example : passes (fun b => do
  let cpu := (← defaultCpu b)
  let cpu ← store b cpu 0xff 0x05
  let op := (InstructionVariant.DecZeroPage 0xff)
  let mc := (← InstructionVariant.generate b cpu op)
  check (decide ((⟨2, 5, [.SetProgramStatusFlagState .Negative false, .SetProgramStatusFlagState
      .Zero false, .WriteMemory 0xff 0x04]⟩ : Operations) = mc))) := by
  decide +kernel

/-- `should_generate_zeropage_indexed_by_x_addressing_mode_dec_machine_code`,
    `src/cpu/mos6502/operations/tests/code_generation.rs:1639-1660`. -/
example : passes (fun b => do
  let cpu := (withGpRegister (← defaultCpu b) .X 0x05)
  let cpu ← store b cpu 0xff 0x05
  let op := (InstructionVariant.DecZeroPageIndexedWithX 0xfa)
  let mc := (← InstructionVariant.generate b cpu op)
  check (decide ((⟨2, 6, [.SetProgramStatusFlagState .Negative false, .SetProgramStatusFlagState
      .Zero false, .WriteMemory 0xff 0x04]⟩ : Operations) = mc))) := by
  decide +kernel

/-- `should_generate_implied_addressing_mode_dex_machine_code`,
    `src/cpu/mos6502/operations/tests/code_generation.rs:1664-1682`. -/
example : passes (fun b => do
  let cpu := (← defaultCpu b)
  let op := InstructionVariant.DexImplied
  let mc := (← InstructionVariant.generate b cpu op)
  check (decide ((⟨1, 2, [.SetProgramStatusFlagState .Negative true, .SetProgramStatusFlagState
      .Zero false, .Dec8bitRegister .X 1]⟩ : Operations) = mc))) := by
  decide +kernel

/-- `should_generate_implied_addressing_mode_dey_machine_code`,
    `src/cpu/mos6502/operations/tests/code_generation.rs:1686-1704`. -/
example : passes (fun b => do
  let cpu := (← defaultCpu b)
  let op := InstructionVariant.DeyImplied
  let mc := (← InstructionVariant.generate b cpu op)
  check (decide ((⟨1, 2, [.SetProgramStatusFlagState .Negative true, .SetProgramStatusFlagState
      .Zero false, .Dec8bitRegister .Y 1]⟩ : Operations) = mc))) := by
  decide +kernel

/-- `should_generate_absolute_addressing_mode_eor_machine_code`,
    `src/cpu/mos6502/operations/tests/code_generation.rs:1708-1729`. -/
example : passes (fun b => do
  let cpu := (withGpRegister (← defaultCpu b) .Acc 0xff)
  let cpu ← store b cpu 0x00ff 0x55
  let op := (InstructionVariant.EorAbsolute 0x00ff)
  let mc := (← InstructionVariant.generate b cpu op)
  check (decide ((⟨3, 4, [.SetProgramStatusFlagState .Negative true, .SetProgramStatusFlagState
      .Zero false, .Write8bitRegister .Acc 0xaa]⟩ : Operations) = mc))) := by
  decide +kernel

/-- `should_generate_absolute_indexed_with_x_addressing_mode_eor_machine_code`,
    `src/cpu/mos6502/operations/tests/code_generation.rs:1731-1753`. -/
example : passes (fun b => do
  let cpu := (withGpRegister (withGpRegister (← defaultCpu b) .Acc 0x55) .X 0x05)
  let cpu ← store b cpu 0x00ff 0xff
  let op := (InstructionVariant.EorAbsoluteIndexedWithX 0x00fa)
  let mc := (← InstructionVariant.generate b cpu op)
  check (decide ((⟨3, 4, [.SetProgramStatusFlagState .Negative true, .SetProgramStatusFlagState
      .Zero false, .Write8bitRegister .Acc 0xaa]⟩ : Operations) = mc))) := by
  decide +kernel

/-- `should_generate_absolute_indexed_with_y_addressing_mode_eor_machine_code`,
    `src/cpu/mos6502/operations/tests/code_generation.rs:1755-1777`. -/
example : passes (fun b => do
  let cpu := (withGpRegister (withGpRegister (← defaultCpu b) .Acc 0x55) .Y 0x05)
  let cpu ← store b cpu 0x00ff 0xff
  let op := (InstructionVariant.EorAbsoluteIndexedWithY 0x00fa)
  let mc := (← InstructionVariant.generate b cpu op)
  check (decide ((⟨3, 4, [.SetProgramStatusFlagState .Negative true, .SetProgramStatusFlagState
      .Zero false, .Write8bitRegister .Acc 0xaa]⟩ : Operations) = mc))) := by
  decide +kernel

/-- `should_generate_indirect_y_indexed_addressing_mode_eor_machine_code`,
    `src/cpu/mos6502/operations/tests/code_generation.rs:1779-1804`. -/
example : passes (fun b => do
  let cpu := (withGpRegister (withGpRegister (← defaultCpu b) .Acc 0xff) .Y 0x05)
  let cpu ← store b cpu 0x00 0xfa
  let cpu ← store b cpu 0x01 0x00
  let cpu ← store b cpu 0xff 0x55
  let op := (InstructionVariant.EorIndirectYIndexed 0x00)
  let mc := (← InstructionVariant.generate b cpu op)
  check (decide ((⟨2, 5, [.SetProgramStatusFlagState .Negative true, .SetProgramStatusFlagState
      .Zero false, .Write8bitRegister .Acc 0xaa]⟩ : Operations) = mc))) := by
  decide +kernel

/-- `should_generate_immediate_addressing_mode_eor_machine_code`,
    `src/cpu/mos6502/operations/tests/code_generation.rs:1806-1826`. -/
example : passes (fun b => do
  let cpu := (withGpRegister (← defaultCpu b) .Acc 0xff)
  let op := (InstructionVariant.EorImmediate 0x55)
  let mc := (← InstructionVariant.generate b cpu op)
  check (decide ((⟨2, 2, [.SetProgramStatusFlagState .Negative true, .SetProgramStatusFlagState
      .Zero false, .Write8bitRegister .Acc 0xaa]⟩ : Operations) = mc))) := by
  decide +kernel

/-- `should_generate_x_indexed_indirect_addressing_mode_eor_machine_code`,
    `src/cpu/mos6502/operations/tests/code_generation.rs:1828-1853`. -/
example : passes (fun b => do
  let cpu := (withGpRegister (withGpRegister (← defaultCpu b) .Acc 0xff) .X 0x05)
  let cpu ← store b cpu 0x05 0xff
  let cpu ← store b cpu 0x06 0x00
  let cpu ← store b cpu 0xff 0x55
  let op := (InstructionVariant.EorXIndexedIndirect 0x00)
  let mc := (← InstructionVariant.generate b cpu op)
  check (decide ((⟨2, 6, [.SetProgramStatusFlagState .Negative true, .SetProgramStatusFlagState
      .Zero false, .Write8bitRegister .Acc 0xaa]⟩ : Operations) = mc))) := by
  decide +kernel

/-- `should_generate_zeropage_addressing_mode_eor_machine_code`,
    `src/cpu/mos6502/operations/tests/code_generation.rs:1855-1876`. -/
example : passes (fun b => do
  let cpu := (withGpRegister (← defaultCpu b) .Acc 0xff)
  let cpu ← store b cpu 0x00ff 0x55
  let op := (InstructionVariant.EorZeroPage 0xff)
  let mc := (← InstructionVariant.generate b cpu op)
  check (decide ((⟨2, 3, [.SetProgramStatusFlagState .Negative true, .SetProgramStatusFlagState
      .Zero false, .Write8bitRegister .Acc 0xaa]⟩ : Operations) = mc))) := by
  decide +kernel

/-- `should_generate_zeropage_indexed_with_x_addressing_mode_eor_machine_code`,
    `src/cpu/mos6502/operations/tests/code_generation.rs:1878-1900`. -/
example : passes (fun b => do
  let cpu := (withGpRegister (withGpRegister (← defaultCpu b) .Acc 0xff) .X 0x05)
  let cpu ← store b cpu 0x00ff 0x55
  let op := (InstructionVariant.EorZeroPageIndexedWithX 0xfa)
  let mc := (← InstructionVariant.generate b cpu op)
  check (decide ((⟨2, 4, [.SetProgramStatusFlagState .Negative true, .SetProgramStatusFlagState
      .Zero false, .Write8bitRegister .Acc 0xaa]⟩ : Operations) = mc))) := by
  decide +kernel

/-- `should_generate_absolute_addressing_mode_inc_machine_code`,
    `src/cpu/mos6502/operations/tests/code_generation.rs:1904-1924`. -/
example : passes (fun b => do
  let cpu := (← defaultCpu b)
  let cpu ← store b cpu 0x01ff 0x05
  let op := (InstructionVariant.IncAbsolute 0x01ff)
  let mc := (← InstructionVariant.generate b cpu op)
  check (decide ((⟨3, 6, [.SetProgramStatusFlagState .Negative false, .SetProgramStatusFlagState
      .Zero false, .WriteMemory 0x01ff 0x06]⟩ : Operations) = mc))) := by
  decide +kernel

/-- `should_generate_absolute_indexed_by_x_addressing_mode_inc_machine_code`,
    `src/cpu/mos6502/operations/tests/code_generation.rs:1926-1947`. -/
example : passes (fun b => do
  let cpu := (withGpRegister (← defaultCpu b) .X 0x05)
  let cpu ← store b cpu 0x01ff 0x05
  let op := (InstructionVariant.IncAbsoluteIndexedWithX 0x01fa)
  let mc := (← InstructionVariant.generate b cpu op)
  check (decide ((⟨3, 7, [.SetProgramStatusFlagState .Negative false, .SetProgramStatusFlagState
      .Zero false, .WriteMemory 0x01ff 0x06]⟩ : Operations) = mc))) := by
  decide +kernel

/-- `should_generate_zeropage_addressing_mode_inc_machine_code`,
    `src/cpu/mos6502/operations/tests/code_generation.rs:1949-1969`. -/
example : passes (fun b => do
  let cpu := (← defaultCpu b)
  let cpu ← store b cpu 0xff 0x05
  let op := (InstructionVariant.IncZeroPage 0xff)
  let mc := (← InstructionVariant.generate b cpu op)
  check (decide ((⟨2, 5, [.SetProgramStatusFlagState .Negative false, .SetProgramStatusFlagState
      .Zero false, .WriteMemory 0xff 0x06]⟩ : Operations) = mc))) := by
  decide +kernel

/-- `should_generate_zeropage_indexed_by_x_addressing_mode_inc_machine_code`,
    `src/cpu/mos6502/operations/tests/code_generation.rs:1971-1992`. -/
example : passes (fun b => do
  let cpu := (withGpRegister (← defaultCpu b) .X 0x05)
  let cpu ← store b cpu 0xff 0x05
  let op := (InstructionVariant.IncZeroPageIndexedWithX 0xfa)
  let mc := (← InstructionVariant.generate b cpu op)
  check (decide ((⟨2, 6, [.SetProgramStatusFlagState .Negative false, .SetProgramStatusFlagState
      .Zero false, .WriteMemory 0xff 0x06]⟩ : Operations) = mc))) := by
  decide +kernel

/-- `should_generate_implied_addressing_mode_inx_machine_code`,
    `src/cpu/mos6502/operations/tests/code_generation.rs:1996-2014`. -/
example : passes (fun b => do
  let cpu := (withGpRegister (← defaultCpu b) .X 0x12)
  let op := InstructionVariant.InxImplied
  let mc := (← InstructionVariant.generate b cpu op)
  check (decide ((⟨1, 2, [.SetProgramStatusFlagState .Negative false, .SetProgramStatusFlagState
      .Zero false, .Write8bitRegister .X 0x13]⟩ : Operations) = mc))) := by
  decide +kernel

/-- `should_generate_implied_addressing_mode_iny_machine_code`,
    `src/cpu/mos6502/operations/tests/code_generation.rs:2018-2036`. -/
example : passes (fun b => do
  let cpu := (withGpRegister (← defaultCpu b) .Y 0x12)
  let op := InstructionVariant.InyImplied
  let mc := (← InstructionVariant.generate b cpu op)
  check (decide ((⟨1, 2, [.SetProgramStatusFlagState .Negative false, .SetProgramStatusFlagState
      .Zero false, .Write8bitRegister .Y 0x13]⟩ : Operations) = mc))) := by
  decide +kernel

/-- `should_generate_absolute_addressing_mode_jmp_machine_code`,
    `src/cpu/mos6502/operations/tests/code_generation.rs:2040-2056`. -/
example : passes (fun b => do
  let cpu := (← defaultCpu b)
  let addr : Word := 0x0100
  let op := (InstructionVariant.JmpAbsolute addr)
  let mc := (← InstructionVariant.generate b cpu op)
  check (decide ((⟨0, 3, [.Write16bitRegister .Pc addr]⟩ : Operations) = mc))) := by
  decide +kernel

/-- `should_generate_indirect_addressing_mode_jmp_machine_code`,
    `src/cpu/mos6502/operations/tests/code_generation.rs:2058-2080`. -/
example : passes (fun b => do
  let cpu := (← defaultCpu b)
  let base_addr : Word := 0x0100
  let indirect_addr : Word := 0x0150
  let cpu ← store b cpu base_addr 0x50
  let cpu ← store b cpu (← addU16 b base_addr 1) 0x01
  let op := (InstructionVariant.JmpIndirect base_addr)
  let mc := (← InstructionVariant.generate b cpu op)
  check (decide ((⟨0, 5, [.Write16bitRegister .Pc indirect_addr]⟩ : Operations) = mc))) := by
  decide +kernel

/-- `should_generate_absolute_addressing_mode_jsr_machine_code`,
    `src/cpu/mos6502/operations/tests/code_generation.rs:2084-2110`. -/
example : passes (fun b => do
  let cpu := (← defaultCpu b)
  let addr : Word := 0x0100
  let op := (InstructionVariant.JsrAbsolute addr)
  let mc := (← InstructionVariant.generate b cpu op)
  let sph : Word := (← addU16 b 0x0100 (u16OfU8 cpu.sp))
  let spl : Word := (← addU16 b 0x0100 (u16OfU8 (← subU8 b cpu.sp 1)))
  let (pcl, pch) := u16ToLeBytes (cpu.pc + 2)
  check (decide ((⟨0, 6, [.WriteMemory sph pch, .Dec8bitRegister .Sp 1, .WriteMemory spl pcl,
      .Dec8bitRegister .Sp 1, .Write16bitRegister .Pc addr]⟩ : Operations) = mc))) := by
  decide +kernel

/-- `should_generate_immediate_addressing_mode_lda_machine_code`,
    `src/cpu/mos6502/operations/tests/code_generation.rs:2114-2133`. -/
example : passes (fun b => do
  let cpu := (← defaultCpu b)
  let op := (InstructionVariant.LdaImmediate 0xff)
  let mc := (← InstructionVariant.generate b cpu op)
  check (decide ((⟨2, 2, [.SetProgramStatusFlagState .Negative true, .SetProgramStatusFlagState
      .Zero false, .Write8bitRegister .Acc 0xff]⟩ : Operations) = mc))) := by
  decide +kernel

/-- `should_generate_zeropage_addressing_mode_lda_machine_code`,
    `src/cpu/mos6502/operations/tests/code_generation.rs:2135-2172`. -/
example : passes (fun b => do
  let cpu := (← defaultCpu b)
  let op := (InstructionVariant.LdaZeroPage 0xff)
  let mc := (← InstructionVariant.generate b cpu op)
  check (decide ((⟨2, 3, [.SetProgramStatusFlagState .Negative false, .SetProgramStatusFlagState
      .Zero true, .Write8bitRegister .Acc 0x00]⟩ : Operations) = mc))
  check (decide ([[], [], [.SetProgramStatusFlagState .Negative false, .SetProgramStatusFlagState
      .Zero true, .Write8bitRegister .Acc 0x00, .Inc16bitRegister .Pc 2]] = (← Operations.intoSteps
      b mc)))) := by
  decide +kernel

/-- `should_generate_zeropage_indexed_with_x_addressing_mode_lda_machine_code`,
    `src/cpu/mos6502/operations/tests/code_generation.rs:2174-2214`. -/
example : passes (fun b => do
  let cpu := (withGpRegister (← defaultCpu b) .X 0x05)
  let cpu ← store b cpu 0x05 0xff
  let op := (InstructionVariant.LdaZeroPageIndexedWithX 0x00)
  let mc := (← InstructionVariant.generate b cpu op)
  check (decide ((⟨2, 4, [.SetProgramStatusFlagState .Negative true, .SetProgramStatusFlagState
      .Zero false, .Write8bitRegister .Acc 0xff]⟩ : Operations) = mc))
  check (decide ([[], [], [], [.SetProgramStatusFlagState .Negative true, .SetProgramStatusFlagState
      .Zero false, .Write8bitRegister .Acc 0xff, .Inc16bitRegister .Pc 2]] = (← Operations.intoSteps
      b mc)))) := by
  decide +kernel

/-- `should_generate_absolute_addressing_mode_lda_machine_code`,
    `src/cpu/mos6502/operations/tests/code_generation.rs:2216-2250`. -/
example : passes (fun b => do
  let cpu := (← defaultCpu b)
  let op := (InstructionVariant.LdaAbsolute 0x0100)
  let mc := (← InstructionVariant.generate b cpu op)
  check (decide ((⟨3, 4, [.SetProgramStatusFlagState .Negative false, .SetProgramStatusFlagState
      .Zero true, .Write8bitRegister .Acc 0x00]⟩ : Operations) = mc))
  check (decide ([[], [], [], [.SetProgramStatusFlagState .Negative false,
      .SetProgramStatusFlagState .Zero true, .Write8bitRegister .Acc 0x00, .Inc16bitRegister .Pc 3]]
      = (← Operations.intoSteps b mc)))) := by
  decide +kernel

/-- `should_generate_absolute_indexed_with_x_addressing_mode_lda_machine_code`,
    `src/cpu/mos6502/operations/tests/code_generation.rs:2252-2286`. -/
example : passes (fun b => do
  let cpu := (withGpRegister (← defaultCpu b) .X 0x05)
  let op := (InstructionVariant.LdaAbsoluteIndexedWithX 0x0100)
  let mc := (← InstructionVariant.generate b cpu op)
  check (decide ((⟨3, 4, [.SetProgramStatusFlagState .Negative false, .SetProgramStatusFlagState
      .Zero true, .Write8bitRegister .Acc 0x00]⟩ : Operations) = mc))
  check (decide ([[], [], [], [.SetProgramStatusFlagState .Negative false,
      .SetProgramStatusFlagState .Zero true, .Write8bitRegister .Acc 0x00, .Inc16bitRegister .Pc 3]]
      = (← Operations.intoSteps b mc)))) := by
  decide +kernel

/-- `should_generate_absolute_indexed_with_y_addressing_mode_lda_machine_code`,
    `src/cpu/mos6502/operations/tests/code_generation.rs:2288-2322`. -/
example : passes (fun b => do
  let cpu := (withGpRegister (← defaultCpu b) .Y 0x05)
  let op := (InstructionVariant.LdaAbsoluteIndexedWithY 0x0100)
  let mc := (← InstructionVariant.generate b cpu op)
  check (decide ((⟨3, 4, [.SetProgramStatusFlagState .Negative false, .SetProgramStatusFlagState
      .Zero true, .Write8bitRegister .Acc 0x00]⟩ : Operations) = mc))
  check (decide ([[], [], [], [.SetProgramStatusFlagState .Negative false,
      .SetProgramStatusFlagState .Zero true, .Write8bitRegister .Acc 0x00, .Inc16bitRegister .Pc 3]]
      = (← Operations.intoSteps b mc)))) := by
  decide +kernel

/-- `should_generate_indirect_y_indexed_addressing_mode_lda_machine_code`,
    `src/cpu/mos6502/operations/tests/code_generation.rs:2324-2348`. -/
example : passes (fun b => do
  let cpu := (withGpRegister (← defaultCpu b) .Y 0x05)
  let cpu ← store b cpu 0x00 0xfa
  let cpu ← store b cpu 0x01 0x00
  let cpu ← store b cpu 0xff 0xea
  let op := (InstructionVariant.LdaIndirectYIndexed 0x00)
  let mc := (← InstructionVariant.generate b cpu op)
  check (decide ((⟨2, 5, [.SetProgramStatusFlagState .Negative true, .SetProgramStatusFlagState
      .Zero false, .Write8bitRegister .Acc 0xea]⟩ : Operations) = mc))) := by
  decide +kernel

/-- `should_generate_x_indexed_indirect_addressing_mode_lda_machine_code`,
    `src/cpu/mos6502/operations/tests/code_generation.rs:2350-2374`. -/
example : passes (fun b => do
  let cpu := (withGpRegister (← defaultCpu b) .X 0x05)
  let cpu ← store b cpu 0x05 0xff
  let cpu ← store b cpu 0x06 0x00
  let cpu ← store b cpu 0xff 0xea
  let op := (InstructionVariant.LdaXIndexedIndirect 0x00)
  let mc := (← InstructionVariant.generate b cpu op)
  check (decide ((⟨2, 6, [.SetProgramStatusFlagState .Negative true, .SetProgramStatusFlagState
      .Zero false, .Write8bitRegister .Acc 0xea]⟩ : Operations) = mc))) := by
  decide +kernel

/-- `should_generate_absolute_addressing_mode_ldx_machine_code`,
    `src/cpu/mos6502/operations/tests/code_generation.rs:2378-2397`. -/
example : passes (fun b => do
  let cpu := (← defaultCpu b)
  let op := (InstructionVariant.LdxAbsolute 0x0100)
  let mc := (← InstructionVariant.generate b cpu op)
  check (decide ((⟨3, 4, [.SetProgramStatusFlagState .Negative false, .SetProgramStatusFlagState
      .Zero true, .Write8bitRegister .X 0x00]⟩ : Operations) = mc))) := by
  decide +kernel

/-- `should_generate_absolute_indexed_with_y_addressing_mode_ldx_machine_code`,
    `src/cpu/mos6502/operations/tests/code_generation.rs:2399-2418`. -/
example : passes (fun b => do
  let cpu := (withGpRegister (← defaultCpu b) .Y 0x05)
  let op := (InstructionVariant.LdxAbsoluteIndexedWithY 0x0100)
  let mc := (← InstructionVariant.generate b cpu op)
  check (decide ((⟨3, 4, [.SetProgramStatusFlagState .Negative false, .SetProgramStatusFlagState
      .Zero true, .Write8bitRegister .X 0x00]⟩ : Operations) = mc))) := by
  decide +kernel

/-- `should_generate_immediate_addressing_mode_ldx_machine_code`,
    `src/cpu/mos6502/operations/tests/code_generation.rs:2420-2439`. -/
example : passes (fun b => do
  let cpu := (← defaultCpu b)
  let op := (InstructionVariant.LdxImmediate 0xff)
  let mc := (← InstructionVariant.generate b cpu op)
  check (decide ((⟨2, 2, [.SetProgramStatusFlagState .Negative true, .SetProgramStatusFlagState
      .Zero false, .Write8bitRegister .X 0xff]⟩ : Operations) = mc))) := by
  decide +kernel

/-- `should_generate_zeropage_addressing_mode_ldx_machine_code`,
    `src/cpu/mos6502/operations/tests/code_generation.rs:2441-2463`. -/
example : passes (fun b => do
  let cpu := (← defaultCpu b)
  let op := (InstructionVariant.LdxZeroPage 0xff)
  let mc := (← InstructionVariant.generate b cpu op)
  check (decide ((⟨2, 3, [.SetProgramStatusFlagState .Negative false, .SetProgramStatusFlagState
      .Zero true, .Write8bitRegister .X 0x00]⟩ : Operations) = mc))) := by
  decide +kernel

/-- `should_generate_zeropage_indexed_with_y_addressing_mode_ldx_machine_code`,
    `src/cpu/mos6502/operations/tests/code_generation.rs:2465-2489`. -/
example : passes (fun b => do
  let cpu := (withGpRegister (← defaultCpu b) .Y 0x05)
  let cpu ← store b cpu 0x05 0xff
  let op := (InstructionVariant.LdxZeroPageIndexedWithY 0x00)
  let mc := (← InstructionVariant.generate b cpu op)
  check (decide ((⟨2, 4, [.SetProgramStatusFlagState .Negative true, .SetProgramStatusFlagState
      .Zero false, .Write8bitRegister .X 0xff]⟩ : Operations) = mc))) := by
  decide +kernel

/-- `should_generate_absolute_addressing_mode_ldy_machine_code`,
    `src/cpu/mos6502/operations/tests/code_generation.rs:2493-2512`. -/
example : passes (fun b => do
  let cpu := (← defaultCpu b)
  let op := (InstructionVariant.LdyAbsolute 0x0100)
  let mc := (← InstructionVariant.generate b cpu op)
  check (decide ((⟨3, 4, [.SetProgramStatusFlagState .Negative false, .SetProgramStatusFlagState
      .Zero true, .Write8bitRegister .Y 0x00]⟩ : Operations) = mc))) := by
  decide +kernel

/-- `should_generate_absolute_indexed_with_x_addressing_mode_ldy_machine_code`,
    `src/cpu/mos6502/operations/tests/code_generation.rs:2514-2533`. -/
example : passes (fun b => do
  let cpu := (withGpRegister (← defaultCpu b) .X 0x05)
  let op := (InstructionVariant.LdyAbsoluteIndexedWithX 0x0100)
  let mc := (← InstructionVariant.generate b cpu op)
  check (decide ((⟨3, 4, [.SetProgramStatusFlagState .Negative false, .SetProgramStatusFlagState
      .Zero true, .Write8bitRegister .Y 0x00]⟩ : Operations) = mc))) := by
  decide +kernel

/-- `should_generate_immediate_addressing_mode_ldy_machine_code`,
    `src/cpu/mos6502/operations/tests/code_generation.rs:2535-2554`. -/
example : passes (fun b => do
  let cpu := (← defaultCpu b)
  let op := (InstructionVariant.LdyImmediate 0xff)
  let mc := (← InstructionVariant.generate b cpu op)
  check (decide ((⟨2, 2, [.SetProgramStatusFlagState .Negative true, .SetProgramStatusFlagState
      .Zero false, .Write8bitRegister .Y 0xff]⟩ : Operations) = mc))) := by
  decide +kernel

/-- `should_generate_zeropage_addressing_mode_ldy_machine_code`,
    `src/cpu/mos6502/operations/tests/code_generation.rs:2556-2578`. -/
example : passes (fun b => do
  let cpu := (← defaultCpu b)
  let op := (InstructionVariant.LdyZeroPage 0xff)
  let mc := (← InstructionVariant.generate b cpu op)
  check (decide ((⟨2, 3, [.SetProgramStatusFlagState .Negative false, .SetProgramStatusFlagState
      .Zero true, .Write8bitRegister .Y 0x00]⟩ : Operations) = mc))) := by
  decide +kernel

/-- `should_generate_zeropage_indexed_with_x_addressing_mode_ldy_machine_code`,
    `src/cpu/mos6502/operations/tests/code_generation.rs:2580-2604`. -/
example : passes (fun b => do
  let cpu := (withGpRegister (← defaultCpu b) .X 0x05)
  let cpu ← store b cpu 0x05 0xff
  let op := (InstructionVariant.LdyZeroPageIndexedWithX 0x00)
  let mc := (← InstructionVariant.generate b cpu op)
  check (decide ((⟨2, 4, [.SetProgramStatusFlagState .Negative true, .SetProgramStatusFlagState
      .Zero false, .Write8bitRegister .Y 0xff]⟩ : Operations) = mc))) := by
  decide +kernel

/-- `should_generate_absolute_addressing_mode_lsr_machine_code`,
    `src/cpu/mos6502/operations/tests/code_generation.rs:2608-2629`. -/
example : passes (fun b => do
  let cpu := (← defaultCpu b)
  let cpu ← store b cpu 0x00ff 0x55
  let op := (InstructionVariant.LsrAbsolute 0x00ff)
  let mc := (← InstructionVariant.generate b cpu op)
  check (decide ((⟨3, 6, [.SetProgramStatusFlagState .Carry true, .SetProgramStatusFlagState
      .Negative false, .SetProgramStatusFlagState .Zero false, .WriteMemory 0x00ff 0x2a]⟩ :
      Operations) = mc))) := by
  decide +kernel

/-- `should_generate_absolute_indexed_with_x_addressing_mode_lsr_machine_code`,
    `src/cpu/mos6502/operations/tests/code_generation.rs:2631-2653`. -/
example : passes (fun b => do
  let cpu := (withGpRegister (← defaultCpu b) .X 0x05)
  let cpu ← store b cpu 0x00ff 0x55
  let op := (InstructionVariant.LsrAbsoluteIndexedWithX 0x00fa)
  let mc := (← InstructionVariant.generate b cpu op)
  check (decide ((⟨3, 7, [.SetProgramStatusFlagState .Carry true, .SetProgramStatusFlagState
      .Negative false, .SetProgramStatusFlagState .Zero false, .WriteMemory 0x00ff 0x2a]⟩ :
      Operations) = mc))) := by
  decide +kernel

/-- `should_generate_accumulator_addressing_mode_lsr_machine_code`,
    `src/cpu/mos6502/operations/tests/code_generation.rs:2655-2676`. -/
example : passes (fun b => do
  let cpu := (withGpRegister (← defaultCpu b) .Acc 0x55)
  let op := InstructionVariant.LsrAccumulator
  let mc := (← InstructionVariant.generate b cpu op)
  check (decide ((⟨1, 2, [.SetProgramStatusFlagState .Carry true, .SetProgramStatusFlagState
      .Negative false, .SetProgramStatusFlagState .Zero false, .Write8bitRegister .Acc 0x2a]⟩ :
      Operations) = mc))) := by
  decide +kernel

/-- `should_generate_zeropage_addressing_mode_lsr_machine_code`,
    `src/cpu/mos6502/operations/tests/code_generation.rs:2678-2699`. -/
example : passes (fun b => do
  let cpu := (← defaultCpu b)
  let cpu ← store b cpu 0x00ff 0x55
  let op := (InstructionVariant.LsrZeroPage 0xff)
  let mc := (← InstructionVariant.generate b cpu op)
  check (decide ((⟨2, 5, [.SetProgramStatusFlagState .Carry true, .SetProgramStatusFlagState
      .Negative false, .SetProgramStatusFlagState .Zero false, .WriteMemory 0x00ff 0x2a]⟩ :
      Operations) = mc))) := by
  decide +kernel

/-- `should_generate_zeropage_indexed_with_x_addressing_mode_lsr_machine_code`,
    `src/cpu/mos6502/operations/tests/code_generation.rs:2701-2723`. -/
example : passes (fun b => do
  let cpu := (withGpRegister (← defaultCpu b) .X 0x05)
  let cpu ← store b cpu 0x00ff 0x55
  let op := (InstructionVariant.LsrZeroPageIndexedWithX 0xfa)
  let mc := (← InstructionVariant.generate b cpu op)
  check (decide ((⟨2, 6, [.SetProgramStatusFlagState .Carry true, .SetProgramStatusFlagState
      .Negative false, .SetProgramStatusFlagState .Zero false, .WriteMemory 0x00ff 0x2a]⟩ :
      Operations) = mc))) := by
  decide +kernel

/-- `should_generate_implied_addressing_mode_nop_machine_code`,
    `src/cpu/mos6502/operations/tests/code_generation.rs:2727-2734`. -/
example : passes (fun b => do
  let cpu := (← defaultCpu b)
  let op := InstructionVariant.NopImplied
  let mc := (← InstructionVariant.generate b cpu op)
  check (decide ((⟨1, 2, []⟩ : Operations) = mc))) := by
  decide +kernel

/-- `should_generate_absolute_addressing_mode_ora_machine_code`,
    `src/cpu/mos6502/operations/tests/code_generation.rs:2738-2759`. -/
example : passes (fun b => do
  let cpu := (withGpRegister (← defaultCpu b) .Acc 0xff)
  let cpu ← store b cpu 0x00ff 0x55
  let op := (InstructionVariant.OraAbsolute 0x00ff)
  let mc := (← InstructionVariant.generate b cpu op)
  check (decide ((⟨3, 4, [.SetProgramStatusFlagState .Negative true, .SetProgramStatusFlagState
      .Zero false, .Write8bitRegister .Acc 0xff]⟩ : Operations) = mc))) := by
  decide +kernel

/-- `should_generate_absolute_indexed_with_x_addressing_mode_ora_machine_code`,
    `src/cpu/mos6502/operations/tests/code_generation.rs:2761-2783`. -/
example : passes (fun b => do
  let cpu := (withGpRegister (withGpRegister (← defaultCpu b) .Acc 0x55) .X 0x05)
  let cpu ← store b cpu 0x00ff 0xff
  let op := (InstructionVariant.OraAbsoluteIndexedWithX 0x00fa)
  let mc := (← InstructionVariant.generate b cpu op)
  check (decide ((⟨3, 4, [.SetProgramStatusFlagState .Negative true, .SetProgramStatusFlagState
      .Zero false, .Write8bitRegister .Acc 0xff]⟩ : Operations) = mc))) := by
  decide +kernel

/-- `should_generate_absolute_indexed_with_y_addressing_mode_ora_machine_code`,
    `src/cpu/mos6502/operations/tests/code_generation.rs:2785-2807`. -/
example : passes (fun b => do
  let cpu := (withGpRegister (withGpRegister (← defaultCpu b) .Acc 0x55) .Y 0x05)
  let cpu ← store b cpu 0x00ff 0xff
  let op := (InstructionVariant.OraAbsoluteIndexedWithY 0x00fa)
  let mc := (← InstructionVariant.generate b cpu op)
  check (decide ((⟨3, 4, [.SetProgramStatusFlagState .Negative true, .SetProgramStatusFlagState
      .Zero false, .Write8bitRegister .Acc 0xff]⟩ : Operations) = mc))) := by
  decide +kernel

/-- `should_generate_indirect_y_indexed_addressing_mode_ora_machine_code`,
    `src/cpu/mos6502/operations/tests/code_generation.rs:2809-2834`. -/
example : passes (fun b => do
  let cpu := (withGpRegister (withGpRegister (← defaultCpu b) .Acc 0xff) .Y 0x05)
  let cpu ← store b cpu 0x00 0xfa
  let cpu ← store b cpu 0x01 0x00
  let cpu ← store b cpu 0xff 0x55
  let op := (InstructionVariant.OraIndirectYIndexed 0x00)
  let mc := (← InstructionVariant.generate b cpu op)
  check (decide ((⟨2, 5, [.SetProgramStatusFlagState .Negative true, .SetProgramStatusFlagState
      .Zero false, .Write8bitRegister .Acc 0xff]⟩ : Operations) = mc))) := by
  decide +kernel

/-- `should_generate_immediate_addressing_mode_ora_machine_code`,
    `src/cpu/mos6502/operations/tests/code_generation.rs:2836-2856`. -/
example : passes (fun b => do
  let cpu := (withGpRegister (← defaultCpu b) .Acc 0xff)
  let op := (InstructionVariant.OraImmediate 0x55)
  let mc := (← InstructionVariant.generate b cpu op)
  check (decide ((⟨2, 2, [.SetProgramStatusFlagState .Negative true, .SetProgramStatusFlagState
      .Zero false, .Write8bitRegister .Acc 0xff]⟩ : Operations) = mc))) := by
  decide +kernel

/-- `should_generate_x_indexed_indirect_addressing_mode_ora_machine_code`,
    `src/cpu/mos6502/operations/tests/code_generation.rs:2858-2883`. -/
example : passes (fun b => do
  let cpu := (withGpRegister (withGpRegister (← defaultCpu b) .Acc 0xff) .X 0x05)
  let cpu ← store b cpu 0x05 0xff
  let cpu ← store b cpu 0x06 0x00
  let cpu ← store b cpu 0xff 0x55
  let op := (InstructionVariant.OraXIndexedIndirect 0x00)
  let mc := (← InstructionVariant.generate b cpu op)
  check (decide ((⟨2, 6, [.SetProgramStatusFlagState .Negative true, .SetProgramStatusFlagState
      .Zero false, .Write8bitRegister .Acc 0xff]⟩ : Operations) = mc))) := by
  decide +kernel

/-- `should_generate_zeropage_addressing_mode_ora_machine_code`,
    `src/cpu/mos6502/operations/tests/code_generation.rs:2885-2906`. -/
example : passes (fun b => do
  let cpu := (withGpRegister (← defaultCpu b) .Acc 0xff)
  let cpu ← store b cpu 0x00ff 0x55
  let op := (InstructionVariant.OraZeroPage 0xff)
  let mc := (← InstructionVariant.generate b cpu op)
  check (decide ((⟨2, 3, [.SetProgramStatusFlagState .Negative true, .SetProgramStatusFlagState
      .Zero false, .Write8bitRegister .Acc 0xff]⟩ : Operations) = mc))) := by
  decide +kernel

/-- `should_generate_zeropage_indexed_with_x_addressing_mode_ora_machine_code`,
    `src/cpu/mos6502/operations/tests/code_generation.rs:2908-2930`. -/
example : passes (fun b => do
  let cpu := (withGpRegister (withGpRegister (← defaultCpu b) .Acc 0xff) .X 0x05)
  let cpu ← store b cpu 0x00ff 0x55
  let op := (InstructionVariant.OraZeroPageIndexedWithX 0xfa)
  let mc := (← InstructionVariant.generate b cpu op)
  check (decide ((⟨2, 4, [.SetProgramStatusFlagState .Negative true, .SetProgramStatusFlagState
      .Zero false, .Write8bitRegister .Acc 0xff]⟩ : Operations) = mc))) := by
  decide +kernel

/-- `should_generate_implied_addressing_mode_pha_machine_code`,
    `src/cpu/mos6502/operations/tests/code_generation.rs:2934-2955`. -/
example : passes (fun b => do
  let cpu := (withGpRegister (StepState.unwrap (← reset b (← defaultCpu b))) .Acc 0xff)
  let op := InstructionVariant.PhaImplied
  let mc := (← InstructionVariant.generate b cpu op)
  check (decide ((⟨1, 3, [.WriteMemory 0x01ff 0xff, .Dec8bitRegister .Sp 1]⟩ : Operations) = mc)))
      := by
  decide +kernel

/-- `should_generate_implied_addressing_mode_php_machine_code`,
    `src/cpu/mos6502/operations/tests/code_generation.rs:2959-2980`. -/
example : passes (fun b => do
  let cpu := (withPsRegister (StepState.unwrap (← reset b (← defaultCpu b)))
      (ProcessorStatus.withValue 0x55))
  let op := InstructionVariant.PhpImplied
  let mc := (← InstructionVariant.generate b cpu op)
  check (decide ((⟨1, 3, [.WriteMemory 0x01ff 0x55, .Dec8bitRegister .Sp 1]⟩ : Operations) = mc)))
      := by
  decide +kernel

/-- `should_generate_implied_addressing_mode_pla_machine_code`,
    `src/cpu/mos6502/operations/tests/code_generation.rs:2984-3011`. -/
example : passes (fun b => do
  let cpu := (withSpRegister (StepState.unwrap (← reset b (← defaultCpu b))) 0xfe)
  let cpu ← store b cpu 0x01ff 0xff
  let op := InstructionVariant.PlaImplied
  let mc := (← InstructionVariant.generate b cpu op)
  check (decide ([[], [], [], [.Inc8bitRegister .Sp 1, .SetProgramStatusFlagState .Negative true,
      .SetProgramStatusFlagState .Zero false, .Write8bitRegister .Acc 0xff, .Inc16bitRegister .Pc
      1]] = (← Operations.intoSteps b mc)))) := by
  decide +kernel

/-- `should_generate_implied_addressing_mode_plp_machine_code`,
    `src/cpu/mos6502/operations/tests/code_generation.rs:3015-3040`. -/
example : passes (fun b => do
  let cpu := (withSpRegister (StepState.unwrap (← reset b (← defaultCpu b))) 0xfe)
  let cpu ← store b cpu 0x01ff 0x55
  let op := InstructionVariant.PlpImplied
  let mc := (← InstructionVariant.generate b cpu op)
  check (decide ([[], [], [], [.Inc8bitRegister .Sp 1, .Write8bitRegister .Ps 0x55,
      .Inc16bitRegister .Pc 1]] = (← Operations.intoSteps b mc)))) := by
  decide +kernel

/-- `should_generate_absolute_addressing_mode_rol_machine_code`,
    `src/cpu/mos6502/operations/tests/code_generation.rs:3044-3069`. -/
example : passes (fun b => do
  let cpu := (withPsRegister (← defaultCpu b) ({ (ProcessorStatus.default : ProcessorStatus) with
      carry := true }))
  let cpu ← store b cpu 0x00ff 0xaa
  let op := (InstructionVariant.RolAbsolute 0x00ff)
  let mc := (← InstructionVariant.generate b cpu op)
  check (decide ((⟨3, 6, [.SetProgramStatusFlagState .Carry true, .SetProgramStatusFlagState
      .Negative false, .SetProgramStatusFlagState .Zero false, .WriteMemory 0x00ff 0x55]⟩ :
      Operations) = mc))) := by
  decide +kernel

/-- `should_generate_absolute_indexed_with_x_addressing_mode_rol_machine_code`,
    `src/cpu/mos6502/operations/tests/code_generation.rs:3071-3098`. -/
example : passes (fun b => do
  let cpu := (withPsRegister (withGpRegister (← defaultCpu b) .X 0x05) ({ (ProcessorStatus.default :
      ProcessorStatus) with carry := true }))
  let cpu ← store b cpu 0x00ff 0xaa
  let op := (InstructionVariant.RolAbsoluteIndexedWithX 0x00fa)
  let mc := (← InstructionVariant.generate b cpu op)
  check (decide ((⟨3, 7, [.SetProgramStatusFlagState .Carry true, .SetProgramStatusFlagState
      .Negative false, .SetProgramStatusFlagState .Zero false, .WriteMemory 0x00ff 0x55]⟩ :
      Operations) = mc))) := by
  decide +kernel

/-- `should_generate_accumulator_addressing_mode_rol_machine_code`,
    `src/cpu/mos6502/operations/tests/code_generation.rs:3100-3126`. -/
example : passes (fun b => do
  let cpu := (withPsRegister (withGpRegister (← defaultCpu b) .Acc 0xaa) ({ (ProcessorStatus.default
      : ProcessorStatus) with carry := true }))
  let op := InstructionVariant.RolAccumulator
  let mc := (← InstructionVariant.generate b cpu op)
  check (decide ((⟨1, 2, [.SetProgramStatusFlagState .Carry true, .SetProgramStatusFlagState
      .Negative false, .SetProgramStatusFlagState .Zero false, .Write8bitRegister .Acc 0x55]⟩ :
      Operations) = mc))) := by
  decide +kernel

/-- `should_generate_zeropage_addressing_mode_rol_machine_code`,
    `src/cpu/mos6502/operations/tests/code_generation.rs:3128-3153`. -/
example : passes (fun b => do
  let cpu := (withPsRegister (← defaultCpu b) ({ (ProcessorStatus.default : ProcessorStatus) with
      carry := true }))
  let cpu ← store b cpu 0x00ff 0xaa
  let op := (InstructionVariant.RolZeroPage 0xff)
  let mc := (← InstructionVariant.generate b cpu op)
  check (decide ((⟨2, 5, [.SetProgramStatusFlagState .Carry true, .SetProgramStatusFlagState
      .Negative false, .SetProgramStatusFlagState .Zero false, .WriteMemory 0x00ff 0x55]⟩ :
      Operations) = mc))) := by
  decide +kernel

/-- `should_generate_zeropage_indexed_with_x_addressing_mode_rol_machine_code`,
    `src/cpu/mos6502/operations/tests/code_generation.rs:3155-3182`. -/
example : passes (fun b => do
  let cpu := (withPsRegister (withGpRegister (← defaultCpu b) .X 0x05) ({ (ProcessorStatus.default :
      ProcessorStatus) with carry := true }))
  let cpu ← store b cpu 0x00ff 0xaa
  let op := (InstructionVariant.RolZeroPageIndexedWithX 0xfa)
  let mc := (← InstructionVariant.generate b cpu op)
  check (decide ((⟨2, 6, [.SetProgramStatusFlagState .Carry true, .SetProgramStatusFlagState
      .Negative false, .SetProgramStatusFlagState .Zero false, .WriteMemory 0x00ff 0x55]⟩ :
      Operations) = mc))) := by
  decide +kernel

/-- `should_generate_absolute_addressing_mode_ror_machine_code`,
    `src/cpu/mos6502/operations/tests/code_generation.rs:3186-3211`. -/
example : passes (fun b => do
  let cpu := (withPsRegister (← defaultCpu b) ({ (ProcessorStatus.default : ProcessorStatus) with
      carry := true }))
  let cpu ← store b cpu 0x00ff 0xaa
  let op := (InstructionVariant.RorAbsolute 0x00ff)
  let mc := (← InstructionVariant.generate b cpu op)
  check (decide ((⟨3, 6, [.SetProgramStatusFlagState .Carry false, .SetProgramStatusFlagState
      .Negative true, .SetProgramStatusFlagState .Zero false, .WriteMemory 0x00ff 0xd5]⟩ :
      Operations) = mc))) := by
  decide +kernel

/-- `should_generate_absolute_indexed_with_x_addressing_mode_ror_machine_code`,
    `src/cpu/mos6502/operations/tests/code_generation.rs:3213-3240`. -/
example : passes (fun b => do
  let cpu := (withPsRegister (withGpRegister (← defaultCpu b) .X 0x05) ({ (ProcessorStatus.default :
      ProcessorStatus) with carry := true }))
  let cpu ← store b cpu 0x00ff 0xaa
  let op := (InstructionVariant.RorAbsoluteIndexedWithX 0x00fa)
  let mc := (← InstructionVariant.generate b cpu op)
  check (decide ((⟨3, 7, [.SetProgramStatusFlagState .Carry false, .SetProgramStatusFlagState
      .Negative true, .SetProgramStatusFlagState .Zero false, .WriteMemory 0x00ff 0xd5]⟩ :
      Operations) = mc))) := by
  decide +kernel

/-- `should_generate_accumulator_addressing_mode_ror_machine_code`,
    `src/cpu/mos6502/operations/tests/code_generation.rs:3242-3268`. -/
example : passes (fun b => do
  let cpu := (withPsRegister (withGpRegister (← defaultCpu b) .Acc 0xaa) ({ (ProcessorStatus.default
      : ProcessorStatus) with carry := true }))
  let op := InstructionVariant.RorAccumulator
  let mc := (← InstructionVariant.generate b cpu op)
  check (decide ((⟨1, 2, [.SetProgramStatusFlagState .Carry false, .SetProgramStatusFlagState
      .Negative true, .SetProgramStatusFlagState .Zero false, .Write8bitRegister .Acc 0xd5]⟩ :
      Operations) = mc))) := by
  decide +kernel

/-- `should_generate_zeropage_addressing_mode_ror_machine_code`,
    `src/cpu/mos6502/operations/tests/code_generation.rs:3270-3295`. -/
example : passes (fun b => do
  let cpu := (withPsRegister (← defaultCpu b) ({ (ProcessorStatus.default : ProcessorStatus) with
      carry := true }))
  let cpu ← store b cpu 0x00ff 0xaa
  let op := (InstructionVariant.RorZeroPage 0xff)
  let mc := (← InstructionVariant.generate b cpu op)
  check (decide ((⟨2, 5, [.SetProgramStatusFlagState .Carry false, .SetProgramStatusFlagState
      .Negative true, .SetProgramStatusFlagState .Zero false, .WriteMemory 0x00ff 0xd5]⟩ :
      Operations) = mc))) := by
  decide +kernel

/-- `should_generate_zeropage_indexed_with_x_addressing_mode_ror_machine_code`,
    `src/cpu/mos6502/operations/tests/code_generation.rs:3297-3324`. -/
example : passes (fun b => do
  let cpu := (withPsRegister (withGpRegister (← defaultCpu b) .X 0x05) ({ (ProcessorStatus.default :
      ProcessorStatus) with carry := true }))
  let cpu ← store b cpu 0x00ff 0xaa
  let op := (InstructionVariant.RorZeroPageIndexedWithX 0xfa)
  let mc := (← InstructionVariant.generate b cpu op)
  check (decide ((⟨2, 6, [.SetProgramStatusFlagState .Carry false, .SetProgramStatusFlagState
      .Negative true, .SetProgramStatusFlagState .Zero false, .WriteMemory 0x00ff 0xd5]⟩ :
      Operations) = mc))) := by
  decide +kernel

/-- `should_generate_implied_addressing_mode_rti_machine_code`,
    `src/cpu/mos6502/operations/tests/code_generation.rs:3328-3358`. -/
example : passes (fun b => do
  let cpu := (withSpRegister (← defaultCpu b) 0xfc)
  let cpu ← store b cpu 0x01ff 0x12
  let cpu ← store b cpu 0x01fe 0x34
  let cpu ← store b cpu 0x01fd (ProcessorStatus.read { (ProcessorStatus.default : ProcessorStatus)
      with interrupt_disable := false, brk := false })
  let op := InstructionVariant.RtiImplied
  let mc := (← InstructionVariant.generate b cpu op)
  check (decide ((⟨1, 6, [.Inc8bitRegister .Sp 1, .Write8bitRegister .Ps 0x20, .Inc8bitRegister .Sp
      2, .Write16bitRegister .Pc 0x1234]⟩ : Operations) = mc))) := by
  decide +kernel

/-- `should_generate_implied_addressing_mode_rts_machine_code`,
    `src/cpu/mos6502/operations/tests/code_generation.rs:3362-3382`. -/
example : passes (fun b => do
  let cpu := (withSpRegister (← defaultCpu b) 0xfd)
  let cpu ← store b cpu 0x01fe 0x02
  let cpu ← store b cpu 0x01ff 0x60
  let op := InstructionVariant.RtsImplied
  let mc := (← InstructionVariant.generate b cpu op)
  check (decide ((⟨1, 6, [.Inc8bitRegister .Sp 2, .Write16bitRegister .Pc 0x6002]⟩ : Operations) =
      mc))) := by
  decide +kernel

/-- `should_generate_absolute_addressing_mode_sbc_machine_code`,
    `src/cpu/mos6502/operations/tests/code_generation.rs:3386-3415`. -/
example : passes (fun b => do
  let cpu := (withPsRegister (withGpRegister (← defaultCpu b) .Acc 0x50) ({ (ProcessorStatus.default
      : ProcessorStatus) with carry := true }))
  let cpu ← store b cpu 0x00ff 0xb0
  let op := (InstructionVariant.SbcAbsolute 0x00ff)
  let mc := (← InstructionVariant.generate b cpu op)
  check (decide ((⟨3, 4, [.SetProgramStatusFlagState .Carry false, .SetProgramStatusFlagState
      .Negative true, .SetProgramStatusFlagState .Overflow true, .SetProgramStatusFlagState .Zero
      false, .Write8bitRegister .Acc 0xa0]⟩ : Operations) = mc))) := by
  decide +kernel

/-- `should_generate_absolute_indexed_with_x_addressing_mode_sbc_machine_code`,
    `src/cpu/mos6502/operations/tests/code_generation.rs:3417-3447`. -/
example : passes (fun b => do
  let cpu := (withPsRegister (withGpRegister (withGpRegister (← defaultCpu b) .Acc 0x50) .X 0x05) ({
      (ProcessorStatus.default : ProcessorStatus) with carry := true }))
  let cpu ← store b cpu 0x00ff 0xb0
  let op := (InstructionVariant.SbcAbsoluteIndexedWithX 0x00fa)
  let mc := (← InstructionVariant.generate b cpu op)
  check (decide ((⟨3, 4, [.SetProgramStatusFlagState .Carry false, .SetProgramStatusFlagState
      .Negative true, .SetProgramStatusFlagState .Overflow true, .SetProgramStatusFlagState .Zero
      false, .Write8bitRegister .Acc 0xa0]⟩ : Operations) = mc))) := by
  decide +kernel

/-- `should_generate_absolute_indexed_with_y_addressing_mode_sbc_machine_code`,
    `src/cpu/mos6502/operations/tests/code_generation.rs:3449-3479`. -/
example : passes (fun b => do
  let cpu := (withPsRegister (withGpRegister (withGpRegister (← defaultCpu b) .Acc 0x50) .Y 0x05) ({
      (ProcessorStatus.default : ProcessorStatus) with carry := true }))
  let cpu ← store b cpu 0x00ff 0xb0
  let op := (InstructionVariant.SbcAbsoluteIndexedWithY 0x00fa)
  let mc := (← InstructionVariant.generate b cpu op)
  check (decide ((⟨3, 4, [.SetProgramStatusFlagState .Carry false, .SetProgramStatusFlagState
      .Negative true, .SetProgramStatusFlagState .Overflow true, .SetProgramStatusFlagState .Zero
      false, .Write8bitRegister .Acc 0xa0]⟩ : Operations) = mc))) := by
  decide +kernel

/-- `should_generate_indirect_y_indexed_addressing_mode_sbc_machine_code`,
    `src/cpu/mos6502/operations/tests/code_generation.rs:3481-3513`. -/
example : passes (fun b => do
  let cpu := (withPsRegister (withGpRegister (withGpRegister (← defaultCpu b) .Acc 0x50) .Y 0x05) ({
      (ProcessorStatus.default : ProcessorStatus) with carry := true }))
  let cpu ← store b cpu 0x00 0xfa
  let cpu ← store b cpu 0x01 0x00
  let cpu ← store b cpu 0xff 0xb0
  let op := (InstructionVariant.SbcIndirectYIndexed 0x00)
  let mc := (← InstructionVariant.generate b cpu op)
  check (decide ((⟨2, 5, [.SetProgramStatusFlagState .Carry false, .SetProgramStatusFlagState
      .Negative true, .SetProgramStatusFlagState .Overflow true, .SetProgramStatusFlagState .Zero
      false, .Write8bitRegister .Acc 0xa0]⟩ : Operations) = mc))) := by
  decide +kernel

/-- `should_generate_immediate_addressing_mode_sbc_machine_code`,
    `src/cpu/mos6502/operations/tests/code_generation.rs:3515-3543`. -/
example : passes (fun b => do
  let cpu := (withPsRegister (withGpRegister (← defaultCpu b) .Acc 0x50) ({ (ProcessorStatus.default
      : ProcessorStatus) with carry := true }))
  let op := (InstructionVariant.SbcImmediate 0xb0)
  let mc := (← InstructionVariant.generate b cpu op)
  check (decide ((⟨2, 2, [.SetProgramStatusFlagState .Carry false, .SetProgramStatusFlagState
      .Negative true, .SetProgramStatusFlagState .Overflow true, .SetProgramStatusFlagState .Zero
      false, .Write8bitRegister .Acc 0xa0]⟩ : Operations) = mc))) := by
  decide +kernel

/-- `should_generate_x_indexed_indirect_addressing_mode_sbc_machine_code`,
    `src/cpu/mos6502/operations/tests/code_generation.rs:3545-3577`. -/
example : passes (fun b => do
  let cpu := (withPsRegister (withGpRegister (withGpRegister (← defaultCpu b) .Acc 0x50) .X 0x05) ({
      (ProcessorStatus.default : ProcessorStatus) with carry := true }))
  let cpu ← store b cpu 0x05 0xff
  let cpu ← store b cpu 0x06 0x00
  let cpu ← store b cpu 0xff 0xb0
  let op := (InstructionVariant.SbcXIndexedIndirect 0x00)
  let mc := (← InstructionVariant.generate b cpu op)
  check (decide ((⟨2, 6, [.SetProgramStatusFlagState .Carry false, .SetProgramStatusFlagState
      .Negative true, .SetProgramStatusFlagState .Overflow true, .SetProgramStatusFlagState .Zero
      false, .Write8bitRegister .Acc 0xa0]⟩ : Operations) = mc))) := by
  decide +kernel

/-- `should_generate_zeropage_addressing_mode_sbc_machine_code`,
    `src/cpu/mos6502/operations/tests/code_generation.rs:3579-3608`. -/
example : passes (fun b => do
  let cpu := (withPsRegister (withGpRegister (← defaultCpu b) .Acc 0x50) ({ (ProcessorStatus.default
      : ProcessorStatus) with carry := true }))
  let cpu ← store b cpu 0x00ff 0xb0
  let op := (InstructionVariant.SbcZeroPage 0xff)
  let mc := (← InstructionVariant.generate b cpu op)
  check (decide ((⟨2, 3, [.SetProgramStatusFlagState .Carry false, .SetProgramStatusFlagState
      .Negative true, .SetProgramStatusFlagState .Overflow true, .SetProgramStatusFlagState .Zero
      false, .Write8bitRegister .Acc 0xa0]⟩ : Operations) = mc))) := by
  decide +kernel

/-- `should_generate_zeropage_indexed_with_x_addressing_mode_sbc_machine_code`,
    `src/cpu/mos6502/operations/tests/code_generation.rs:3610-3640`. -/
example : passes (fun b => do
  let cpu := (withPsRegister (withGpRegister (withGpRegister (← defaultCpu b) .Acc 0x50) .X 0x05) ({
      (ProcessorStatus.default : ProcessorStatus) with carry := true }))
  let cpu ← store b cpu 0xff 0xb0
  let op := (InstructionVariant.SbcZeroPageIndexedWithX 0xfa)
  let mc := (← InstructionVariant.generate b cpu op)
  check (decide ((⟨2, 4, [.SetProgramStatusFlagState .Carry false, .SetProgramStatusFlagState
      .Negative true, .SetProgramStatusFlagState .Overflow true, .SetProgramStatusFlagState .Zero
      false, .Write8bitRegister .Acc 0xa0]⟩ : Operations) = mc))) := by
  decide +kernel

/-- `should_generate_implied_addressing_mode_sec_machine_code`,
    `src/cpu/mos6502/operations/tests/code_generation.rs:3644-3663`. -/
example : passes (fun b => do
  let ps := ProcessorStatus.default
  let ps := { ps with carry := false }
  let cpu := (withPsRegister (← defaultCpu b) ps)
  let op := InstructionVariant.SecImplied
  let mc := (← InstructionVariant.generate b cpu op)
  check (decide ((⟨1, 2, [.SetProgramStatusFlagState .Carry true]⟩ : Operations) = mc))) := by
  decide +kernel

/-- `should_generate_implied_addressing_mode_sed_machine_code`,
    `src/cpu/mos6502/operations/tests/code_generation.rs:3667-3686`. -/
example : passes (fun b => do
  let ps := ProcessorStatus.default
  let ps := { ps with decimal := false }
  let cpu := (withPsRegister (← defaultCpu b) ps)
  let op := InstructionVariant.SedImplied
  let mc := (← InstructionVariant.generate b cpu op)
  check (decide ((⟨1, 2, [.SetProgramStatusFlagState .Decimal true]⟩ : Operations) = mc))) := by
  decide +kernel

/-- `should_generate_implied_addressing_mode_sei_machine_code`,
    `src/cpu/mos6502/operations/tests/code_generation.rs:3690-3709`. -/
example : passes (fun b => do
  let ps := ProcessorStatus.default
  let ps := { ps with interrupt_disable := false }
  let cpu := (withPsRegister (← defaultCpu b) ps)
  let op := InstructionVariant.SeiImplied
  let mc := (← InstructionVariant.generate b cpu op)
  check (decide ((⟨1, 2, [.SetProgramStatusFlagState .Interrupt true]⟩ : Operations) = mc))) := by
  decide +kernel

/-- `should_generate_absolute_addressing_mode_sta_machine_code`,
    `src/cpu/mos6502/operations/tests/code_generation.rs:3713-3724`. -/
example : passes (fun b => do
  let cpu := (← defaultCpu b)
  let op := (InstructionVariant.StaAbsolute 0x0100)
  let mc := (← InstructionVariant.generate b cpu op)
  check (decide ((⟨3, 4, [.WriteMemory 0x0100 0x00]⟩ : Operations) = mc))) := by
  decide +kernel

/-- `should_generate_absolute_with_x_index_addressing_mode_sta_machine_code`,
    `src/cpu/mos6502/operations/tests/code_generation.rs:3726-3753`. -/
example : passes (fun b => do
  let cpu := (withGpRegister (withGpRegister (← defaultCpu b) .Acc 0xff) .X 0x05)
  let op := (InstructionVariant.StaAbsoluteIndexedWithX 0x0000)
  let mc := (← InstructionVariant.generate b cpu op)
  check (decide ((⟨3, 5, [.WriteMemory 0x05 0xff]⟩ : Operations) = mc))
  check (decide ([[], [], [], [], [.WriteMemory 0x05 0xff, .Inc16bitRegister .Pc 3]] = (←
      Operations.intoSteps b mc)))) := by
  decide +kernel

/-- `should_generate_absolute_with_y_index_addressing_mode_sta_machine_code`,
    `src/cpu/mos6502/operations/tests/code_generation.rs:3755-3782`. -/
example : passes (fun b => do
  let cpu := (withGpRegister (withGpRegister (← defaultCpu b) .Acc 0xff) .Y 0x05)
  let op := (InstructionVariant.StaAbsoluteIndexedWithY 0x0000)
  let mc := (← InstructionVariant.generate b cpu op)
  check (decide ((⟨3, 5, [.WriteMemory 0x05 0xff]⟩ : Operations) = mc))
  check (decide ([[], [], [], [], [.WriteMemory 0x05 0xff, .Inc16bitRegister .Pc 3]] = (←
      Operations.intoSteps b mc)))) := by
  decide +kernel

/-- `should_generate_indirect_y_indexed_addressing_mode_sta_machine_code`,
    `src/cpu/mos6502/operations/tests/code_generation.rs:3784-3800`. -/
example : passes (fun b => do
  let cpu := (withGpRegister (withGpRegister (← defaultCpu b) .Y 0x05) .Acc 0xff)
  let cpu ← store b cpu 0x00 0xfa
  let cpu ← store b cpu 0x01 0x00
  let op := (InstructionVariant.StaIndirectYIndexed 0x00)
  let mc := (← InstructionVariant.generate b cpu op)
  check (decide ((⟨2, 6, [.WriteMemory 0xff 0xff]⟩ : Operations) = mc))) := by
  decide +kernel

/-- `should_generate_x_indexed_indirect_addressing_mode_sta_machine_code`,
    `src/cpu/mos6502/operations/tests/code_generation.rs:3802-3818`. -/
example : passes (fun b => do
  let cpu := (withGpRegister (withGpRegister (← defaultCpu b) .X 0x05) .Acc 0xff)
  let cpu ← store b cpu 0x05 0xff
  let cpu ← store b cpu 0x06 0x00
  let op := (InstructionVariant.StaXIndexedIndirect 0x00)
  let mc := (← InstructionVariant.generate b cpu op)
  check (decide ((⟨2, 6, [.WriteMemory 0xff 0xff]⟩ : Operations) = mc))) := by
  decide +kernel

/-- `should_generate_zeropage_addressing_mode_sta_machine_code`,
    `src/cpu/mos6502/operations/tests/code_generation.rs:3820-3831`. -/
example : passes (fun b => do
  let cpu := (← defaultCpu b)
  let op := (InstructionVariant.StaZeroPage 0x01)
  let mc := (← InstructionVariant.generate b cpu op)
  check (decide ((⟨2, 3, [.WriteMemory 0x01 0x00]⟩ : Operations) = mc))) := by
  decide +kernel

/-- `should_generate_zeropage_with_x_index_addressing_mode_sta_machine_code`,
    `src/cpu/mos6502/operations/tests/code_generation.rs:3833-3846`. -/
example : passes (fun b => do
  let cpu := (withGpRegister (withGpRegister (← defaultCpu b) .Acc 0xff) .X 0x05)
  let op := (InstructionVariant.StaZeroPageIndexedWithX 0x00)
  let mc := (← InstructionVariant.generate b cpu op)
  check (decide ((⟨2, 4, [.WriteMemory 0x05 0xff]⟩ : Operations) = mc))) := by
  decide +kernel

/-- `should_generate_absolute_addressing_mode_stx_machine_code`,
    `src/cpu/mos6502/operations/tests/code_generation.rs:3848-3859`. -/
example : passes (fun b => do
  let cpu := (withGpRegister (← defaultCpu b) .X 0x55)
  let op := (InstructionVariant.StxAbsolute 0x0100)
  let mc := (← InstructionVariant.generate b cpu op)
  check (decide ((⟨3, 4, [.WriteMemory 0x0100 0x55]⟩ : Operations) = mc))) := by
  decide +kernel

/-- `should_generate_zeropage_addressing_mode_stx_machine_code`,
    `src/cpu/mos6502/operations/tests/code_generation.rs:3861-3872`. -/
example : passes (fun b => do
  let cpu := (withGpRegister (← defaultCpu b) .X 0x55)
  let op := (InstructionVariant.StxZeroPage 0x01)
  let mc := (← InstructionVariant.generate b cpu op)
  check (decide ((⟨2, 3, [.WriteMemory 0x01 0x55]⟩ : Operations) = mc))) := by
  decide +kernel

/-- `should_generate_zeropage_with_y_index_addressing_mode_stx_machine_code`,
    `src/cpu/mos6502/operations/tests/code_generation.rs:3874-3887`. -/
example : passes (fun b => do
  let cpu := (withGpRegister (withGpRegister (← defaultCpu b) .X 0x55) .Y 0x05)
  let op := (InstructionVariant.StxZeroPageIndexedWithY 0x00)
  let mc := (← InstructionVariant.generate b cpu op)
  check (decide ((⟨2, 4, [.WriteMemory 0x05 0x55]⟩ : Operations) = mc))) := by
  decide +kernel

/-- `should_generate_absolute_addressing_mode_sty_machine_code`,
    `src/cpu/mos6502/operations/tests/code_generation.rs:3889-3900`. -/
example : passes (fun b => do
  let cpu := (withGpRegister (← defaultCpu b) .Y 0x55)
  let op := (InstructionVariant.StyAbsolute 0x0100)
  let mc := (← InstructionVariant.generate b cpu op)
  check (decide ((⟨3, 4, [.WriteMemory 0x0100 0x55]⟩ : Operations) = mc))) := by
  decide +kernel

/-- `should_generate_zeropage_addressing_mode_sty_machine_code`,
    `src/cpu/mos6502/operations/tests/code_generation.rs:3902-3913`. -/
example : passes (fun b => do
  let cpu := (withGpRegister (← defaultCpu b) .Y 0x55)
  let op := (InstructionVariant.StyZeroPage 0x01)
  let mc := (← InstructionVariant.generate b cpu op)
  check (decide ((⟨2, 3, [.WriteMemory 0x01 0x55]⟩ : Operations) = mc))) := by
  decide +kernel

/-- `should_generate_zeropage_with_x_index_addressing_mode_sty_machine_code`,
    `src/cpu/mos6502/operations/tests/code_generation.rs:3915-3928`. -/
example : passes (fun b => do
  let cpu := (withGpRegister (withGpRegister (← defaultCpu b) .X 0x05) .Y 0x55)
  let op := (InstructionVariant.StyZeroPageIndexedWithX 0x00)
  let mc := (← InstructionVariant.generate b cpu op)
  check (decide ((⟨2, 4, [.WriteMemory 0x05 0x55]⟩ : Operations) = mc))) := by
  decide +kernel

/-- `should_generate_implied_addressing_mode_tax_machine_code`,
    `src/cpu/mos6502/operations/tests/code_generation.rs:3930-3949`. -/
example : passes (fun b => do
  let cpu := (withGpRegister (← defaultCpu b) .Acc 0xff)
  let op := InstructionVariant.TaxImplied
  let mc := (← InstructionVariant.generate b cpu op)
  check (decide ((⟨1, 2, [.SetProgramStatusFlagState .Negative true, .SetProgramStatusFlagState
      .Zero false, .Write8bitRegister .X 0xff]⟩ : Operations) = mc))) := by
  decide +kernel

/-- `should_generate_implied_addressing_mode_tay_machine_code`,
    `src/cpu/mos6502/operations/tests/code_generation.rs:3951-3970`. -/
example : passes (fun b => do
  let cpu := (withGpRegister (← defaultCpu b) .Acc 0xff)
  let op := InstructionVariant.TayImplied
  let mc := (← InstructionVariant.generate b cpu op)
  check (decide ((⟨1, 2, [.SetProgramStatusFlagState .Negative true, .SetProgramStatusFlagState
      .Zero false, .Write8bitRegister .Y 0xff]⟩ : Operations) = mc))) := by
  decide +kernel

/-- `should_generate_implied_addressing_mode_tsx_machine_code`,
    `src/cpu/mos6502/operations/tests/code_generation.rs:3972-3990`. -/
example : passes (fun b => do
  let cpu := (withSpRegister (← defaultCpu b) defaultSp)
  let op := InstructionVariant.TsxImplied
  let mc := (← InstructionVariant.generate b cpu op)
  check (decide ((⟨1, 2, [.SetProgramStatusFlagState .Negative true, .SetProgramStatusFlagState
      .Zero false, .Write8bitRegister .X 0xff]⟩ : Operations) = mc))) := by
  decide +kernel

/-- `should_generate_implied_addressing_mode_txa_machine_code`,
    `src/cpu/mos6502/operations/tests/code_generation.rs:3992-4010`. -/
example : passes (fun b => do
  let cpu := (withGpRegister (← defaultCpu b) .X 0xff)
  let op := InstructionVariant.TxaImplied
  let mc := (← InstructionVariant.generate b cpu op)
  check (decide ((⟨1, 2, [.SetProgramStatusFlagState .Negative true, .SetProgramStatusFlagState
      .Zero false, .Write8bitRegister .Acc 0xff]⟩ : Operations) = mc))) := by
  decide +kernel

/-- `should_generate_implied_addressing_mode_txs_machine_code`,
    `src/cpu/mos6502/operations/tests/code_generation.rs:4012-4026`. -/
example : passes (fun b => do
  let cpu := (withGpRegister (← defaultCpu b) .X 0x00)
  let op := InstructionVariant.TxsImplied
  let mc := (← InstructionVariant.generate b cpu op)
  check (decide ((⟨1, 2, [.Write8bitRegister .Sp 0x00]⟩ : Operations) = mc))) := by
  decide +kernel

/-- `should_generate_implied_addressing_mode_tya_machine_code`,
    `src/cpu/mos6502/operations/tests/code_generation.rs:4028-4046`. -/
example : passes (fun b => do
  let cpu := (withGpRegister (← defaultCpu b) .Y 0xff)
  let op := InstructionVariant.TyaImplied
  let mc := (← InstructionVariant.generate b cpu op)
  check (decide ((⟨1, 2, [.SetProgramStatusFlagState .Negative true, .SetProgramStatusFlagState
      .Zero false, .Write8bitRegister .Acc 0xff]⟩ : Operations) = mc))) := by
  decide +kernel

end Verif.Conformance
