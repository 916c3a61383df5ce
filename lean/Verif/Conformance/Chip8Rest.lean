import Verif.Conformance.Chip8Basic

/-!
# The tests in `src/cpu/chip8/{mod,register,memory,u12}.rs`
-/

namespace Verif.Conformance

open Verif Verif.Chip8

/-- `should_execute_infinitely_on_jump_to_reset_vector`, `src/cpu/chip8/mod.rs:573-582`. -/
example : passes (fun b => do
  let cpu ← testChip8 b
  let cpu ← store8 b cpu 0x200 0x12
  let cpu ← store8 b cpu 0x201 0x00
  check (decide (0x200 = cpu.pc))
  let state := (← run b (fun _ => ⟨0, 0, 0, 0⟩) cpu 5).unwrap
  check (decide (0x200 = state.pc))) := by
  decide +kernel

/-- `should_execute_add_immediate`, `src/cpu/chip8/mod.rs:584-595`. -/
example : passes (fun b => do
  let cpu ← withGpRegister (← testChip8 b) .V0 0x05
  let cpu ← store8 b cpu 0x200 0x70
  let cpu ← store8 b cpu 0x201 0xfa
  let state := (← run b (fun _ => ⟨0, 0, 0, 0⟩) cpu 1).unwrap
  check (decide (0xff = (← readGpRegister state .V0)))) := by
  decide +kernel

/-- `should_clear_input_idempotently`, `src/cpu/chip8/mod.rs:597-613`. -/
example : passes (fun b => do
  let cpu := withInterrupt (← testChip8 b) (some (.KeyPress .Key0))
  check (decide (some (.KeyPress .Key0) = cpu.interrupt))
  check (decide (none = (withInterrupt (withInterrupt cpu none) none).interrupt))) := by
  decide +kernel

/-- `should_set_a_given_pixel_to_a_given_value`, `src/cpu/chip8/mod.rs:615-622`. -/
example : passes (fun b => do
  let cpu := withDisplay (← testChip8 b) (fun d => (d.writePixel 1 1 true).1)
  check (decide (some false = cpu.display.pixel 2 1))
  check (decide (some true = cpu.display.pixel 1 1))
  check (decide (some false = cpu.display.pixel 1 2))) := by
  decide +kernel

/-- `should_set_a_given_pixel_range_to_a_given_value`, `src/cpu/chip8/mod.rs:624-636`. -/
example : passes (fun b => do
  let cpu ← setDisplayRange b (← testChip8 b) (0, 0) (63, 31) true
  check (cpu.display.unwrap.toList.all (fun row => row.toList.all (fun v => v)))) := by
  decide +kernel

/-- `should_generate_valid_ranged_value_for_stackpointer`, `src/cpu/chip8/register.rs:191-200`. -/
example : passes (fun _ => do
  (List.range 16).forM (fun n => do
    let valid_addr := BitVec.ofNat 8 n
    check (decide (valid_addr = (StackPointer.withValue valid_addr).read)))
  check (decide (0 = (StackPointer.withValue 16).read))
  check (decide (1 = (StackPointer.withValue 17).read))) := by
  decide +kernel

/-- `should_decrement_clocked_register_at_a_set_pulse`, `src/cpu/chip8/register.rs:202-209`: the
register is written at the instant 0 and read when the thread has slept for two seconds. -/
example : passes (fun b => do
  let cdr := ClockDecrementing.withValue 0 0xff
  check (decide ((← cdr.read b 2000000000).toNat < 0xff))) := by
  decide +kernel

/-- `should_wrap_on_overflow`, `src/cpu/chip8/memory.rs:56-65`. -/
example : passes (fun _ => do
  let ring : Ring Byte := Ring.new 4
  check (decide (0x00 = (← ring.read 0)))
  let ring := (← ring.writeSafe 0 0xff).2
  check (decide (0xff = (← ring.read 4)))
  check (decide (0xff = (← ring.read 16)))
  check (decide (0x00 = (← ring.read 17)))) := by
  decide +kernel

/-- `should_add_as_expected`, `src/cpu/chip8/u12.rs:208-211`. -/
example : passes (fun b => do
  check (U12.eq (← U12.new 12) (← U12.add b (← U12.new 5) (← U12.new 7)))) := by
  decide +kernel

/-- `should_panic_on_overflowing_add` (`#[should_panic]`), `src/cpu/chip8/u12.rs:213-219`; the
panic is the one of `u12::new(0xFFFF)`. -/
example : panics (fun b => do
  let _ ← U12.add b (← U12.new 0xFFFF) (← U12.new 1)) := by
  decide +kernel

/-- `should_wrap_correctly_with_overflowing_wrapping_add`, `src/cpu/chip8/u12.rs:221-228`. -/
example : passes (fun _ => do
  check (U12.eq (← U12.new 12) (← U12.wrappingAdd (← U12.new 5) (← U12.new 7)))
  check (U12.eq (← U12.new 1) (← U12.wrappingAdd (← U12.new 0xFFF) (← U12.new 2)))) := by
  decide +kernel

/-- `should_wrap_correctly_with_overflowing_wrapping_sub`, `src/cpu/chip8/u12.rs:230-237`. -/
example : passes (fun _ => do
  check (U12.eq (← U12.new 2) (← U12.wrappingSub (← U12.new 7) (← U12.new 5)))
  check (U12.eq (← U12.new 0xFFF) (← U12.wrappingSub (← U12.new 0) (← U12.new 1)))) := by
  decide +kernel

/-- `should_subtract_as_expected`, `src/cpu/chip8/u12.rs:239-242`. -/
example : passes (fun b => do
  check (U12.eq (← U12.new 2) (← U12.sub b (← U12.new 7) (← U12.new 5)))) := by
  decide +kernel

end Verif.Conformance
