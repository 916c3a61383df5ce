import Verif.Model.Mos.Helpers
import Verif.Model.Mos.Isa

/-!
# `Generate` implementations: Bcc, Bcs, Beq, Bmi, Bne, Bpl, Bvc, Bvs

`am` is the operand held by the addressing mode (`self.addressing_mode.unwrap()`).
-/

namespace Verif.Mos

open Verif

variable {B : Type} [Addressable B]

/-- `branch_on_case`, `src/cpu/mos6502/operations/mod.rs:2350-2380`. `branch_offset` is an `i8`
(as its bits); `branch_offset as u16` sign-extends. -/
def branchOnCase (b : Build) (cond : Bool) (branch_offset : Byte) (inst_offset cycles : Nat)
    (cpu : Mos6502 B) : Res Operations := do
  let jmp_on_eq := cpu.pc + branch_offset.signExtend 16
  let mc : List Microcode :=
    if cond then [.Write16bitRegister .Pc jmp_on_eq]
    else [.Write16bitRegister .Pc (cpu.pc + BitVec.ofNat 16 inst_offset)]
  let page ← Page.ofU16 b cpu.pc
  let branch_penalty :=
    match cond, page.contains jmp_on_eq with
    | true, false => 2
    | true, true => 1
    | _, _ => 0
  .ok { offset := 0, cycles := cycles + branch_penalty, microcode := mc }

/-- `Generate for Instruction<Bcc, Relative>`,
`src/cpu/mos6502/operations/mod.rs:2384-2392`. -/
def bccRelative (b : Build) (cpu : Mos6502 B) (am : Byte) : Res Operations := do
  let offset := am
  branchOnCase b (!cpu.ps.carry) offset (Isa.offset .Bcc .Relative) (Isa.cycles .Bcc .Relative) cpu

/-- `Generate for Instruction<Bcs, Relative>`,
`src/cpu/mos6502/operations/mod.rs:2396-2404`. -/
def bcsRelative (b : Build) (cpu : Mos6502 B) (am : Byte) : Res Operations := do
  let offset := am
  branchOnCase b cpu.ps.carry offset (Isa.offset .Bcs .Relative) (Isa.cycles .Bcs .Relative) cpu

/-- `Generate for Instruction<Beq, Relative>`,
`src/cpu/mos6502/operations/mod.rs:2408-2416`. -/
def beqRelative (b : Build) (cpu : Mos6502 B) (am : Byte) : Res Operations := do
  let offset := am
  branchOnCase b cpu.ps.zero offset (Isa.offset .Beq .Relative) (Isa.cycles .Beq .Relative) cpu

/-- `Generate for Instruction<Bmi, Relative>`,
`src/cpu/mos6502/operations/mod.rs:2420-2428`. -/
def bmiRelative (b : Build) (cpu : Mos6502 B) (am : Byte) : Res Operations := do
  let offset := am
  branchOnCase b cpu.ps.negative offset (Isa.offset .Bmi .Relative) (Isa.cycles .Bmi .Relative) cpu

/-- `Generate for Instruction<Bne, Relative>`,
`src/cpu/mos6502/operations/mod.rs:2432-2440`. -/
def bneRelative (b : Build) (cpu : Mos6502 B) (am : Byte) : Res Operations := do
  let offset := am
  branchOnCase b (!cpu.ps.zero) offset (Isa.offset .Bne .Relative) (Isa.cycles .Bne .Relative) cpu

/-- `Generate for Instruction<Bpl, Relative>`,
`src/cpu/mos6502/operations/mod.rs:2444-2452`. -/
def bplRelative (b : Build) (cpu : Mos6502 B) (am : Byte) : Res Operations := do
  let offset := am
  branchOnCase b (!cpu.ps.negative) offset (Isa.offset .Bpl .Relative) (Isa.cycles .Bpl .Relative)
      cpu

/-- `Generate for Instruction<Bvc, Relative>`,
`src/cpu/mos6502/operations/mod.rs:2456-2464`. -/
def bvcRelative (b : Build) (cpu : Mos6502 B) (am : Byte) : Res Operations := do
  let offset := am
  branchOnCase b (!cpu.ps.overflow) offset (Isa.offset .Bvc .Relative) (Isa.cycles .Bvc .Relative)
      cpu

/-- `Generate for Instruction<Bvs, Relative>`,
`src/cpu/mos6502/operations/mod.rs:2468-2476`. -/
def bvsRelative (b : Build) (cpu : Mos6502 B) (am : Byte) : Res Operations := do
  let offset := am
  branchOnCase b cpu.ps.overflow offset (Isa.offset .Bvs .Relative) (Isa.cycles .Bvs .Relative) cpu

end Verif.Mos
