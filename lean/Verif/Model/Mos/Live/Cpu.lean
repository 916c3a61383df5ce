import Verif.Model.Mos.Live.Generate
import Verif.Model.Mos.Cpu

/-!
# `src/cpu/mos6502/mod.rs` on live devices: reset, microcode execution, the iterator and `run`

The functions of `Verif.Model.Mos.Cpu` once more, with every call of the bus kept as a call.
-/

namespace Verif.Mos.Live

open Verif Verif.Live

/-- `ExecuteMut<WriteMemory>`, `src/cpu/mos6502/mod.rs:327-331`. -/
def writeMemory (cpu : Mos6502 Copy) (addr : Word) (value : Byte) : Bus (Mos6502 Copy) := do
  let r ← Bus.put cpu.address_map addr value
  let _ ← unwrapResult r
  pure cpu

/-- `ExecuteMut<Microcode>`, `src/cpu/mos6502/mod.rs:294-325` and `:432-450`. -/
def executeMut (cpu : Mos6502 Copy) : Microcode → Bus (Mos6502 Copy)
  | .WriteMemory addr value => writeMemory cpu addr value
  | .SetProgramStatusFlagState flag value => pure (setFlag cpu flag value)
  | .Write8bitRegister reg value => pure (write8 cpu reg value)
  | .Inc8bitRegister reg value => pure (inc8 cpu reg value)
  | .Dec8bitRegister reg value => pure (dec8 cpu reg value)
  | .Write16bitRegister .Pc value => pure { cpu with pc := value }
  | .Inc16bitRegister .Pc value => pure { cpu with pc := cpu.pc + value }
  | .Dec16bitRegister .Pc value => pure { cpu with pc := cpu.pc - value }

/-- Executing a list of microcode in order, `src/cpu/mos6502/mod.rs:273-275` and `:225`. -/
def executeAll : List Microcode → Mos6502 Copy → Bus (Mos6502 Copy)
  | [], cpu => pure cpu
  | mc :: mcs, cpu => do
    let cpu' ← executeMut cpu mc
    executeAll mcs cpu'

/-- Instruction fetch, `src/cpu/mos6502/mod.rs:259-268`. -/
def fetch (b : Build) (cpu : Mos6502 Copy) : Bus InstructionVariant := do
  let b0 ← Bus.get cpu.address_map cpu.pc
  let pc1 ← addU16 b cpu.pc 1
  let b1 ← Bus.get cpu.address_map pc1
  let pc2 ← addU16 b cpu.pc 2
  let b2 ← Bus.get cpu.address_map pc2
  match Isa.parseInstruction b0 b1 b2 with
  | some i => pure i
  | none => .done (.error (.unwrapErr s!"No match found for {b0.toNat}"))

/-- `<Mos6502IntoIterator as Iterator>::next`, `src/cpu/mos6502/mod.rs:258-278`. -/
def next (b : Build) (cpu : Mos6502 Copy) : Bus (Operations × Mos6502 Copy) := do
  let oper ← fetch b cpu
  let mops ← generate b cpu oper
  let microcode_steps ← mops.intoSteps b
  let cpu' ← executeAll microcode_steps.flatten cpu
  pure (mops, cpu')

/-- The iterator chain of `Mos6502::run`, `src/cpu/mos6502/mod.rs:218-226`, as in
`Verif.Mos.runLoop`. -/
def runLoop (b : Build) : Nat → Mos6502 Copy → List (List Microcode) → Mos6502 Copy →
    Bus (Mos6502 Copy)
  | 0, _, _, cpu => pure cpu
  | n + 1, it, step :: rest, cpu => do
    let cpu' ← executeAll step cpu
    runLoop b n it rest cpu'
  | n + 1, it, [], cpu => do
    let (mops, it') ← next b it
    let steps ← mops.intoSteps b
    match steps with
    | step :: rest => do
      let cpu' ← executeAll step cpu
      runLoop b n it' rest cpu'
    | [] => pure cpu -- not reachable: `intoSteps` never yields an empty list

/-- `Mos6502::run`, `src/cpu/mos6502/mod.rs:217-228`; the iterator works on a clone of the CPU, with
its own clone of the bus. -/
def run (b : Build) (cpu : Mos6502 Copy) (cycles : Nat) : Bus (StepState (Mos6502 Copy)) := do
  let state ← runLoop b cycles { cpu with address_map := .iterator } [] cpu
  pure (StepState.ofState state)

/-- `Mos6502::reset`, `src/cpu/mos6502/mod.rs:105-113`. -/
def reset (self : Mos6502 Copy) : Bus (StepState (Mos6502 Copy)) := do
  let cpu := withAddressmap self.address_map
  let lsb ← Bus.get cpu.address_map RESET_VECTOR_LL
  let msb ← Bus.get cpu.address_map RESET_VECTOR_HH
  pure (StepState.new 6 { cpu with pc := u16FromLeBytes lsb msb, sp := defaultSp })

end Verif.Mos.Live
