import Verif.Model.Chip8.Cpu
import Verif.Model.Chip8.Live.Operations

/-!
# `src/cpu/chip8/mod.rs` on live devices: microcode execution, the iterator and `run`

The functions of `Verif.Model.Chip8.Cpu` once more, with every call of the bus kept as a call.
-/

namespace Verif.Chip8.Live

open Verif Verif.Live

variable {R : Type}

/-- `ExecuteMut<WriteMemory>`, `src/cpu/chip8/mod.rs:421-425`. -/
def writeMemory (cpu : Chip8 Copy R) (addr : Word) (value : Byte) : Bus (Chip8 Copy R) := do
  let r ← Bus.put cpu.address_space addr value
  let _ ← unwrapResult r
  pure cpu

/-- `ExecuteMut<Microcode>`, `src/cpu/chip8/mod.rs:380-419`, with the impls of lines 469-503 and
527-544 inlined. -/
def executeMut (b : Build) (now : Instant) (cpu : Chip8 Copy R) : Microcode → Bus (Chip8 Copy R)
  | .WriteMemory addr value => writeMemory cpu addr value
  | .Write8bitRegister reg value => write8 now cpu reg value
  | .Inc8bitRegister reg value => inc8 b now cpu reg value
  | .Dec8bitRegister _ _ => pure cpu
  | .Write16bitRegister .I value => pure { cpu with i := value }
  | .Write16bitRegister .ProgramCounter value => pure { cpu with pc := value }
  | .Inc16bitRegister .I value => pure { cpu with i := cpu.i + value }
  | .Inc16bitRegister .ProgramCounter value => pure { cpu with pc := cpu.pc + value }
  | .Dec16bitRegister _ _ => pure cpu
  | .PushStack value => pushStack cpu value
  | .PopStack _ => pure (popStack cpu)
  | .KeyPress key => pure { cpu with interrupt := some (.KeyPress key) }
  | .KeyRelease => pure { cpu with interrupt := none }
  | .SetDisplayPixel (x, y) value => pure { cpu with display := (cpu.display.writePixel x y value).1 }
  | .SetDisplayRange start stop value => setDisplayRange b cpu start stop value

/-- The folds of `src/cpu/chip8/mod.rs:299` and `:359-361`. -/
def executeAll (b : Build) (now : Instant) : Chip8 Copy R → List Microcode → Bus (Chip8 Copy R)
  | cpu, [] => pure cpu
  | cpu, mc :: mcs => do
    let cpu ← executeMut b now cpu mc
    executeAll b now cpu mcs

/-- The fetch and decode of `Chip8IntoIterator::next`, `src/cpu/chip8/mod.rs:340-347`. -/
def fetch (b : Build) (cpu : Chip8 Copy R) : Bus Opcode := do
  let pc := cpu.pc
  let b0 ← Bus.get cpu.address_space pc
  let pc1 ← addU16 b pc 1
  let b1 ← Bus.get cpu.address_space pc1
  let r ← decodeBytesToOpcode b0 b1
  unwrapResult r

/-- `<Chip8IntoIterator as Iterator>::next`, `src/cpu/chip8/mod.rs:338-364`. -/
def next (b : Build) (e : Env) (state : Chip8 Copy R) : Bus (List Microcode × Chip8 Copy R) := do
  let ops ← fetch b state
  let mcs ← generate b e state ops
  let microcode_steps := mcs ++ [.Inc16bitRegister .ProgramCounter 2]
  let state ← executeAll b e.iterAt state microcode_steps
  pure (microcode_steps, state)

/-- The loop of `run`, `src/cpu/chip8/mod.rs:294-299`, as in `Verif.Chip8.runLoop`. -/
def runLoop (b : Build) (env : Nat → Env) : Nat → Nat → Chip8 Copy R → Chip8 Copy R → Bus (Chip8 Copy R)
  | 0, _, _, cpu => pure cpu
  | n + 1, k, it, cpu => do
    let (mcs, it) ← next b (env k) it
    let cpu ← executeAll b (env k).foldAt cpu mcs
    runLoop b env n (k + 1) it cpu

/-- `Chip8::run`, `src/cpu/chip8/mod.rs:293-301`; the iterator works on a clone of the CPU, with its
own clone of the bus. -/
def run (b : Build) (env : Nat → Env) (cpu : Chip8 Copy R) (cycles : Nat) :
    Bus (StepState (Chip8 Copy R)) := do
  let state ← runLoop b env cycles 0 { cpu with address_space := .iterator } cpu
  pure (StepState.ofState state)

end Verif.Chip8.Live
