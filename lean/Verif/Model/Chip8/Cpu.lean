import Verif.Model.Memory
import Verif.Model.StepState
import Verif.Model.Chip8.Operations

/-!
# `src/cpu/chip8/mod.rs`: default state, microcode execution, the iterator and `run`
-/

namespace Verif.Chip8

open Verif

/-- `RESET_PC_VECTOR`, `src/cpu/chip8/mod.rs:126`. -/
def resetPcVector : Word := 0x200

/-- `Default for Chip8`, `src/cpu/chip8/mod.rs:261-287`, at the clock instant `now` (the two calls
of `Instant::now` are taken to give the same instant); `Chip8::reset`, lines 256-258, is the same.
`rng` is `R::default()`. -/
def defaultCpu {R : Type} (b : Build) (now : Instant) (rng : R) :
    Res (Chip8 (AddressMap Memory) R) := do
  let low ← Memory.new b .readWrite 0 0x1ff
  let am₁ ← unwrapResult (AddressMap.new.register ⟨0, 0x1ff⟩ low)
  let high ← Memory.new b .readWrite 0x200 0xfff
  let am₂ ← unwrapResult (am₁.register ⟨0x200, 0xfff⟩ high)
  .ok {
    stack := Ring.new 16
    address_space := am₂
    dt := ClockDecrementing.default now
    st := ClockDecrementing.default now
    pc := resetPcVector
    sp := StackPointer.default
    i := 0
    gp_registers := Vector.replicate 15 0
    display := Display.default
    interrupt := none
    rng := rng }

variable {B R : Type}

/-- `ExecuteMut<WriteMemory>`, `src/cpu/chip8/mod.rs:421-425`. -/
def writeMemory [Addressable B] (b : Build) (cpu : Chip8 B R) (addr : Word) (value : Byte) : Res (Chip8 B R) := do
  let (r, am) ← Addressable.write b cpu.address_space addr value
  let _ ← unwrapResult r
  .ok { cpu with address_space := am }

/-- `ExecuteMut<Write8bitRegister>`, `src/cpu/chip8/mod.rs:427-443`. -/
def write8 (now : Instant) (cpu : Chip8 B R) (reg : ByteRegisters) (value : Byte) :
    Res (Chip8 B R) :=
  match reg with
  | .GpRegisters gpr => do
    let gp ← setGp cpu.gp_registers gpr value
    .ok { cpu with gp_registers := gp }
  | .TimerRegisters .Delay => .ok { cpu with dt := ClockDecrementing.withValue now value }
  | .TimerRegisters .Sound => .ok { cpu with st := ClockDecrementing.withValue now value }

/-- `ExecuteMut<Inc8bitRegister>`, `src/cpu/chip8/mod.rs:445-467`. No instruction increments a
timer; the instant of the read is taken to be that of the write. -/
def inc8 (b : Build) (now : Instant) (cpu : Chip8 B R) (reg : ByteRegisters) (value : Byte) :
    Res (Chip8 B R) :=
  match reg with
  | .GpRegisters gpr => do
    let cpu_reg_value ← readGpRegister cpu gpr
    let new_val := cpu_reg_value + value
    let gp ← setGp cpu.gp_registers gpr new_val
    .ok { cpu with gp_registers := gp }
  | .TimerRegisters .Delay => do
    let cpu_reg_value ← cpu.dt.read b now
    .ok { cpu with dt := ClockDecrementing.withValue now (cpu_reg_value + value) }
  | .TimerRegisters .Sound => do
    let cpu_reg_value ← cpu.st.read b now
    .ok { cpu with st := ClockDecrementing.withValue now (cpu_reg_value + value) }

/-- `ExecuteMut<PushStack>`, `src/cpu/chip8/mod.rs:505-517`. `StackPointer` is `Copy` and
`Register::write(self, value) -> Self` returns the new register: the statement `self.sp.write(sp);`
computes it and drops it, so `self.sp` keeps its value. -/
def pushStack (cpu : Chip8 B R) (value : Word) : Res (Chip8 B R) := do
  let sp := cpu.sp.read + 1
  let _ := cpu.sp.write sp
  let (r, stack) ← cpu.stack.write cpu.sp.read.toNat value
  let _ ← unwrapResult r
  .ok { cpu with stack := stack }

/-- `ExecuteMut<PopStack>`, `src/cpu/chip8/mod.rs:519-525`; the new register is dropped as in
`pushStack`. -/
def popStack (cpu : Chip8 B R) : Chip8 B R :=
  let sp := cpu.sp.read - 1
  let _ := cpu.sp.write sp
  cpu

/-- `ExecuteMut<SetDisplayRange>`, `src/cpu/chip8/mod.rs:546-566`, on a 64-bit target. -/
def setDisplayRange (b : Build) (cpu : Chip8 B R) (start stop : Nat × Nat) (value : Bool) :
    Res (Chip8 B R) := do
  let rows_before ← mulUsize b start.2 Display.xMax
  let start_offset ← addUsize b rows_before start.1
  let dy ← subUsize b stop.2 start.2
  let rows ← mulUsize b dy Display.xMax
  let dx ← subUsize b stop.1 start.1
  let last ← addUsize b rows dx
  let modified ← addUsize b last 1
  .ok { cpu with display := cpu.display.fillRange start_offset modified value }

/-- `ExecuteMut<Microcode>`, `src/cpu/chip8/mod.rs:380-419`, with the impls of lines 469-503 and
527-544 inlined. `now` is the clock when the microcode runs. -/
def executeMut [Addressable B] (b : Build) (now : Instant) (cpu : Chip8 B R) : Microcode → Res (Chip8 B R)
  | .WriteMemory addr value => writeMemory b cpu addr value
  | .Write8bitRegister reg value => write8 now cpu reg value
  | .Inc8bitRegister reg value => inc8 b now cpu reg value
  | .Dec8bitRegister _ _ => .ok cpu
  | .Write16bitRegister .I value => .ok { cpu with i := value }
  | .Write16bitRegister .ProgramCounter value => .ok { cpu with pc := value }
  | .Inc16bitRegister .I value => .ok { cpu with i := cpu.i + value }
  | .Inc16bitRegister .ProgramCounter value => .ok { cpu with pc := cpu.pc + value }
  | .Dec16bitRegister _ _ => .ok cpu
  | .PushStack value => pushStack cpu value
  | .PopStack _ => .ok (popStack cpu)
  | .KeyPress key => .ok { cpu with interrupt := some (.KeyPress key) }
  | .KeyRelease => .ok { cpu with interrupt := none }
  | .SetDisplayPixel (x, y) value => .ok { cpu with display := (cpu.display.writePixel x y value).1 }
  | .SetDisplayRange start stop value => setDisplayRange b cpu start stop value

/-- The folds `fold(cpu, |cpu, mc| mc.execute(cpu))` of `src/cpu/chip8/mod.rs:299` and `:359-361`. -/
def executeAll [Addressable B] (b : Build) (now : Instant) : Chip8 B R → List Microcode → Res (Chip8 B R)
  | cpu, [] => .ok cpu
  | cpu, mc :: mcs => do
    let cpu ← executeMut b now cpu mc
    executeAll b now cpu mcs

/-- The fetch and decode of `Chip8IntoIterator::next`, `src/cpu/chip8/mod.rs:340-347`. -/
def fetch [Addressable B] (b : Build) (cpu : Chip8 B R) : Res Opcode := do
  let pc := cpu.pc
  let b0 ← Addressable.read b cpu.address_space pc
  let pc1 ← addU16 b pc 1
  let b1 ← Addressable.read b cpu.address_space pc1
  let r ← decodeBytesToOpcode b0 b1
  unwrapResult r

/-- `<Chip8IntoIterator as Iterator>::next`, `src/cpu/chip8/mod.rs:338-364`: the emitted microcode
and the iterator's next state. -/
def next [Addressable B] (b : Build) (e : Env) (state : Chip8 B R) : Res (List Microcode × Chip8 B R) := do
  let ops ← fetch b state
  let mcs ← generate b e state ops
  let microcode_steps := mcs ++ [.Inc16bitRegister .ProgramCounter 2]
  let state ← executeAll b e.iterAt state microcode_steps
  .ok (microcode_steps, state)

/-- The loop of `run`, `src/cpu/chip8/mod.rs:294-299`: `it` is the iterator's copy of the CPU,
`cpu` the accumulator of the fold; `take(n)` ends after `n` instructions and `flatten` asks for the
next instruction when the microcode of the last one has been folded. `env k` is what the world
answers during iteration `k`. -/
def runLoop [Addressable B] (b : Build) (env : Nat → Env) : Nat → Nat → Chip8 B R → Chip8 B R → Res (Chip8 B R)
  | 0, _, _, cpu => .ok cpu
  | n + 1, k, it, cpu => do
    let (mcs, it) ← next b (env k) it
    let cpu ← executeAll b (env k).foldAt cpu mcs
    runLoop b env n (k + 1) it cpu

/-- `Chip8::run`, `src/cpu/chip8/mod.rs:293-301`. -/
def run [Addressable B] (b : Build) (env : Nat → Env) (cpu : Chip8 B R) (cycles : Nat) :
    Res (StepState (Chip8 B R)) := do
  let state ← runLoop b env cycles 0 cpu cpu
  .ok (StepState.ofState state)

end Verif.Chip8
