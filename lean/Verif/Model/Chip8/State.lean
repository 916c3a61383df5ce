import Verif.Model.AddressMap
import Verif.Model.Chip8.U12
import Verif.Model.Chip8.Ring
import Verif.Model.Chip8.Display
import Verif.Model.Chip8.Register

/-!
# The `Chip8` struct, its builders, and the microcode

The random generator is an opaque handle of type `R`: what its `random` method answers, and what
the clock shows, is given to each step from outside (`Env`).
-/

namespace Verif.Chip8

open Verif

/-- `KeyInputValue`, `src/cpu/chip8/mod.rs:105-123`. -/
inductive KeyInputValue where
  | Key0 | Key1 | Key2 | Key3 | Key4 | Key5 | Key6 | Key7
  | Key8 | Key9 | KeyA | KeyB | KeyC | KeyD | KeyE | KeyF
  deriving DecidableEq, Repr

/-- `key as u8` (the declaration order, `src/cpu/chip8/mod.rs:105-123`). -/
def KeyInputValue.asU8 : KeyInputValue → Byte
  | Key0 => 0
  | Key1 => 1
  | Key2 => 2
  | Key3 => 3
  | Key4 => 4
  | Key5 => 5
  | Key6 => 6
  | Key7 => 7
  | Key8 => 8
  | Key9 => 9
  | KeyA => 10
  | KeyB => 11
  | KeyC => 12
  | KeyD => 13
  | KeyE => 14
  | KeyF => 15

/-- `Interrupt`, `src/cpu/chip8/mod.rs:97-101`. -/
inductive Interrupt where
  | KeyPress (key : KeyInputValue)
  deriving DecidableEq, Repr

/-- `Microcode`, `src/cpu/chip8/microcode.rs:6-47`. -/
inductive Microcode where
  | WriteMemory (addr : Word) (value : Byte)
  | Write8bitRegister (reg : ByteRegisters) (value : Byte)
  | Inc8bitRegister (reg : ByteRegisters) (value : Byte)
  | Dec8bitRegister (reg : ByteRegisters) (value : Byte)
  | Write16bitRegister (reg : WordRegisters) (value : Word)
  | Inc16bitRegister (reg : WordRegisters) (value : Word)
  | Dec16bitRegister (reg : WordRegisters) (value : Word)
  | PushStack (value : Word)
  | PopStack (value : Word)
  | KeyPress (key : KeyInputValue)
  | KeyRelease
  | SetDisplayPixel (coord : Nat × Nat) (value : Bool)
  | SetDisplayRange (start : Nat × Nat) (stop : Nat × Nat) (value : Bool)
  deriving DecidableEq, Repr

/-- `Chip8<R>`, `src/cpu/chip8/mod.rs:128-142`. The bus is a type parameter `B` (in the code an
`AddressMap<u16, u8>`), as for the 6502. The array of general purpose registers has 15 elements. -/
structure Chip8 (B R : Type) where
  stack : Ring Word
  address_space : B
  dt : ClockDecrementing
  st : ClockDecrementing
  pc : Word
  sp : StackPointer
  i : Word
  gp_registers : Vector Byte 15
  display : Display
  interrupt : Option Interrupt
  rng : R
  deriving DecidableEq

/-- What the outside world answers during one iteration of the emulator loop, `src/cpu/chip8/mod.rs:338-364`
and `:299`. One instruction asks
for at most one random byte, reads at most one timer and writes at most one timer; the timer write
is executed twice, by the iterator on its own copy of the CPU and by the fold of `run`. -/
structure Env where
  /-- the answer of `rng.random()` -/
  rand : Byte
  /-- the clock when `generate` reads a timer -/
  readAt : Instant
  /-- the clock when the iterator executes a timer write on its own copy -/
  iterAt : Instant
  /-- the clock when `run` executes that timer write on the CPU it returns -/
  foldAt : Instant
  deriving DecidableEq, Repr

section Builders

variable {B R : Type}

/-- `Chip8::with_pc_register`, `src/cpu/chip8/mod.rs:145-148`. -/
def withPcRegister (cpu : Chip8 B R) (reg : Word) : Chip8 B R := { cpu with pc := reg }

/-- `Chip8::with_sp_register`, `src/cpu/chip8/mod.rs:150-153`. -/
def withSpRegister (cpu : Chip8 B R) (reg : StackPointer) : Chip8 B R := { cpu with sp := reg }

/-- `Chip8::with_timer_register`, `src/cpu/chip8/mod.rs:155-165`. -/
def withTimerRegister (cpu : Chip8 B R) (reg_type : TimerRegisters) (reg : ClockDecrementing) :
    Chip8 B R :=
  match reg_type with
  | .Sound => { cpu with st := reg }
  | .Delay => { cpu with dt := reg }

/-- `Chip8::with_i_register`, `src/cpu/chip8/mod.rs:167-170`. -/
def withIRegister (cpu : Chip8 B R) (reg : Word) : Chip8 B R := { cpu with i := reg }

/-- `self.gp_registers[reg as usize] = value`, `src/cpu/chip8/mod.rs:177` and `:433`: an array index, bounds checked at run time. -/
def setGp (gp : Vector Byte 15) (reg : GpRegisters) (value : Byte) : Res (Vector Byte 15) :=
  if h : reg.asUsize < 15 then .ok (gp.set reg.asUsize value h) else .error .bounds

/-- `Chip8::with_gp_register`, `src/cpu/chip8/mod.rs:172-179`. -/
def withGpRegister (cpu : Chip8 B R) (reg_type : GpRegisters) (reg : Byte) : Res (Chip8 B R) := do
  let gp ← setGp cpu.gp_registers reg_type reg
  .ok { cpu with gp_registers := gp }

/-- `Chip8::read_gp_register`, `src/cpu/chip8/mod.rs:183-189`: `get(..).unwrap()`. -/
def readGpRegister (cpu : Chip8 B R) (reg : GpRegisters) : Res Byte :=
  match cpu.gp_registers[reg.asUsize]? with
  | some v => .ok v
  | none => .error .unwrapNone

/-- `Chip8::with_rng`, `src/cpu/chip8/mod.rs:192-206`. -/
def withRng {NR : Type} (cpu : Chip8 B R) (rng : NR) : Chip8 B NR where
  stack := cpu.stack
  address_space := cpu.address_space
  dt := cpu.dt
  st := cpu.st
  pc := cpu.pc
  sp := cpu.sp
  i := cpu.i
  gp_registers := cpu.gp_registers
  display := cpu.display
  interrupt := cpu.interrupt
  rng := rng

/-- `Chip8::with_interrupt`, `src/cpu/chip8/mod.rs:210-227`; the closure is its result. -/
def withInterrupt (cpu : Chip8 B R) (f : Option Interrupt) : Chip8 B R where
  stack := cpu.stack
  address_space := cpu.address_space
  dt := cpu.dt
  st := cpu.st
  pc := cpu.pc
  sp := cpu.sp
  i := cpu.i
  gp_registers := cpu.gp_registers
  display := cpu.display
  interrupt := f
  rng := cpu.rng

/-- `Chip8::with_display`, `src/cpu/chip8/mod.rs:231-248`. -/
def withDisplay (cpu : Chip8 B R) (f : Display → Display) : Chip8 B R where
  stack := cpu.stack
  address_space := cpu.address_space
  dt := cpu.dt
  st := cpu.st
  pc := cpu.pc
  sp := cpu.sp
  i := cpu.i
  gp_registers := cpu.gp_registers
  display := f cpu.display
  interrupt := none
  rng := cpu.rng

end Builders

end Verif.Chip8
