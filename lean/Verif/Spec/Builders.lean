import Verif.Model.Mos.Cpu
import Verif.Model.Chip8.State

/-!
# Calls of the builder methods

A sequence of builder calls is a list; for each component of a CPU, the calls that name it.
-/

namespace Verif.Spec

open Verif

/-- A call of a builder method of the 6502. -/
inductive MosCall where
  | gp (r : Mos.GpRegister) (v : Byte)
  | sp (v : Byte)
  | pc (v : Word)
  | ps (v : Mos.ProcessorStatus)

/-- The call, executed. -/
def MosCall.exec {B : Type} (cpu : Mos.Mos6502 B) : MosCall → Mos.Mos6502 B
  | .gp r v => Mos.withGpRegister cpu r v
  | .sp v => Mos.withSpRegister cpu v
  | .pc v => Mos.withPcRegister cpu v
  | .ps v => Mos.withPsRegister cpu v

/-- The value the call gives to a general-purpose register, if it names it. -/
def MosCall.forGp (r : Mos.GpRegister) : MosCall → Option Byte
  | .gp r' v => if r' = r then some v else none
  | _ => none

/-- The value the call gives to the stack pointer, if it names it. -/
def MosCall.forSp : MosCall → Option Byte
  | .sp v => some v
  | _ => none

/-- The value the call gives to the program counter, if it names it. -/
def MosCall.forPc : MosCall → Option Word
  | .pc v => some v
  | _ => none

/-- The value the call gives to the processor status, if it names it. -/
def MosCall.forPs : MosCall → Option Mos.ProcessorStatus
  | .ps v => some v
  | _ => none

/-- The value a component has after a list of calls: that of the last call that names it, or the
old one. -/
def lastOr {C α : Type} (named : C → Option α) (calls : List C) (old : α) : α :=
  ((calls.filterMap named).getLast?).getD old

/-- A call of a builder method of the CHIP-8 (`with_rng` with a generator of the same type). -/
inductive Chip8Call (R : Type) where
  | pc (v : Word)
  | sp (v : Chip8.StackPointer)
  | timer (t : Chip8.TimerRegisters) (v : Chip8.ClockDecrementing)
  | i (v : Word)
  | gp (r : Chip8.GpRegisters) (v : Byte)
  | rng (v : R)
  | interrupt (v : Option Chip8.Interrupt)
  | display (f : Chip8.Display → Chip8.Display)

/-- The call, executed. -/
def Chip8Call.exec {B R : Type} (cpu : Chip8.Chip8 B R) : Chip8Call R → Res (Chip8.Chip8 B R)
  | .pc v => .ok (Chip8.withPcRegister cpu v)
  | .sp v => .ok (Chip8.withSpRegister cpu v)
  | .timer t v => .ok (Chip8.withTimerRegister cpu t v)
  | .i v => .ok (Chip8.withIRegister cpu v)
  | .gp r v => Chip8.withGpRegister cpu r v
  | .rng v => .ok (Chip8.withRng cpu v)
  | .interrupt v => .ok (Chip8.withInterrupt cpu v)
  | .display f => .ok (Chip8.withDisplay cpu f)

/-- The value the call gives to the program counter, if it names it. -/
def Chip8Call.forPc {R : Type} : Chip8Call R → Option Word
  | .pc v => some v
  | _ => none

/-- The value the call gives to the stack pointer, if it names it. -/
def Chip8Call.forSp {R : Type} : Chip8Call R → Option Chip8.StackPointer
  | .sp v => some v
  | _ => none

/-- The value the call gives to the delay timer, if it names it. -/
def Chip8Call.forDelay {R : Type} : Chip8Call R → Option Chip8.ClockDecrementing
  | .timer .Delay v => some v
  | _ => none

/-- The value the call gives to the sound timer, if it names it. -/
def Chip8Call.forSound {R : Type} : Chip8Call R → Option Chip8.ClockDecrementing
  | .timer .Sound v => some v
  | _ => none

/-- The value the call gives to I, if it names it. -/
def Chip8Call.forI {R : Type} : Chip8Call R → Option Word
  | .i v => some v
  | _ => none

/-- The value the call gives to a general-purpose register, if it names it. -/
def Chip8Call.forGp {R : Type} (r : Chip8.GpRegisters) : Chip8Call R → Option Byte
  | .gp r' v => if r' = r then some v else none
  | _ => none

/-- The generator the call installs, if it is `with_rng`. -/
def Chip8Call.forRng {R : Type} : Chip8Call R → Option R
  | .rng v => some v
  | _ => none

/-- The pending interrupt the call installs, if it is `with_interrupt`. -/
def Chip8Call.forInterrupt {R : Type} : Chip8Call R → Option (Option Chip8.Interrupt)
  | .interrupt v => some v
  | _ => none

/-- What the call does to the display. -/
def Chip8Call.onDisplay {R : Type} (d : Chip8.Display) : Chip8Call R → Chip8.Display
  | .display f => f d
  | _ => d

/-- The calls, one after the other. -/
def execCalls {B R : Type} : Chip8.Chip8 B R → List (Chip8Call R) → Res (Chip8.Chip8 B R)
  | cpu, [] => .ok cpu
  | cpu, c :: cs => c.exec cpu >>= fun cpu => execCalls cpu cs

end Verif.Spec
