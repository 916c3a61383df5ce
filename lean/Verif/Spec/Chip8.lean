import Verif.Spec.MosStack
import Verif.Model.Chip8.Cpu

/-!
# The documented CHIP-8

A specification of the instruction set that is independent of the emulator's code: the encoding
table as plain numbers, and the vocabulary in which the effects of the instructions are stated
(register values, memory as a function, the ordered list of memory writes). Only the data types of
the emulator are shared.
-/

namespace Verif.Spec.Chip8

open Verif Verif.Chip8
open Verif.Spec.Mos (Mem BusView writeAll)

/-- The number of a register: the hexadecimal digit in its name. -/
def num : GpRegisters → Nat
  | .V0 => 0x0
  | .V1 => 0x1
  | .V2 => 0x2
  | .V3 => 0x3
  | .V4 => 0x4
  | .V5 => 0x5
  | .V6 => 0x6
  | .V7 => 0x7
  | .V8 => 0x8
  | .V9 => 0x9
  | .Va => 0xa
  | .Vb => 0xb
  | .Vc => 0xc
  | .Vd => 0xd
  | .Ve => 0xe
  | .Vf => 0xf

/-- The number of a key: the hexadecimal digit in its name. -/
def keyNum : KeyInputValue → Nat
  | .Key0 => 0x0
  | .Key1 => 0x1
  | .Key2 => 0x2
  | .Key3 => 0x3
  | .Key4 => 0x4
  | .Key5 => 0x5
  | .Key6 => 0x6
  | .Key7 => 0x7
  | .Key8 => 0x8
  | .Key9 => 0x9
  | .KeyA => 0xa
  | .KeyB => 0xb
  | .KeyC => 0xc
  | .KeyD => 0xd
  | .KeyE => 0xe
  | .KeyF => 0xf

/-- The pattern `?nnn`. -/
def nnn (p : Nat) (a : U12) : Nat := p * 0x1000 + a.val.toNat

/-- The pattern `?xkk`. -/
def xkk (p : Nat) (x : GpRegisters) (kk : Byte) : Nat := p * 0x1000 + num x * 0x100 + kk.toNat

/-- The pattern `?xyn`. -/
def xyn (p : Nat) (x y : GpRegisters) (n : Nat) : Nat :=
  p * 0x1000 + num x * 0x100 + num y * 0x10 + n

/-- The documented encoding of each instruction. -/
def encode : Opcode → Nat
  | .Cls => 0x00E0
  | .Ret => 0x00EE
  | .Sys a => nnn 0x0 a
  | .JpNonV0Indexed a => nnn 0x1 a
  | .Call a => nnn 0x2 a
  | .SeImmediate x kk => xkk 0x3 x kk
  | .SneImmediate x kk => xkk 0x4 x kk
  | .SeVxVy x y => xyn 0x5 x y 0x0
  | .LdImmediate x kk => xkk 0x6 x kk
  | .AddImmediate x kk => xkk 0x7 x kk
  | .LdVxVy x y => xyn 0x8 x y 0x0
  | .Or x y => xyn 0x8 x y 0x1
  | .And x y => xyn 0x8 x y 0x2
  | .Xor x y => xyn 0x8 x y 0x3
  | .AddVxVy x y => xyn 0x8 x y 0x4
  | .Sub x y => xyn 0x8 x y 0x5
  | .Shr x y => xyn 0x8 x y 0x6
  | .Subn x y => xyn 0x8 x y 0x7
  | .Shl x y => xyn 0x8 x y 0xE
  | .SneVxVy x y => xyn 0x9 x y 0x0
  | .LdAbsolute a => nnn 0xA a
  | .JpV0Indexed a => nnn 0xB a
  | .Rnd x kk => xkk 0xC x kk
  | .Drw x y n => xyn 0xD x y n.toNat
  | .Skp x => xkk 0xE x 0x9E
  | .Sknp x => xkk 0xE x 0xA1
  | .LdDelayTimerSrcTx x => xkk 0xF x 0x07
  | .LdK x => xkk 0xF x 0x0A
  | .LdDelayTimerDestTx x => xkk 0xF x 0x15
  | .LdSoundTimerDestTx x => xkk 0xF x 0x18
  | .AddIRegisterIndexed x => xkk 0xF x 0x1E
  | .LdSpriteLocation x => xkk 0xF x 0x29
  | .LdBcd x => xkk 0xF x 0x33
  | .StoreRegistersToMemory x => xkk 0xF x 0x55
  | .ReadRegistersFromMemory x => xkk 0xF x 0x65

/-- The operands fit their fields, and a `SYS` is not one of the two words that mean `CLS` and
`RET`. -/
def Valid : Opcode → Prop
  | .Sys a => a.val.toNat < 0x1000 ∧ a.val.toNat ≠ 0x0E0 ∧ a.val.toNat ≠ 0x0EE
  | .JpNonV0Indexed a | .Call a | .LdAbsolute a | .JpV0Indexed a => a.val.toNat < 0x1000
  | .Drw _ _ n => n.toNat < 16
  | _ => True

/-- The value of a register; VF, which the emulator lacks, counts as 0. -/
def V {B R : Type} (cpu : Chip8 B R) (r : GpRegisters) : Byte :=
  cpu.gp_registers[num r]?.getD 0

/-- The state with one register replaced (VF, which the emulator lacks: no change). -/
def setV {B R : Type} (cpu : Chip8 B R) (r : GpRegisters) (v : Byte) : Chip8 B R :=
  { cpu with gp_registers := cpu.gp_registers.setIfInBounds (num r) v }

/-- The state with the program counter moved on by `n` (modulo 65536). -/
def advance {B R : Type} (cpu : Chip8 B R) (n : Nat) : Chip8 B R :=
  { cpu with pc := BitVec.ofNat 16 (cpu.pc.toNat + n) }

/-- The instruction at `pc` is `op`: this is what the fetch of the emulator finds. -/
def At {B R : Type} [Addressable B] (b : Build) (cpu : Chip8 B R) (op : Opcode) : Prop :=
  fetch b cpu = .ok op

/-- One step of the emulator (`run(1)`) gives a ready CPU in the state `cpu'`. -/
def StepsTo {B R : Type} [Addressable B] (b : Build) (e : Env) (cpu cpu' : Chip8 B R) : Prop :=
  run b (fun _ => e) cpu 1 = .ok (.ready cpu')

/-- One step of the emulator (`run(1)`) writes the bytes `ws` to the bus, in this order, and
otherwise gives the state `cpu'`; or it panics because the bus refuses one of the writes. -/
def StepWrites {B R : Type} [Addressable B] (b : Build) (e : Env) (cpu cpu' : Chip8 B R)
    (ws : List (Word × Byte)) : Prop :=
  run b (fun _ => e) cpu 1 =
    (writeAll b cpu.address_space ws).map fun bus => .ready { cpu' with address_space := bus }

/-- One step of the emulator (`run(1)`) panics. -/
def StepPanics {B R : Type} [Addressable B] (b : Build) (e : Env) (cpu : Chip8 B R) : Prop :=
  ∃ p, run b (fun _ => e) cpu 1 = .error p

/-- What a timer shows at the instant `now` (in nanoseconds): its value less the whole seconds since
it was written, and not less than 0. -/
def timerAt (t : ClockDecrementing) (now : Instant) : Byte :=
  BitVec.ofNat 8 (t.inner.toNat - (now - t.written_at) / 1000000000)

/-- A key is held down. -/
def Pressed {B R : Type} (cpu : Chip8 B R) (n : Nat) : Prop :=
  ∃ key, cpu.interrupt = some (.KeyPress key) ∧ keyNum key = n

instance {B R : Type} (cpu : Chip8 B R) (n : Nat) : Decidable (Pressed cpu n) :=
  match h : cpu.interrupt with
  | none => .isFalse (by rintro ⟨key, hk, -⟩; rw [h] at hk; cases hk)
  | some (.KeyPress key) =>
    if hk : keyNum key = n then .isTrue ⟨key, h, hk⟩
    else .isFalse (by rintro ⟨key', hk', rfl⟩; rw [h] at hk'; cases hk'; exact hk rfl)

/-- Pixel `(x, y)` of a display is lit; there are no pixels outside 64 by 32. -/
def lit (d : Display) (x y : Nat) : Bool :=
  if h : x < 64 ∧ y < 32 then (d.inner[y]'h.2)[x]'h.1 else false

/-- The stack has 16 cells. `Chip8` offers no way to change that. -/
def WellFormed {B R : Type} (cpu : Chip8 B R) : Prop :=
  cpu.stack.capacity = 16 ∧ cpu.stack.inner.length = 16

/-- The instruction uses the register VF, which the emulator lacks. -/
def UsesVf {B R : Type} (cpu : Chip8 B R) : Opcode → Prop
  | .AddVxVy _ _ | .Sub _ _ | .Subn _ _ | .Shl _ _ | .Shr _ _ | .Drw _ _ _ => True
  | .LdImmediate x _ | .AddImmediate x _ | .Rnd x _ | .SeImmediate x _ | .SneImmediate x _
  | .Skp x | .Sknp x | .LdDelayTimerSrcTx x | .LdDelayTimerDestTx x | .LdSoundTimerDestTx x
  | .AddIRegisterIndexed x | .LdSpriteLocation x | .LdBcd x | .StoreRegistersToMemory x
  | .ReadRegistersFromMemory x => x = .Vf
  | .LdVxVy x y | .Or x y | .And x y | .Xor x y | .SeVxVy x y | .SneVxVy x y => x = .Vf ∨ y = .Vf
  | .LdK x => x = .Vf ∧ cpu.interrupt ≠ none
  | .Cls | .Ret | .Sys _ | .Call _ | .JpNonV0Indexed _ | .JpV0Indexed _ | .LdAbsolute _ => False

/-- An address or a product of the instruction does not fit its type. -/
def Overflows {B R : Type} (cpu : Chip8 B R) : Opcode → Prop
  | .LdBcd _ => 65536 ≤ cpu.i.toNat + 2
  | .StoreRegistersToMemory x | .ReadRegistersFromMemory x => 65536 ≤ cpu.i.toNat + num x
  | .LdSpriteLocation x => 256 ≤ (V cpu x).toNat * 5
  | _ => False

/-- How many bytes beyond I an instruction writes: it writes I to I + n; `none`: it writes nothing. -/
def memSpan : Opcode → Option Nat
  | .LdBcd _ => some 2
  | .StoreRegistersToMemory x => some (num x)
  | _ => none

/-- The address `I + k`, modulo 65536. -/
def iPlus {B R : Type} (cpu : Chip8 B R) (k : Nat) : Word := BitVec.ofNat 16 (cpu.i.toNat + k)

/-- The two bytes at `pc` as a number, most significant byte first. -/
def wordAt (mem : Mem) (pc : Word) : Nat := (mem pc).toNat * 256 + (mem (pc + 1)).toNat

end Verif.Spec.Chip8
