import Verif.Model.Rust

/-!
# `src/cpu/chip8/register.rs`

`GeneralPurpose<T>` (lines 78-97) and `ProgramCounter` (lines 145-161) only wrap a value; they are
modelled by the value itself.
-/

namespace Verif.Chip8

open Verif

/-- `GpRegisters`, `src/cpu/chip8/register.rs:18-35`. -/
inductive GpRegisters where
  | V0 | V1 | V2 | V3 | V4 | V5 | V6 | V7 | V8 | V9 | Va | Vb | Vc | Vd | Ve | Vf
  deriving DecidableEq, Repr

/-- `TimerRegisters`, `src/cpu/chip8/register.rs:72-76`. -/
inductive TimerRegisters where
  | Sound
  | Delay
  deriving DecidableEq, Repr

/-- `ByteRegisters`, `src/cpu/chip8/register.rs:3-7`. -/
inductive ByteRegisters where
  | GpRegisters (reg : GpRegisters)
  | TimerRegisters (reg : TimerRegisters)
  deriving DecidableEq, Repr

/-- `WordRegisters`, `src/cpu/chip8/register.rs:9-13`. -/
inductive WordRegisters where
  | I
  | ProgramCounter
  deriving DecidableEq, Repr

namespace GpRegisters

/-- `reg as usize` (the declaration order, `src/cpu/chip8/register.rs:18-35`). -/
def asUsize : GpRegisters → Nat
  | V0 => 0
  | V1 => 1
  | V2 => 2
  | V3 => 3
  | V4 => 4
  | V5 => 5
  | V6 => 6
  | V7 => 7
  | V8 => 8
  | V9 => 9
  | Va => 10
  | Vb => 11
  | Vc => 12
  | Vd => 13
  | Ve => 14
  | Vf => 15

/-- `From<GpRegisters> for u8`, `src/cpu/chip8/register.rs:37-42` (the unwrapped conversion cannot
fail for numbers below 16). -/
def toU8 (r : GpRegisters) : Byte := BitVec.ofNat 8 r.asUsize

/-- `TryFrom<u8> for GpRegisters`, `src/cpu/chip8/register.rs:44-68`. -/
def tryFrom (src : Byte) : Except String GpRegisters :=
  match src.toNat with
  | 0x0 => .ok V0
  | 0x1 => .ok V1
  | 0x2 => .ok V2
  | 0x3 => .ok V3
  | 0x4 => .ok V4
  | 0x5 => .ok V5
  | 0x6 => .ok V6
  | 0x7 => .ok V7
  | 0x8 => .ok V8
  | 0x9 => .ok V9
  | 0xa => .ok Va
  | 0xb => .ok Vb
  | 0xc => .ok Vc
  | 0xd => .ok Vd
  | 0xe => .ok Ve
  | 0xf => .ok Vf
  | _ => .error "value is outside the bounds of a u4."

end GpRegisters

/-- `std::time::Instant`, `src/cpu/chip8/register.rs:103`: nanoseconds since some origin. -/
abbrev Instant := Nat

/-- `ClockDecrementing`, `src/cpu/chip8/register.rs:99-105`. The clock is not part of the state:
functions that look at it take the instant as the argument `now`. -/
structure ClockDecrementing where
  written_at : Instant
  inner : Byte
  deriving DecidableEq, Repr

namespace ClockDecrementing

/-- `written_at.elapsed().as_secs()`, `src/cpu/chip8/register.rs:110`: `elapsed` is 0 if the clock is behind the stored instant. -/
def elapsedSecs (r : ClockDecrementing) (now : Instant) : Nat := (now - r.written_at) / 1000000000

/-- `<ClockDecrementing as Register>::read`, `src/cpu/chip8/register.rs:108-119`: the `u64` number
of seconds is converted to `u8` (a panic if it does not fit) and subtracted (a panic in a checked
build if it is larger). -/
def read (b : Build) (r : ClockDecrementing) (now : Instant) : Res Byte :=
  let v := r.inner
  let seconds_since_write := r.elapsedSecs now
  if v.toNat > seconds_since_write then
    if seconds_since_write < 256 then subU8 b v (BitVec.ofNat 8 seconds_since_write)
    else .error (.unwrapErr "TryFromIntError")
  else .ok 0

/-- `<ClockDecrementing as Register>::with_value`, `src/cpu/chip8/register.rs:128-133`; `write`,
lines 121-126, has the same body and drops the old register. -/
def withValue (now : Instant) (value : Byte) : ClockDecrementing := ⟨now, value⟩

/-- `Default for ClockDecrementing`, `src/cpu/chip8/register.rs:136-143`. -/
def default (now : Instant) : ClockDecrementing := ⟨now, 0⟩

end ClockDecrementing

/-- `StackPointer`, `src/cpu/chip8/register.rs:163-166`. -/
structure StackPointer where
  inner : Byte
  deriving DecidableEq, Repr

namespace StackPointer

/-- `value_to_sp`, `src/cpu/chip8/register.rs:183-185`. -/
def valueToSp (value : Byte) : Byte := value % 16

/-- `derive(Default)`, `src/cpu/chip8/register.rs:163`. -/
def default : StackPointer := ⟨0⟩

/-- `read`, `src/cpu/chip8/register.rs:169-171`. -/
def read (r : StackPointer) : Byte := valueToSp r.inner

/-- `with_value`, `src/cpu/chip8/register.rs:176-180`. -/
def withValue (value : Byte) : StackPointer := ⟨valueToSp value⟩

/-- `write`, `src/cpu/chip8/register.rs:172-174`: consumes the register and returns a new one. -/
def write (_ : StackPointer) (value : Byte) : StackPointer := withValue (valueToSp value)

end StackPointer

end Verif.Chip8
