import Verif.Model.Rust

/-!
# `src/cpu/mos6502/register.rs`

The one-field wrappers `GeneralPurpose` (lines 50-66), `ProgramCounter` (68-84) and
`StackPointer` (86-109) are modelled by the byte or word they wrap: `read` is the field,
`with_value` and `write` store the argument.
-/

namespace Verif.Mos

open Verif

/-- `WordRegisters`, `src/cpu/mos6502/register.rs:15-18`. -/
inductive WordRegisters where
  | Pc
  deriving DecidableEq, Repr

/-- `ByteRegisters`, `src/cpu/mos6502/register.rs:20-28`. -/
inductive ByteRegisters where
  | Acc
  | X
  | Y
  | Ps
  | Sp
  deriving DecidableEq, Repr

/-- `ProgramStatusFlags`, `src/cpu/mos6502/register.rs:30-40`. -/
inductive ProgramStatusFlags where
  | Negative
  | Overflow
  | Break
  | Decimal
  | Interrupt
  | Zero
  | Carry
  deriving DecidableEq, Repr

/-- `GpRegister`, `src/cpu/mos6502/register.rs:42-48`. -/
inductive GpRegister where
  | Acc
  | X
  | Y
  deriving DecidableEq, Repr

/-- `GeneralPurpose::default`, derived at `src/cpu/mos6502/register.rs:50`. -/
def defaultGp : Byte := 0

/-- `ProgramCounter::default`, derived at `src/cpu/mos6502/register.rs:68`. -/
def defaultPc : Word := 0

/-- `StackPointer::default`, `src/cpu/mos6502/register.rs:105-109`. -/
def defaultSp : Byte := 0xff

/-- `bit_is_set`, `src/cpu/mos6502/register.rs:113-119` and again at
`src/cpu/mos6502/operations/mod.rs:16-22`. -/
def bitIsSet (value place : Byte) : Bool :=
  if place > 7 then false else ((value >>> place.toNat) &&& 1) == 1

/-- `ProcessorStatus`, `src/cpu/mos6502/register.rs:121-131`. -/
structure ProcessorStatus where
  carry : Bool
  zero : Bool
  interrupt_disable : Bool
  decimal : Bool
  brk : Bool
  unused : Bool
  overflow : Bool
  negative : Bool
  deriving DecidableEq, Repr

/-- `ProcessorStatus::default`, `src/cpu/mos6502/register.rs:140-153`. -/
def ProcessorStatus.default : ProcessorStatus where
  carry := false
  zero := false
  interrupt_disable := false
  decimal := false
  brk := false
  unused := true
  overflow := false
  negative := false

/-- `ProcessorStatus::with_value`, `src/cpu/mos6502/register.rs:164-176`
(`write`, lines 160-162, is the same). -/
def ProcessorStatus.withValue (value : Byte) : ProcessorStatus where
  negative := bitIsSet value 7
  overflow := bitIsSet value 6
  unused := bitIsSet value 5
  brk := bitIsSet value 4
  decimal := bitIsSet value 3
  interrupt_disable := bitIsSet value 2
  zero := bitIsSet value 1
  carry := bitIsSet value 0

/-- Rust `flag as u8`, `src/cpu/mos6502/register.rs:184-191`. -/
def boolAsU8 (c : Bool) : Byte := if c then 1 else 0

/-- `ProcessorStatus::read`, that is `From<ProcessorStatus> for u8`,
`src/cpu/mos6502/register.rs:156-158` and `179-194`. -/
def ProcessorStatus.read (src : ProcessorStatus) : Byte :=
  (boolAsU8 src.negative <<< 7) ||| (boolAsU8 src.overflow <<< 6) ||| (boolAsU8 src.unused <<< 5)
    ||| (boolAsU8 src.brk <<< 4) ||| (boolAsU8 src.decimal <<< 3)
    ||| (boolAsU8 src.interrupt_disable <<< 2) ||| (boolAsU8 src.zero <<< 1)
    ||| boolAsU8 src.carry

end Verif.Mos
