import Verif.Model.Mos.Register

/-!
# `Operand<u8>`: `src/cpu/mos6502/operations/mod.rs:62-235`
-/

namespace Verif.Mos

open Verif

/-- `Operand<u8>`, `src/cpu/mos6502/operations/mod.rs:62-70`; fields in declaration order (the
derived `Ord` is lexicographic in that order). -/
structure Operand where
  carry : Bool
  negative : Bool
  zero : Bool
  inner : Byte
  deriving DecidableEq, Repr

/-- Rust `x << n` on `u8`, as in `src/cpu/mos6502/operations/mod.rs:194` and `:219`: a shift by 8 or more panics in a checked build, else the amount is
taken modulo 8. -/
def shlU8 (b : Build) (x n : Byte) : Res Byte :=
  if b.overflowChecks ∧ 8 ≤ n.toNat then .error .overflow else .ok (x <<< (n.toNat % 8))

/-- Rust `x >> n` on `u8`, as in `src/cpu/mos6502/operations/mod.rs:207` and `:231`, and as for `shlU8`. -/
def shrU8 (b : Build) (x n : Byte) : Res Byte :=
  if b.overflowChecks ∧ 8 ≤ n.toNat then .error .overflow else .ok (x >>> (n.toNat % 8))

namespace Operand

/-- `Operand::with_flags`, `src/cpu/mos6502/operations/mod.rs:73-80`. -/
def withFlags (inner : Byte) (carry negative zero : Bool) : Operand :=
  { carry, negative, zero, inner }

/-- `Operand::unwrap`, `src/cpu/mos6502/operations/mod.rs:82-84`. -/
def unwrap (o : Operand) : Byte := o.inner

/-- The test `((v >> 7) & 1) == 1` used for the negative flag,
`src/cpu/mos6502/operations/mod.rs:101`, `114`, `140`. -/
def msbSet (v : Byte) : Bool := ((v >>> 7) &&& 1) == 1

/-- `Operand::<u8>::new`, `src/cpu/mos6502/operations/mod.rs:98-105`. -/
def new (inner : Byte) : Operand where
  carry := false
  negative := msbSet inner
  zero := inner == 0
  inner := inner

/-- `Add`, `src/cpu/mos6502/operations/mod.rs:108-119` (`overflowing_add`). -/
def add (self other : Operand) : Operand :=
  let sum := self.unwrap + other.unwrap
  let carry := decide (256 ≤ self.unwrap.toNat + other.unwrap.toNat)
  withFlags sum carry (msbSet sum) (sum == 0)

/-- `twos_complement_add`, `src/cpu/mos6502/operations/mod.rs:121-132`. -/
def twosComplementAdd (self other : Operand) (carry : Bool) : Operand × Bool :=
  let sum := self.add other
  let lhs := self.unwrap
  let rhs := other.unwrap
  let overflow := (!bitIsSet lhs 7 && !bitIsSet rhs 7 && carry) ||
    (bitIsSet lhs 7 && bitIsSet rhs 7 && !carry)
  (sum, overflow)

/-- `Sub`, `src/cpu/mos6502/operations/mod.rs:134-145` (`overflowing_sub`). -/
def sub (self other : Operand) : Operand :=
  let difference := self.unwrap - other.unwrap
  let carry := decide (self.unwrap.toNat < other.unwrap.toNat)
  withFlags difference carry (msbSet difference) (difference == 0)

/-- `twos_complement_sub`, `src/cpu/mos6502/operations/mod.rs:147-155`. -/
def twosComplementSub (b : Build) (self other : Operand) (carry : Bool) : Res (Operand × Bool) := do
  let carry_bit := boolAsU8 carry
  let ones ← subU8 b 255 other.unwrap
  let rhs_ones_complement := (Operand.new ones).add (Operand.new carry_bit)
  .ok (self.twosComplementAdd rhs_ones_complement carry)

/-- `BitAnd`, `src/cpu/mos6502/operations/mod.rs:157-165`. -/
def bitand (self other : Operand) : Operand := new (self.unwrap &&& other.unwrap)

/-- `BitOr`, `src/cpu/mos6502/operations/mod.rs:167-175`. -/
def bitor (self other : Operand) : Operand := new (self.unwrap ||| other.unwrap)

/-- `BitXor`, `src/cpu/mos6502/operations/mod.rs:177-185`. -/
def bitxor (self other : Operand) : Operand := new (self.unwrap ^^^ other.unwrap)

/-- `Rol`, `src/cpu/mos6502/operations/mod.rs:187-198`. -/
def rol (b : Build) (self other : Operand) (carry : Bool) : Res Operand := do
  let lhs := self.unwrap
  let carry_in := boolAsU8 carry
  let carry_out := bitIsSet lhs 7
  let s ← shlU8 b lhs other.unwrap
  let shifted := new (s ||| carry_in)
  .ok (withFlags shifted.unwrap carry_out shifted.negative shifted.zero)

/-- `Ror`, `src/cpu/mos6502/operations/mod.rs:200-211`. -/
def ror (b : Build) (self other : Operand) (carry : Bool) : Res Operand := do
  let lhs := self.unwrap
  let carry_in := boolAsU8 carry <<< 7
  let carry_out := bitIsSet lhs 0
  let s ← shrU8 b lhs other.unwrap
  let shifted := new (s ||| carry_in)
  .ok (withFlags shifted.unwrap carry_out shifted.negative shifted.zero)

/-- `Shl`, `src/cpu/mos6502/operations/mod.rs:213-223`. -/
def shl (b : Build) (self other : Operand) : Res Operand := do
  let lhs := self.unwrap
  let carry := bitIsSet lhs 7
  let s ← shlU8 b lhs other.unwrap
  let value := new s
  .ok (withFlags value.unwrap carry value.negative value.zero)

/-- `Shr`, `src/cpu/mos6502/operations/mod.rs:225-235`. -/
def shr (b : Build) (self other : Operand) : Res Operand := do
  let lhs := self.unwrap
  let carry := bitIsSet lhs 0
  let s ← shrU8 b lhs other.unwrap
  let value := new s
  .ok (withFlags value.unwrap carry value.negative value.zero)

/-- `self >= other` for the derived `PartialOrd`, `src/cpu/mos6502/operations/mod.rs:64`:
lexicographic in the fields, with `false < true`. -/
def ge (self other : Operand) : Bool :=
  if self.carry != other.carry then self.carry
  else if self.negative != other.negative then self.negative
  else if self.zero != other.zero then self.zero
  else decide (other.inner.toNat ≤ self.inner.toNat)

end Operand

end Verif.Mos
