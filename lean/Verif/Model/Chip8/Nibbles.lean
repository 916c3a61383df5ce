import Verif.Model.Chip8.Decode

/-!
# The nibbles of a byte

`src/cpu/chip8/operations/mod.rs:58-73`.
-/

namespace Verif.Chip8

open Verif

/-- `ToNibbleBytes::to_be_nibbles` for `u8`, `src/cpu/chip8/operations/mod.rs:66-68`. -/
def toBeNibbles (x : Byte) : List Byte := [toUpperNibble x, toLowerNibble x]

/-- `ToNibbleBytes::to_le_nibbles` for `u8`, `src/cpu/chip8/operations/mod.rs:70-72`. -/
def toLeNibbles (x : Byte) : List Byte := [toLowerNibble x, toUpperNibble x]

end Verif.Chip8
