import Verif.Model.Chip8.U12

/-!
# `src/cpu/chip8/u12.rs`: formatting and conversions to wider integers

The impls hand the inner `u16` to the formatting of `core`, of which the integer part is modelled
here: the digit loop and the flags `#` (prefix) and `0` with a width. Other flags (`+`, fill
characters, alignment) are not modelled.
-/

namespace Verif.Chip8

open Verif

/-- The flags of a `core::fmt::Formatter` that are modelled: `{:#0w}`; the formatter is
the argument of `src/cpu/chip8/u12.rs:48-82`. -/
structure FmtFlags where
  /-- `#` -/
  alternate : Bool
  /-- the width given with the flag `0` (`0` if there is none) -/
  width : Nat

/-- The digit of `LowerHex` (also of `Octal`, `Binary`, `Display`) in `core`, called by
`src/cpu/chip8/u12.rs:68`. -/
def lowerDigit (d : Nat) : Char :=
  if d < 10 then Char.ofNat (48 + d) else Char.ofNat (97 + (d - 10))

/-- The digit of `UpperHex` in `core`, called by `src/cpu/chip8/u12.rs:62`. -/
def upperDigit (d : Nat) : Char :=
  if d < 10 then Char.ofNat (48 + d) else Char.ofNat (65 + (d - 10))

/-- The digit loop of `core`, run by `src/cpu/chip8/u12.rs:48-82`: digits are put in front of `buf` from the last one, until nothing is
left; the first argument is the room left in the buffer. -/
def digitLoop (base : Nat) (digit : Nat → Char) : Nat → Nat → List Char → List Char
  | 0, _, buf => buf
  | room + 1, x, buf =>
    let buf := digit (x % base) :: buf
    if x / base = 0 then buf else digitLoop base digit room (x / base) buf

/-- `Formatter::pad_integral` of `core`, run by `src/cpu/chip8/u12.rs:48-82`, for a number that is not negative: the prefix if asked
for, then zeros up to the width, then the digits. -/
def padIntegral (f : FmtFlags) (pre : List Char) (buf : List Char) : List Char :=
  let pre := if f.alternate then pre else []
  pre ++ (List.replicate (f.width - (pre.length + buf.length)) '0' ++ buf)

namespace U12

/-- `LowerHex for u12`, `src/cpu/chip8/u12.rs:66-70`. -/
def lowerHex (f : FmtFlags) (x : U12) : List Char :=
  padIntegral f ['0', 'x'] (digitLoop 16 lowerDigit 128 x.val.toNat [])

/-- `UpperHex for u12`, `src/cpu/chip8/u12.rs:60-64`. -/
def upperHex (f : FmtFlags) (x : U12) : List Char :=
  padIntegral f ['0', 'x'] (digitLoop 16 upperDigit 128 x.val.toNat [])

/-- `Octal for u12`, `src/cpu/chip8/u12.rs:72-76`. -/
def octal (f : FmtFlags) (x : U12) : List Char :=
  padIntegral f ['0', 'o'] (digitLoop 8 lowerDigit 128 x.val.toNat [])

/-- `Binary for u12`, `src/cpu/chip8/u12.rs:78-82`. -/
def binary (f : FmtFlags) (x : U12) : List Char :=
  padIntegral f ['0', 'b'] (digitLoop 2 lowerDigit 128 x.val.toNat [])

/-- `Display for u12`, `src/cpu/chip8/u12.rs:54-58` (decimal has no prefix). -/
def display (f : FmtFlags) (x : U12) : List Char :=
  padIntegral f [] (digitLoop 10 lowerDigit 128 x.val.toNat [])

/-- `Debug for u12`, `src/cpu/chip8/u12.rs:48-52`, without the flags `x?` and `X?`. -/
def debug (f : FmtFlags) (x : U12) : List Char := display f x

/-- `From<u12> for u32`, `src/cpu/chip8/u12.rs:164-176`. -/
def toU32 (x : U12) : BitVec 32 := x.val.setWidth 32

/-- `From<u12> for u64`, `src/cpu/chip8/u12.rs:164-176`. -/
def toU64 (x : U12) : BitVec 64 := x.val.setWidth 64

/-- `From<u12> for u128`, `src/cpu/chip8/u12.rs:164-176`. -/
def toU128 (x : U12) : BitVec 128 := x.val.setWidth 128

end U12

end Verif.Chip8
