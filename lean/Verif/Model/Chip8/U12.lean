import Verif.Model.Rust

/-!
# `src/cpu/chip8/u12.rs`: 12-bit integers

The formatting impls (lines 48-82) and the conversions to the wider types `u32`, `u64`, `u128`
(line 176) are in `U12Fmt`.
-/

namespace Verif.Chip8

open Verif

/-- `u12`, `src/cpu/chip8/u12.rs:1-4`. The field is private, so a `u12` is only made by the
functions below. -/
structure U12 where
  /-- `self.0` -/
  val : Word
  deriving Repr

namespace U12

/-- `MaskU12 for u16`, `src/cpu/chip8/u12.rs:198-202`. -/
def maskU16 (x : Word) : Word := x &&& 0xfff

/-- `u12::MAX`, `src/cpu/chip8/u12.rs:8`. -/
def MAX : U12 := ⟨0xfff⟩

/-- `u12::MIN`, `src/cpu/chip8/u12.rs:10`. -/
def MIN : U12 := ⟨0x000⟩

/-- `derive(Default)`, `src/cpu/chip8/u12.rs:2`. -/
def default : U12 := ⟨0⟩

/-- `u12::new`, `src/cpu/chip8/u12.rs:27-33`. -/
def new (value : Word) : Res U12 :=
  if value.toNat > MAX.val.toNat then .error (.explicit "this value will overflow")
  else .ok ⟨value⟩

/-- `MaskU12 for u12`, `src/cpu/chip8/u12.rs:192-196`. -/
def mask (x : U12) : Res U12 := new (maskU16 x.val)

/-- `From<[u8; 3]> for u12`, `src/cpu/chip8/u12.rs:178-186`. -/
def ofNibbles (n0 n1 n2 : Byte) : Res U12 :=
  let msb := n0 &&& 0x0f
  let lsb := ((n1 &&& 0x0f) <<< 4) ||| (n2 &&& 0x0f)
  new (u16FromBeBytes msb lsb)

/-- `u12::from_be_nibbles`, `src/cpu/chip8/u12.rs:19-22`. -/
def fromBeNibbles (n0 n1 n2 : Byte) : Res U12 :=
  ofNibbles (n0 &&& 0x0f) (n1 &&& 0x0f) (n2 &&& 0x0f)

/-- `u12::wrapping_add`, `src/cpu/chip8/u12.rs:35-39`. -/
def wrappingAdd (x y : U12) : Res U12 := new (maskU16 (x.val + y.val))

/-- `u12::wrapping_sub`, `src/cpu/chip8/u12.rs:41-45`. -/
def wrappingSub (x y : U12) : Res U12 := new (maskU16 (x.val - y.val))

/-- `PartialEq for u12`, `src/cpu/chip8/u12.rs:84-88`. -/
def eq (x y : U12) : Bool := maskU16 x.val == maskU16 y.val

/-- `Ord for u12` (and `PartialOrd`), `src/cpu/chip8/u12.rs:92-102`. -/
def cmp (x y : U12) : Ordering := compare (maskU16 x.val).toNat (maskU16 y.val).toNat

/-- `Add for u12`, `src/cpu/chip8/u12.rs:104-117`. -/
def add (b : Build) (x y : U12) : Res U12 := do
  let sum ← addU16 b x.val y.val
  if sum.toNat > MAX.val.toNat then .error (.explicit "this arithmetic operation will overflow")
  else new sum

/-- `Sub for u12`, `src/cpu/chip8/u12.rs:119-126`. -/
def sub (b : Build) (x y : U12) : Res U12 := do
  let d ← subU16 b x.val y.val
  mask ⟨d⟩

/-- `BitAnd for u12`, `src/cpu/chip8/u12.rs:128-135`. -/
def bitAnd (x y : U12) : Res U12 := mask ⟨x.val &&& y.val⟩

/-- `BitOr for u12`, `src/cpu/chip8/u12.rs:137-144`. -/
def bitOr (x y : U12) : Res U12 := mask ⟨x.val ||| y.val⟩

/-- Rust `x << y` on `u16`, `src/cpu/chip8/u12.rs:151`: a checked build panics for a shift of 16 or more, an unchecked build
uses the shift modulo 16. -/
def shlU16 (b : Build) (x y : Word) : Res Word :=
  if b.overflowChecks ∧ 16 ≤ y.toNat then .error .overflow else .ok (x <<< (y.toNat % 16))

/-- Rust `x >> y` on `u16`, `src/cpu/chip8/u12.rs:160`, as `shlU16`. -/
def shrU16 (b : Build) (x y : Word) : Res Word :=
  if b.overflowChecks ∧ 16 ≤ y.toNat then .error .overflow else .ok (x >>> (y.toNat % 16))

/-- `Shl for u12`, `src/cpu/chip8/u12.rs:146-153`. -/
def shl (b : Build) (x y : U12) : Res U12 := do
  let v ← shlU16 b x.val y.val
  mask ⟨v⟩

/-- `Shr for u12`, `src/cpu/chip8/u12.rs:155-162`. -/
def shr (b : Build) (x y : U12) : Res U12 := do
  let v ← shrU16 b x.val y.val
  mask ⟨v⟩

/-- `From<u12> for u16`, `src/cpu/chip8/u12.rs:164-176`. -/
def toU16 (x : U12) : Word := x.val

end U12

end Verif.Chip8
