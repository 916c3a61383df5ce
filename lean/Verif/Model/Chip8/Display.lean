import Verif.Model.Rust

/-!
# `src/cpu/chip8/display.rs`: the 64 by 32 display and the font
-/

namespace Verif.Chip8

open Verif

/-- `Display`, `src/cpu/chip8/display.rs:10-13`: `inner: [[bool; 64]; 32]`, 32 rows of 64 pixels. -/
structure Display where
  inner : Vector (Vector Bool 64) 32
  deriving DecidableEq

/-- `Font`, `src/cpu/chip8/display.rs:136-154`. -/
inductive Font where
  | One | Two | Three | Four | Five | Six | Seven | Eight | Nine | Zero | A | B | C | D | E | F
  deriving DecidableEq, Repr

/-- `From<Font> for [u8; 5]`, `src/cpu/chip8/display.rs:156-177`. -/
def Font.bytes : Font → Vector Byte 5
  | .One => #v[0x20, 0x60, 0x20, 0x20, 0x70]
  | .Two => #v[0xF0, 0x10, 0xF0, 0x80, 0xF0]
  | .Three => #v[0xF0, 0x10, 0xF0, 0x10, 0xF0]
  | .Four => #v[0x90, 0x90, 0xF0, 0x10, 0x10]
  | .Five => #v[0xF0, 0x80, 0xF0, 0x10, 0xF0]
  | .Six => #v[0xF0, 0x80, 0xF0, 0x90, 0xF0]
  | .Seven => #v[0xF0, 0x10, 0x20, 0x40, 0x40]
  | .Eight => #v[0xF0, 0x90, 0xF0, 0x90, 0xF0]
  | .Nine => #v[0xF0, 0x90, 0xF0, 0x10, 0xF0]
  | .Zero => #v[0xF0, 0x90, 0x90, 0x90, 0xF0]
  | .A => #v[0xF0, 0x90, 0xF0, 0x90, 0x90]
  | .B => #v[0xE0, 0x90, 0xE0, 0x90, 0xE0]
  | .C => #v[0xF0, 0x80, 0x80, 0x80, 0xF0]
  | .D => #v[0xE0, 0x90, 0x90, 0x90, 0xE0]
  | .E => #v[0xF0, 0x80, 0xF0, 0x80, 0xF0]
  | .F => #v[0xF0, 0x80, 0xF0, 0x80, 0x80]

/-- `From<Font> for Vec<u8>`, `src/cpu/chip8/display.rs:179-184`. -/
def Font.toVec (f : Font) : List Byte := f.bytes.toList

namespace Display

/-- `Display::x_max`, `src/cpu/chip8/display.rs:25` and `:31-33`. -/
def xMax : Nat := 64

/-- `Display::y_max`, `src/cpu/chip8/display.rs:28` and `:36-38`. -/
def yMax : Nat := 32

/-- `Default for Display`, `src/cpu/chip8/display.rs:15-21`. -/
def default : Display := ⟨Vector.replicate 32 (Vector.replicate 64 false)⟩

/-- `is_within_display_boundary`, `src/cpu/chip8/display.rs:1-7`. -/
def isWithinDisplayBoundary (x y : Nat) : Bool := decide (x < xMax) && decide (y < yMax)

/-- `self.inner[y][x]`, under the guard that makes the indexing safe, `src/cpu/chip8/display.rs:44-50`. -/
def get (d : Display) (x y : Nat) : Option Bool := (d.inner[y]?).bind (fun row => row[x]?)

/-- `self.inner[y][x] = v`, under the guard that makes the indexing safe, `src/cpu/chip8/display.rs:87-93`. -/
def put (d : Display) (x y : Nat) (v : Bool) : Display :=
  match d.inner[y]? with
  | some row => ⟨d.inner.setIfInBounds y (row.setIfInBounds x v)⟩
  | none => d

/-- `Display::pixel`, `src/cpu/chip8/display.rs:44-50`. The array access cannot be out of bounds
inside the guard (`Chip8.Display.pixel_isSome` in the proofs). -/
def pixel (d : Display) (x y : Nat) : Option Bool :=
  if isWithinDisplayBoundary x y then d.get x y else none

/-- `Display::write_pixel_mut`, `src/cpu/chip8/display.rs:86-94`, and `write_pixel`, lines 77-80,
which wraps it: the new display and the previous value of the pixel. -/
def writePixel (d : Display) (x y : Nat) (pixel_on : Bool) : Display × Option Bool :=
  match d.pixel x y with
  | some previous_value => (d.put x y pixel_on, some previous_value)
  | none => (d, none)

/-- The offsets in the order in which `write_sprite_mut` (`src/cpu/chip8/display.rs:112-113`) and `Drw`
(`src/cpu/chip8/operations/mod.rs:317-322`) visit them: columns outermost. -/
def offsets (rows : Nat) : List (Nat × Nat) :=
  (List.range 8).flatMap fun x => (List.range rows).map fun y => (x, y)

/-- Bit `x_offset` (from the left) of a sprite row: `(row >> (7 - x_offset)) & 0x1 != 0`,
`src/cpu/chip8/display.rs:115-116` and `src/cpu/chip8/operations/mod.rs:326-327`. -/
def spriteBit (row : Byte) (x_offset : Nat) : Bool := ((row >>> (7 - x_offset)) &&& 0x1) != 0

/-- The body of the fold of `write_sprite_mut`, `src/cpu/chip8/display.rs:114-124`. The row index
is below 5, the size of the array. -/
def spriteStep (sprite : Font) (x y : Nat) (s : Display × Bool) (o : Nat × Nat) : Display × Bool :=
  let bit_is_set := spriteBit (sprite.bytes[o.2]?.getD 0) o.1
  let adjusted_y := y + o.2
  let adjusted_x := x + o.1
  let (d, previous) := s.1.writePixel adjusted_x adjusted_y bit_is_set
  (d, previous.getD s.2)

/-- `Display::write_sprite_mut`, `src/cpu/chip8/display.rs:107-126`, and `write_sprite`, lines
99-102, which wraps it. The additions are on `usize` coordinates below 64 + 8. -/
def writeSprite (d : Display) (x y : Nat) (sprite : Font) : Display × Option Bool :=
  if isWithinDisplayBoundary x y then
    let (d', collision) := (offsets 5).foldl (spriteStep sprite x y) (d, false)
    (d', some collision)
  else (d, none)

/-- `Display::unwrap`, `src/cpu/chip8/display.rs:130-132`. -/
def unwrap (d : Display) : Vector (Vector Bool 64) 32 := d.inner

/-- `Display::with_inner`, `src/cpu/chip8/display.rs:54-61`. -/
def withInner (d : Display) (f : Vector (Vector Bool 64) 32 → Vector (Vector Bool 64) 32) : Display :=
  { d with inner := f d.inner }

/-- `Display::with_inner_mut`, `src/cpu/chip8/display.rs:65-70`; the closure gives the array it
leaves behind and its result. -/
def withInnerMut {X : Type} (d : Display)
    (f : Vector (Vector Bool 64) 32 → Vector (Vector Bool 64) 32 × X) : Display × X :=
  (⟨(f d.inner).1⟩, (f d.inner).2)

/-- The closure passed to `with_inner_mut` by `SetDisplayRange`, `src/cpu/chip8/mod.rs:557-564`:
`iter_mut().flatten()` numbers the pixels row by row (pixel `(x, y)` has number `64 * y + x`);
those with numbers from `skip` to `skip + take - 1` are set. Simplification: the iterator chain is
written as that condition on the number. -/
def fillRange (d : Display) (skip take : Nat) (v : Bool) : Display :=
  ⟨d.inner.mapFinIdx fun y row _ => row.mapFinIdx fun x old _ =>
    if skip ≤ 64 * y + x ∧ 64 * y + x < skip + take then v else old⟩

end Display

end Verif.Chip8
