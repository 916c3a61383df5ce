import Verif.Spec.Chip8

/-!
# The documented CHIP-8 font

Each glyph as five rows of eight pixels, the leftmost pixel in the most significant bit.
-/

namespace Verif.Spec.Chip8

open Verif Verif.Chip8

/-- The hexadecimal digit a glyph shows. -/
def digit : Font → Nat
  | .Zero => 0x0
  | .One => 0x1
  | .Two => 0x2
  | .Three => 0x3
  | .Four => 0x4
  | .Five => 0x5
  | .Six => 0x6
  | .Seven => 0x7
  | .Eight => 0x8
  | .Nine => 0x9
  | .A => 0xa
  | .B => 0xb
  | .C => 0xc
  | .D => 0xd
  | .E => 0xe
  | .F => 0xf

/-- The pictures of the digits. -/
def pictures : List (List String) :=
  [["####", "#  #", "#  #", "#  #", "####"],
   ["  # ", " ## ", "  # ", "  # ", " ###"],
   ["####", "   #", "####", "#   ", "####"],
   ["####", "   #", "####", "   #", "####"],
   ["#  #", "#  #", "####", "   #", "   #"],
   ["####", "#   ", "####", "   #", "####"],
   ["####", "#   ", "####", "#  #", "####"],
   ["####", "   #", "  # ", " #  ", " #  "],
   ["####", "#  #", "####", "#  #", "####"],
   ["####", "#  #", "####", "   #", "####"],
   ["####", "#  #", "####", "#  #", "#  #"],
   ["### ", "#  #", "### ", "#  #", "### "],
   ["####", "#   ", "#   ", "#   ", "####"],
   ["### ", "#  #", "#  #", "#  #", "### "],
   ["####", "#   ", "####", "#   ", "####"],
   ["####", "#   ", "####", "#   ", "#   "]]

/-- Pixel `(i, j)` of a glyph, counted from the upper left corner. -/
def glyphPixel (f : Font) (i j : Nat) : Bool :=
  (((pictures[digit f]?.getD [])[j]?.getD "").toList[i]?.getD ' ') == '#'

/-- Pixel `i` of a row of a sprite, from the left. -/
def rowPixel (row : Byte) (i : Nat) : Bool := row.getMsbD i

/-- The five bytes of memory from `i` on are the rows of a glyph. -/
def GlyphAt (mem : Verif.Spec.Mos.Mem) (i : Word) (f : Font) : Prop :=
  ∀ col row, col < 8 → row < 5 →
    rowPixel (mem (BitVec.ofNat 16 (i.toNat + row))) col = glyphPixel f col row

end Verif.Spec.Chip8
