import Verif.Model.Chip8.Nibbles
import Verif.Proofs.Chip8Decode

/-!
# C123: splitting a byte into nibbles loses nothing

The nibbles of a byte are the digits of its number in base 16.
-/

namespace Verif.Props.Chip8

open Verif Verif.Chip8

/-- C123: the upper nibble is the quotient by 16, the lower one the remainder. -/
theorem C123_digits (x : Byte) :
    (toUpperNibble x).toNat = x.toNat / 16 ∧ (toLowerNibble x).toNat = x.toNat % 16 := by
  revert x
  decide +kernel

/-- C123: most significant first the list of nibbles is the byte written in base 16; least significant first
it is the same, reversed. -/
theorem C123_orders (x : Byte) :
    (toBeNibbles x).map BitVec.toNat = [x.toNat / 16, x.toNat % 16] ∧
    (toLeNibbles x).map BitVec.toNat = [x.toNat % 16, x.toNat / 16] ∧
    toLeNibbles x = (toBeNibbles x).reverse := by
  obtain ⟨h1, h2⟩ := C123_digits x
  exact ⟨by simp [toBeNibbles, h1, h2], by simp [toLeNibbles, h1, h2], rfl⟩

/-- C123: so different bytes have different nibbles. -/
theorem C123_injective (x y : Byte) (h : toBeNibbles x = toBeNibbles y) : x = y := by
  have h' := congrArg (List.map BitVec.toNat) h
  rw [(C123_orders x).1, (C123_orders y).1] at h'
  simp only [List.cons.injEq, and_true] at h'
  exact BitVec.eq_of_toNat_eq (by omega)

/-- C123: any two numbers below 16 are the nibbles of a byte, the one put together of them. -/
theorem C123_surjective (m l : Byte) (hm : m.toNat < 16) (hl : l.toNat < 16) :
    toBeNibbles (u8FromNibbles m l) = [m, l] := by
  have h := u8FromNibbles_toNat m l hm
  obtain ⟨h1, h2⟩ := C123_digits (u8FromNibbles m l)
  rw [h] at h1 h2
  unfold toBeNibbles
  rw [show toUpperNibble (u8FromNibbles m l) = m from BitVec.eq_of_toNat_eq (by omega),
    show toLowerNibble (u8FromNibbles m l) = l from BitVec.eq_of_toNat_eq (by omega)]

/-- C123: putting the nibbles of a byte together gives the byte. -/
theorem C123_back (x : Byte) : u8FromNibbles (toUpperNibble x) (toLowerNibble x) = x := by
  revert x
  decide +kernel

/-- C123: nibbles out of range: of both only the low four bits count. -/
theorem C123_masked (m l : Byte) : (u8FromNibbles m l).toNat = 16 * (m.toNat % 16) + l.toNat % 16 := by
  revert m l
  decide +kernel

/-- The hypotheses of `C123_surjective`. -/
example : toBeNibbles (u8FromNibbles 0xa 0x5) = [0xa, 0x5] := C123_surjective _ _ (by decide) (by decide)

/-- The byte 0xa5. -/
example : toBeNibbles 0xa5 = [0xa, 0x5] ∧ toLeNibbles 0xa5 = [0x5, 0xa] := by decide

end Verif.Props.Chip8
