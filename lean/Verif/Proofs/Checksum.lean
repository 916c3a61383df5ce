import Mathlib.Logic.Function.Iterate
import Verif.Spec.Checksum

/-!
# The CRC of bytes is a table-driven checksum
-/

namespace Verif.Spec

open Verif

variable {poly s c : Byte}

/-- A shift without input. -/
def crcStep (poly s : Byte) : Byte := crcShift poly s false

theorem crcShift_eq (bit : Bool) (h : c.msb = bit) : crcShift poly s bit = crcStep poly (s ^^^ c) ^^^ (c <<< 1) := by
  subst h
  have e : (s ^^^ c).msb = (s.msb ^^ c.msb) := by simp
  have d : (s ^^^ c) <<< 1 = (s <<< 1) ^^^ (c <<< 1) := BitVec.shiftLeft_xor_distrib ..
  unfold crcStep crcShift
  rw [e, d, Bool.xor_false]
  rw [BitVec.xor_assoc, BitVec.xor_assoc, BitVec.xor_comm (c <<< 1), BitVec.xor_assoc, BitVec.xor_self,
    BitVec.xor_zero]

/-- After the first `i` bits. -/
theorem crcBits_take (i : Nat) (hi : i ≤ 8) :
    crcBits poly s ((List.range i).map c.getMsbD) = (crcStep poly)^[i] (s ^^^ c) ^^^ (c <<< i) := by
  induction i with
  | zero =>
    show s = s ^^^ c ^^^ (c <<< 0)
    rw [BitVec.shiftLeft_zero, BitVec.xor_assoc, BitVec.xor_self, BitVec.xor_zero]
  | succ i ih =>
    rw [List.range_succ, List.map_append]
    have : ∀ l, crcBits poly s (l ++ [c.getMsbD i]) = crcShift poly (crcBits poly s l) (c.getMsbD i) := by
      intro l; simp [crcBits]
    show crcBits poly s (_ ++ [c.getMsbD i]) = _
    rw [this, ih (by omega), crcShift_eq (c := c <<< i) _ (by
      rw [BitVec.msb_eq_getMsbD_zero, BitVec.getMsbD_shiftLeft]; simp; try omega), Function.iterate_succ_apply',
      BitVec.xor_assoc, BitVec.xor_self, BitVec.xor_zero, ← BitVec.shiftLeft_add]

theorem crcBits_byte : crcBits poly s (bitsOf c) = crcTable poly (s ^^^ c) := by
  have h : ∀ s c : Byte, crcBits poly s (bitsOf c) = (crcStep poly)^[8] (s ^^^ c) := by
    intro s c
    have z : c <<< 8 = 0#8 := BitVec.shiftLeft_eq_zero (by decide)
    unfold bitsOf
    rw [crcBits_take 8 (by omega), z, BitVec.xor_zero]
  unfold crcTable
  rw [h, h, show (0 : Byte) ^^^ (s ^^^ c) = s ^^^ c from BitVec.zero_xor]

/-- The CRC of the bits of a message is the checksum of its bytes with the table of the CRCs of all bytes. -/
theorem crc_checksum (poly s : Byte) (data : List Byte) :
    crcBits poly s (data.flatMap bitsOf) = checksum (crcTable poly) s data := by
  induction data generalizing s with
  | nil => rfl
  | cons c data ih =>
    have : crcBits poly s ((c :: data).flatMap bitsOf) =
        crcBits poly (crcBits poly s (bitsOf c)) (data.flatMap bitsOf) := by
      simp [crcBits, List.flatMap_cons]
    rw [this, crcBits_byte, ih]
    rfl

theorem bytesFrom_succ (mem : Verif.Spec.Mos.Mem) (a n : Nat) :
    bytesFrom mem a (n + 1) = bytesFrom mem a n ++ [mem (Verif.Spec.Mos.word (a + n))] := by
  simp [bytesFrom, List.range_succ]

theorem checksum_append (t : Byte → Byte) (s : Byte) (l : List Byte) (c : Byte) :
    checksum t s (l ++ [c]) = t (checksum t s l ^^^ c) := by
  simp [checksum]

end Verif.Spec
