import Verif.Spec.Mos6502
import Verif.Proofs.BusMem

/-!
# Helper lemmas for the 6502 theorems
-/

namespace Verif.Mos

open Verif Verif.Spec.Mos

/-! ## Bytes and words -/

theorem msbSet_eq (v : Byte) : Operand.msbSet v = decide (128 ≤ v.toNat) := by
  revert v; decide +kernel

theorem beq_zero_eq (v : Byte) : (v == 0) = decide (v.toNat = 0) := by
  revert v; decide +kernel

theorem bitIsSet_7 (v : Byte) : bitIsSet v 7 = decide (128 ≤ v.toNat) := by
  revert v; decide +kernel

theorem bitIsSet_6 (v : Byte) : bitIsSet v 6 = decide (64 ≤ v.toNat % 128) := by
  revert v; decide +kernel

theorem bitIsSet_0 (v : Byte) : bitIsSet v 0 = decide (v.toNat % 2 = 1) := by
  revert v; decide +kernel

theorem u16OfU8_eq (z : Byte) : u16OfU8 z = word z.toNat := by
  unfold u16OfU8 word; apply BitVec.eq_of_toNat_eq; simp

theorem toNat_word (n : Nat) : (word n).toNat = n % 65536 := by simp [word]

theorem toNat_byte (n : Nat) : (byte n).toNat = n % 256 := by simp [byte]

theorem word_toNat (w : Word) : word w.toNat = w := by simp [word]

theorem byte_toNat (v : Byte) : byte v.toNat = v := by simp [byte]

theorem word_mod (n : Nat) : word (n % 65536) = word n := by
  apply BitVec.eq_of_toNat_eq; simp [toNat_word]

theorem addIndexToAddress_eq (w : Word) (x : Byte) :
    addIndexToAddress w x = word (w.toNat + x.toNat) := by
  unfold addIndexToAddress
  apply BitVec.eq_of_toNat_eq
  rw [toNat_word, BitVec.toNat_add, u16OfU8_eq, toNat_word]
  have := x.isLt; omega

theorem addIndexToAddress_zero (w : Word) : addIndexToAddress w 0 = w := by
  rw [addIndexToAddress_eq]; simp [word_toNat]

theorem addIndexToZeropageAddress_eq (z x : Byte) :
    addIndexToZeropageAddress z x = word ((z.toNat + x.toNat) % 256) := by
  unfold addIndexToZeropageAddress
  rw [u16OfU8_eq, BitVec.toNat_add]

theorem u16FromLeBytes_eq (lo hi : Byte) : u16FromLeBytes lo hi = word (lo.toNat + 256 * hi.toNat) := by
  unfold u16FromLeBytes
  apply BitVec.eq_of_toNat_eq
  rw [toNat_word, BitVec.toNat_append, ← Nat.shiftLeft_add_eq_or_of_lt lo.isLt, Nat.shiftLeft_eq]
  have := lo.isLt; have := hi.isLt; omega

theorem toNat_u16FromLeBytes (lo hi : Byte) :
    (u16FromLeBytes lo hi).toNat = lo.toNat + 256 * hi.toNat := by
  rw [u16FromLeBytes_eq, toNat_word]
  have := lo.isLt; have := hi.isLt; omega

theorem stackPointerFromByteValue_eq (v : Byte) : stackPointerFromByteValue v = stack v.toNat := by
  unfold stackPointerFromByteValue stack
  rw [u16FromLeBytes_eq]
  have h : (0x01 : Byte).toNat = 1 := rfl
  have := v.isLt
  rw [h]
  congr 1
  omega

/-! ## The operand operators, in textbook terms -/

theorem shlU8_one (b : Build) (v : Byte) : shlU8 b v 1 = .ok (byte (2 * v.toNat)) := by
  have h : (1 : Byte).toNat = 1 := rfl
  unfold shlU8
  rw [h, if_neg (by omega)]
  congr 1

theorem shrU8_one (b : Build) (v : Byte) : shrU8 b v 1 = .ok (byte (v.toNat / 2)) := by
  have h : (1 : Byte).toNat = 1 := rfl
  unfold shrU8
  rw [h, if_neg (by omega)]
  congr 1
  revert v; decide +kernel

theorem or_carry_in (v : Byte) (c : Bool) :
    byte (2 * v.toNat) ||| boolAsU8 c = byte (2 * v.toNat + bit c) := by
  revert v c; decide +kernel

theorem or_carry_in_high (v : Byte) (c : Bool) :
    byte (v.toNat / 2) ||| (boolAsU8 c <<< 7) = byte (v.toNat / 2 + 128 * bit c) := by
  revert v c; decide +kernel

theorem subU8_255 (b : Build) (v : Byte) : subU8 b 255 v = .ok (255 - v) := by
  unfold subU8
  have h : (255 : Byte).toNat = 255 := rfl
  rw [if_neg]
  rw [h]; have := v.isLt; omega

/-! ## Addresses -/

section
variable {B : Type} [Addressable B] {b : Build} {cpu : Mos6502 B} {mem : Mem}

theorem deref_operand (h : BusView b cpu.address_map mem) (a : Word) (i : Byte) :
    dereferenceAddressToOperand b cpu a i = .ok (Operand.new (mem (word (a.toNat + i.toNat)))) := by
  simp [dereferenceAddressToOperand, h _, addIndexToAddress_eq]

theorem deref_indexed_indirect (h : BusView b cpu.address_map mem) (z : Byte)
    (hok : AddrOk b (regs cpu) mem (.indexedIndirect z)) :
    dereferenceIndexedIndirectAddress b cpu z cpu.x =
      .ok (ea (regs cpu) mem (.indexedIndirect z)) := by
  have h1 : addU8 b cpu.x 1 = .ok (cpu.x + 1) := by
    unfold addU8
    rw [if_neg]
    have h1 : (1 : Byte).toNat = 1 := rfl
    have := cpu.x.isLt
    rcases hok with hb | hx
    · simp [hb]
    · have hx' : cpu.x.toNat ≠ 255 := hx
      omega
  have e1 : u16OfU8 (z + cpu.x) = word ((z.toNat + cpu.x.toNat) % 256) := by
    rw [u16OfU8_eq, BitVec.toNat_add]
  have e2 : u16OfU8 (z + (cpu.x + 1)) = word ((z.toNat + cpu.x.toNat + 1) % 256) := by
    rw [u16OfU8_eq, BitVec.toNat_add, BitVec.toNat_add]
    have h1 : (1 : Byte).toNat = 1 := rfl
    rw [h1]
    congr 1; omega
  simp only [dereferenceIndexedIndirectAddress, h _, h1, Res.ok_bind, e1, e2, u16FromLeBytes_eq]
  rfl

theorem deref_indirect_indexed (h : BusView b cpu.address_map mem) (z : Byte)
    (hok : AddrOk b (regs cpu) mem (.indirectIndexed z)) :
    dereferenceIndirectIndexedAddress b cpu z cpu.y =
      .ok (ea (regs cpu) mem (.indirectIndexed z)) := by
  have e1 : u16OfU8 (z + 1) = word ((z.toNat + 1) % 256) := by
    rw [u16OfU8_eq, BitVec.toNat_add]; rfl
  simp only [dereferenceIndirectIndexedAddress, h _, Res.ok_bind, u16OfU8_eq z, e1]
  unfold addU16
  rw [if_neg]
  · rw [u16FromLeBytes_eq, u16OfU8_eq]
    simp only [ea, regs, le]
    congr 1
    apply BitVec.eq_of_toNat_eq
    rw [BitVec.toNat_add, toNat_word, toNat_word, toNat_word]
    omega
  · rintro ⟨hb, ho⟩
    rcases hok with hb' | hx
    · rw [hb'] at hb; cases hb
    · rw [toNat_u16FromLeBytes, u16OfU8_eq, toNat_word] at ho
      simp only [baseAddr, le, regs] at hx
      have := cpu.y.isLt
      omega

theorem ea_indirectIndexed_toNat (r : Regs) (mem : Mem) (z : Byte) :
    (ea r mem (.indirectIndexed z)).toNat = (baseAddr mem (.indirectIndexed z) + r.y.toNat) % 65536 := by
  simp [ea, baseAddr, toNat_word]

theorem addU16_one {w : Word} (h : b.overflowChecks = false ∨ w.toNat ≠ 65535) :
    addU16 b w 1 = .ok (word (w.toNat + 1)) := by
  unfold addU16
  have h1 : (1 : Word).toNat = 1 := rfl
  have := w.isLt
  rw [if_neg (by rintro ⟨hb, ho⟩; rcases h with h | h; · rw [h] at hb; cases hb
                 · omega)]
  congr 1

end

/-! ## Pages -/

/-- The page of an address. -/
def pageOf (addr : Word) : Page :=
  ⟨addr + (0xff - addr % (0xff + 1)) - 0xff, addr + (0xff - addr % (0xff + 1))⟩

theorem page_ofU16 (b : Build) (addr : Word) : Page.ofU16 b addr = .ok (pageOf addr) := by
  have hlt := addr.isLt
  have hmod : (addr % (0xff + 1 : Word)).toNat = addr.toNat % 256 := by
    rw [BitVec.toNat_umod]; rfl
  obtain ⟨e1, -⟩ := addU16_of_lt b 0xff 1 (by decide)
  obtain ⟨e2, n2⟩ := subU16_of_le b 0xff (addr % (0xff + 1)) (by rw [hmod]; simp; omega)
  rw [hmod] at n2
  have n2' : ((0xff : Word) - addr % (0xff + 1)).toNat = 255 - addr.toNat % 256 := n2
  obtain ⟨e3, n3⟩ := addU16_of_lt b addr (0xff - addr % (0xff + 1)) (by rw [n2']; omega)
  obtain ⟨e4, n4⟩ := subU16_of_le b (addr + (0xff - addr % (0xff + 1))) 0xff
    (by rw [n3, n2']; simp; omega)
  simp only [Page.ofU16, e1, e2, e3, e4, Res.ok_bind, pageOf]

theorem pageOf_contains (addr other : Word) :
    (pageOf addr).contains other = decide (other.toNat / 256 = addr.toNat / 256) := by
  have hlt := addr.isLt
  have hmod : (addr % (0xff + 1 : Word)).toNat = addr.toNat % 256 := by
    rw [BitVec.toNat_umod]; rfl
  have n2 : ((0xff : Word) - addr % (0xff + 1)).toNat = 255 - addr.toNat % 256 := by
    rw [BitVec.toNat_sub, hmod]; simp; omega
  have n3 : (addr + (0xff - addr % (0xff + 1))).toNat = addr.toNat + (255 - addr.toNat % 256) := by
    rw [BitVec.toNat_add, n2]; omega
  have n4 : (addr + (0xff - addr % (0xff + 1)) - 0xff).toNat = addr.toNat - addr.toNat % 256 := by
    rw [BitVec.toNat_sub, n3]; simp; omega
  simp only [pageOf, Page.contains, n4, n3]
  rw [Bool.eq_iff_iff]
  simp only [Bool.and_eq_true, decide_eq_true_eq]
  omega

theorem pageU8_contains (z : Byte) (other : Word) :
    (Page.ofU8 z).contains other = decide (other.toNat / 256 = 0) := by
  have h255 : (0xff : Word).toNat = 255 := rfl
  have h0 : (0 : Word).toNat = 0 := rfl
  rw [Bool.eq_iff_iff]
  simp only [Page.ofU8, Page.contains, Bool.and_eq_true, decide_eq_true_eq, h255, h0]
  omega

/-! ## One step -/

section
variable {B : Type} [Addressable B] {b : Build} {cpu : Mos6502 B}

theorem flatten_steps (n : Nat) (l : List Microcode) :
    (List.replicate n ([] : List Microcode) ++ [l]).flatten = l := by
  induction n with
  | zero => simp
  | succ n ih => simp [List.replicate_succ]

/-- A step, when the instruction is known. -/
theorem next_eq {i : InstructionVariant} (hat : At b cpu i) :
    next b cpu = (do
      let mops ← i.generate b cpu
      let steps ← mops.intoSteps b
      let cpu' ← executeAll b steps.flatten cpu
      .ok (mops, cpu')) := by
  unfold At at hat
  simp only [next, hat, Res.ok_bind]

theorem intoSteps_ok (o c : Nat) (mcs : List Microcode) (hc : 0 < c) :
    Operations.intoSteps b ⟨o, c, mcs⟩ = .ok (List.replicate (c - 1) [] ++
      [mcs ++ [.Inc16bitRegister .Pc (BitVec.ofNat 16 o)]]) := by
  simp only [Operations.intoSteps]
  rw [if_neg (by omega)]

/-- A step, when the instruction and its operations are known. -/
theorem next_of_generate {i : InstructionVariant} (o c : Nat) (mcs : List Microcode)
    (hat : At b cpu i) (hg : i.generate b cpu = .ok ⟨o, c, mcs⟩) (hc : 0 < c) :
    next b cpu = (executeAll b (mcs ++ [.Inc16bitRegister .Pc (BitVec.ofNat 16 o)]) cpu).map
      (fun cpu' => (⟨o, c, mcs⟩, cpu')) := by
  rw [next_eq hat, hg]
  simp only [Res.ok_bind, intoSteps_ok o c mcs hc, flatten_steps]
  cases executeAll b (mcs ++ [.Inc16bitRegister .Pc (BitVec.ofNat 16 o)]) cpu <;> rfl

end

end Verif.Mos
