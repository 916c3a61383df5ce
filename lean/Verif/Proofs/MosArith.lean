import Verif.Proofs.MosSample

/-!
# Arithmetic of ADC, SBC and the compares
-/

namespace Verif.Mos

open Verif Verif.Spec.Mos

/-- A step without memory writes determines the registers. -/
theorem stepHas_regs_iff {B : Type} [Addressable B] {b : Build} {cpu : Mos6502 B} {r s : Regs}
    (h : StepHas b cpu { regs := r }) : StepHas b cpu { regs := s } ↔ r = s := by
  constructor
  · intro h'
    unfold StepHas at h h'
    rw [h] at h'
    simp only [writeAll, Except.map, Except.ok.injEq] at h'
    have := congrArg regs h'
    exact this
  · rintro rfl; exact h

theorem byte_add (x y : Byte) : x + y = byte (x.toNat + y.toNat) := by
  apply BitVec.eq_of_toNat_eq; rw [toNat_byte, BitVec.toNat_add]

theorem twosComplementAdd_overflow (x y : Operand) (c : Bool) :
    (x.twosComplementAdd y c).2 = codeOverflow x.inner y.inner c := by
  simp only [Operand.twosComplementAdd, Operand.unwrap, codeOverflow, bitIsSet_7]

theorem adc_regs (r : Regs) (am : AddrMode) (v : Byte) :
    arithRegs r am ((Operand.new r.a).twosComplementAdd (Operand.new v) r.p.carry) =
      { r with
        a := byte (r.a.toNat + v.toNat)
        p := { setNZ r.p (byte (r.a.toNat + v.toNat)) with
          carry := decide (256 ≤ r.a.toNat + v.toNat)
          overflow := codeOverflow r.a v r.p.carry }
        pc := nextPc r am } := by
  unfold arithRegs
  rw [twosComplementAdd_overflow]
  simp only [Operand.twosComplementAdd, Operand.add, Operand.new, Operand.withFlags, Operand.unwrap,
    setNZ, msbSet_eq, beq_zero_eq, byte_add]

theorem toInt_byte (x : Byte) : x.toInt = if x.toNat < 128 then (x.toNat : Int) else x.toNat - 256 := by
  rw [BitVec.toInt_eq_toNat_cond]
  by_cases h : x.toNat < 128
  · rw [if_pos (by omega), if_pos h]
  · rw [if_neg (by omega), if_neg h]; rfl

theorem adc_overflow_iff (x v : Byte) :
    codeOverflow x v false = (addWithCarry x v false).2.2 ↔
      (x.toNat < 128 → v.toNat < 128 → x.toNat + v.toNat < 128) ∧
      (128 ≤ x.toNat → 128 ≤ v.toNat → x.toNat + v.toNat < 384) := by
  have hx := x.isLt
  have hv := v.isLt
  simp only [codeOverflow, addWithCarry, bit, toInt_byte, Bool.and_false, Bool.false_or, Bool.not_false,
    Bool.and_true, Bool.false_eq_true, if_false]
  rw [Bool.eq_iff_iff]
  simp only [Bool.and_eq_true, decide_eq_true_eq]
  by_cases h1 : x.toNat < 128 <;> by_cases h2 : v.toNat < 128 <;> simp only [h1, h2, if_true, if_false, true_implies, false_implies, true_and] <;>
    omega

theorem sbc_rhs (v : Byte) (c : Bool) :
    (255 - v : Byte) + boolAsU8 c = byte (255 - v.toNat + bit c) := by
  revert v c; decide +kernel

theorem sbc_regs (r : Regs) (am : AddrMode) (v : Byte) :
    arithRegs r am ((Operand.new r.a).twosComplementAdd
        ((Operand.new (255 - v)).add (Operand.new (boolAsU8 r.p.carry))) r.p.carry) =
      { sbcRegs r v am with
        p := { (sbcRegs r v am).p with
          carry := (subWithBorrow r.a v r.p.carry).2.1 && !(decide (v.toNat = 0) && r.p.carry)
          overflow := codeOverflow r.a (byte (255 - v.toNat + bit r.p.carry)) r.p.carry } } := by
  have ha := r.a.isLt
  have hv := v.isLt
  have hb : bit r.p.carry ≤ 1 := by cases r.p.carry <;> decide
  have e1 : byte (r.a.toNat + (byte (255 - v.toNat + bit r.p.carry)).toNat) =
      (subWithBorrow r.a v r.p.carry).1 := by
    apply BitVec.eq_of_toNat_eq
    simp only [subWithBorrow, toNat_byte]
    omega
  have e2 : decide (256 ≤ r.a.toNat + (byte (255 - v.toNat + bit r.p.carry)).toNat) =
      ((subWithBorrow r.a v r.p.carry).2.1 && !(decide (v.toNat = 0) && r.p.carry)) := by
    rw [Bool.eq_iff_iff]
    simp only [subWithBorrow, toNat_byte, Bool.and_eq_true, decide_eq_true_eq, Bool.not_eq_true',
      Bool.and_eq_false_iff, decide_eq_false_iff_not]
    cases hc : r.p.carry <;> simp only [bit, Bool.false_eq_true, if_true, if_false, or_true, or_false,
      reduceCtorEq, and_true] <;> omega
  unfold arithRegs
  rw [twosComplementAdd_overflow]
  simp only [Operand.twosComplementAdd, Operand.add, Operand.new, Operand.withFlags, Operand.unwrap,
    sbc_rhs, byte_add r.a, sbcRegs, setNZ, msbSet_eq, beq_zero_eq, e1, e2]

theorem compare_regs (r : Regs) (am : AddrMode) (x v : Byte) :
    compareRegs r am x v = { r with
      p := { compare r.p x v with
        carry := xor (compare r.p x v).carry
          (decide ((x.toNat = 0 ∧ 1 ≤ v.toNat ∧ v.toNat < 128) ∨
            (v.toNat = 0 ∧ 1 ≤ x.toNat ∧ x.toNat < 128))) }
      pc := nextPc r am } := by
  have hx := x.isLt
  have hv := v.isLt
  have e1 : (Operand.new x).ge (Operand.new v) = xor (decide (v.toNat ≤ x.toNat))
      (decide ((x.toNat = 0 ∧ 1 ≤ v.toNat ∧ v.toNat < 128) ∨
            (v.toNat = 0 ∧ 1 ≤ x.toNat ∧ x.toNat < 128))) := by
    simp only [Operand.ge, Operand.new, msbSet_eq, beq_zero_eq]
    by_cases a1 : 128 ≤ x.toNat <;> by_cases a2 : 128 ≤ v.toNat <;> by_cases a3 : x.toNat = 0 <;>
      by_cases a4 : v.toNat = 0 <;> by_cases a5 : v.toNat ≤ x.toNat <;> simp [a1, a2, a3, a4, a5] <;>
      omega
  have e2 : (x - v).toNat = (x.toNat + 256 - v.toNat) % 256 := by
    rw [BitVec.toNat_sub]; omega
  have e3 : decide ((x - v).toNat = 0) = decide (x = v) := by
    have : (x - v).toNat = 0 ↔ x = v := by
      rw [e2]
      constructor
      · intro h; apply BitVec.eq_of_toNat_eq; omega
      · rintro rfl; omega
    rw [Bool.eq_iff_iff, decide_eq_true_eq, decide_eq_true_eq]; exact this
  simp only [compareRegs, Spec.Mos.compare, setNZ, e1, e3]
  simp only [e2]

end Verif.Mos
