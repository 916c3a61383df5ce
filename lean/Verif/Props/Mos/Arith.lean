import Verif.Proofs.MosArith

/-!
# Properties C23 – C25: ADC, SBC and the compares

The three are false of the code. For each: the documented statement, its refutation by a concrete
machine, and a `_partial` theorem that gives the exact effect of the code and the exact condition
under which it is the documented one.
-/

namespace Verif.Props

open Verif Verif.Mos Verif.Spec.Mos

variable {B : Type} [Addressable B] {b : Build} {cpu : Mos6502 B} {mem : Mem}
  {i : InstructionVariant} {am : AddrMode}

/-! ## C23 ADC -/

/-- What C23 claims. -/
def C23_statement : Prop :=
  ∀ (B : Type) [Addressable B] (b : Build) (cpu : Mos6502 B) (mem : Mem) (i : InstructionVariant)
    (am : AddrMode), At b cpu i → BusView b cpu.address_map mem → view i = (.Adc, am) →
    AddrOk b (regs cpu) mem am → cpu.ps.decimal = false →
    StepHas b cpu { regs := adcRegs (regs cpu) (operand (regs cpu) mem am) am }

/-- ADC #0 with A = 0x8f and carry set leaves A at 0x8f: the carry is not added. -/
theorem C23_carry_ignored : ¬ C23_statement := by
  intro h
  have h' := h FlatRam .debug (machine sampleRegs 0x69 0 0) _ _ _
    (machine_at _ _ _ _ _ _ (by decide) rfl) (machine_view _ _ _ _ _ _) rfl trivial rfl
  have h'' := congrArg (fun z => match z with | .ok y => y.acc | .error _ => 0) h'
  revert h''; decide

/-- Also without carry the overflow flag is wrong: 0x50 + 0x50 does not set V. -/
theorem C23_overflow_wrong : ∃ (cpu : Mos6502 FlatRam) (ops : Operations) (cpu' : Mos6502 FlatRam),
    At .debug cpu (.AdcImmediate 0x50) ∧ cpu.acc = 0x50 ∧ cpu.ps.carry = false ∧
    cpu.ps.decimal = false ∧ next .debug cpu = .ok (ops, cpu') ∧ cpu'.acc = 0xa0 ∧
    cpu'.ps.overflow = false ∧ (addWithCarry 0x50 0x50 false).2.2 = true :=
  ⟨machine { sampleRegs with a := 0x50, p := ProcessorStatus.default } 0x69 0x50 0, _, _,
    rfl, rfl, rfl, rfl, rfl, rfl, rfl, by decide⟩

/-- The effect ADC does have, in full: the carry is not added, carry out is that of A + M, N and Z
are those of the result, V is `codeOverflow`. It is the documented effect exactly when the carry
is clear and the sum does not leave 128..383 the wrong way: no signed overflow of two
non-negative operands, and two negative operands only if their sum overflows. -/
theorem C23_partial (hat : At b cpu i) (hv : BusView b cpu.address_map mem)
    (hi : view i = (.Adc, am)) (hok : AddrOk b (regs cpu) mem am) :
    StepHas b cpu { regs := { regs cpu with
      a := byte (cpu.acc.toNat + (operand (regs cpu) mem am).toNat)
      p := { setNZ cpu.ps (byte (cpu.acc.toNat + (operand (regs cpu) mem am).toNat)) with
        carry := decide (256 ≤ cpu.acc.toNat + (operand (regs cpu) mem am).toNat)
        overflow := codeOverflow cpu.acc (operand (regs cpu) mem am) cpu.ps.carry }
      pc := nextPc (regs cpu) am } } ∧
    (StepHas b cpu { regs := adcRegs (regs cpu) (operand (regs cpu) mem am) am } ↔
      cpu.ps.carry = false ∧
      (cpu.acc.toNat < 128 → (operand (regs cpu) mem am).toNat < 128 →
        cpu.acc.toNat + (operand (regs cpu) mem am).toNat < 128) ∧
      (128 ≤ cpu.acc.toNat → 128 ≤ (operand (regs cpu) mem am).toNat →
        cpu.acc.toNat + (operand (regs cpu) mem am).toNat < 384)) := by
  have h : StepHas b cpu _ := step_has hat hv hi hok
  simp only [codeEffect] at h
  generalize operand (regs cpu) mem am = v at *
  rw [adc_regs] at h
  refine ⟨h, ?_⟩
  rw [stepHas_regs_iff h]
  constructor
  · intro e
    have e1 : byte (cpu.acc.toNat + v.toNat) = byte (cpu.acc.toNat + v.toNat + bit cpu.ps.carry) :=
      congrArg Regs.a e
    have e2 : codeOverflow cpu.acc v cpu.ps.carry = _ := congrArg (fun r => r.p.overflow) e
    have hc : cpu.ps.carry = false := by
      cases hc : cpu.ps.carry
      · rfl
      · rw [hc] at e1
        have := congrArg BitVec.toNat e1
        rw [toNat_byte, toNat_byte] at this
        simp only [bit, ite_true] at this
        omega
    rw [hc] at e2
    exact ⟨hc, (adc_overflow_iff cpu.acc v).mp (e2.trans (by simp only [adcRegs, regs, hc]))⟩
  · rintro ⟨hc, hcond⟩
    have e2 := (adc_overflow_iff cpu.acc v).mpr hcond
    simp only [adcRegs, regs, hc, e2]
    simp only [addWithCarry, bit, Bool.false_eq_true, if_false, Nat.add_zero]
    rfl

/-- ADC #0x20 with A = 0x30, C = 0: the condition of `C23_partial` holds. -/
example : ∃ (cpu : Mos6502 FlatRam) (mem : Mem), cpu.acc = 0x30 ∧ cpu.ps.carry = false ∧
    At .debug cpu (.AdcImmediate 0x20) ∧ BusView .debug cpu.address_map mem :=
  ⟨machine { sampleRegs with a := 0x30, p := ProcessorStatus.default } 0x69 0x20 0, _, rfl, rfl,
    machine_at _ _ _ _ _ _ (by decide) rfl, machine_view _ _ _ _ _ _⟩

/-! ## C24 SBC -/

/-- What C24 claims. -/
def C24_statement : Prop :=
  ∀ (B : Type) [Addressable B] (b : Build) (cpu : Mos6502 B) (mem : Mem) (i : InstructionVariant)
    (am : AddrMode), At b cpu i → BusView b cpu.address_map mem → view i = (.Sbc, am) →
    AddrOk b (regs cpu) mem am → cpu.ps.decimal = false →
    StepHas b cpu { regs := sbcRegs (regs cpu) (operand (regs cpu) mem am) am }

/-- SBC #0 with carry set clears the carry although there is no borrow. -/
theorem C24_carry_wrong : ¬ C24_statement := by
  intro h
  have h' := h FlatRam .debug (machine sampleRegs 0xe9 0 0) _ _ _
    (machine_at _ _ _ _ _ _ (by decide) rfl) (machine_view _ _ _ _ _ _) rfl trivial rfl
  have h'' := congrArg (fun z => match z with | .ok y => y.ps.carry | .error _ => false) h'
  revert h''; decide

/-- The overflow flag is wrong too: 0x50 - 0xb0 (signed: 80 - (-80)) does not overflow, according
to the code, when there is a borrow in. -/
theorem C24_overflow_wrong : ∃ (cpu : Mos6502 FlatRam) (ops : Operations) (cpu' : Mos6502 FlatRam),
    At .debug cpu (.SbcImmediate 0xb0) ∧ cpu.acc = 0x50 ∧ cpu.ps.carry = false ∧
    cpu.ps.decimal = false ∧ next .debug cpu = .ok (ops, cpu') ∧
    cpu'.ps.overflow = false ∧ (subWithBorrow 0x50 0xb0 false).2.2 = true :=
  ⟨machine { sampleRegs with a := 0x50, p := ProcessorStatus.default } 0xe9 0xb0 0, _, _,
    rfl, rfl, rfl, rfl, rfl, rfl, by decide⟩

/-- The effect SBC does have: A, N and Z are always the documented ones; C is, except for operand 0
with carry set, where the code clears it; V is `codeOverflow` of A and 255 - M + C. It is the
documented effect exactly when that exception does not apply and V happens to agree. -/
theorem C24_partial (hat : At b cpu i) (hv : BusView b cpu.address_map mem)
    (hi : view i = (.Sbc, am)) (hok : AddrOk b (regs cpu) mem am) :
    StepHas b cpu { regs := { sbcRegs (regs cpu) (operand (regs cpu) mem am) am with
      p := { (sbcRegs (regs cpu) (operand (regs cpu) mem am) am).p with
        carry := (subWithBorrow cpu.acc (operand (regs cpu) mem am) cpu.ps.carry).2.1 &&
          !(decide ((operand (regs cpu) mem am).toNat = 0) && cpu.ps.carry)
        overflow := codeOverflow cpu.acc
          (byte (255 - (operand (regs cpu) mem am).toNat + bit cpu.ps.carry)) cpu.ps.carry } } } ∧
    (StepHas b cpu { regs := sbcRegs (regs cpu) (operand (regs cpu) mem am) am } ↔
      ¬ ((operand (regs cpu) mem am).toNat = 0 ∧ cpu.ps.carry = true) ∧
      codeOverflow cpu.acc
          (byte (255 - (operand (regs cpu) mem am).toNat + bit cpu.ps.carry)) cpu.ps.carry =
        (subWithBorrow cpu.acc (operand (regs cpu) mem am) cpu.ps.carry).2.2) := by
  have h : StepHas b cpu _ := step_has hat hv hi hok
  simp only [codeEffect] at h
  generalize operand (regs cpu) mem am = v at *
  rw [sbc_regs] at h
  refine ⟨h, ?_⟩
  rw [stepHas_regs_iff h]
  constructor
  · intro e
    have e1 : ((subWithBorrow cpu.acc v cpu.ps.carry).2.1 &&
        !(decide (v.toNat = 0) && cpu.ps.carry)) = (subWithBorrow cpu.acc v cpu.ps.carry).2.1 :=
      congrArg (fun r => r.p.carry) e
    have e2 : codeOverflow cpu.acc (byte (255 - v.toNat + bit cpu.ps.carry)) cpu.ps.carry =
      (subWithBorrow cpu.acc v cpu.ps.carry).2.2 := congrArg (fun r => r.p.overflow) e
    refine ⟨?_, e2⟩
    rintro ⟨h0, hc⟩
    rw [hc] at e1
    simp [subWithBorrow, h0, bit] at e1
  · rintro ⟨hne, e2⟩
    have e1 : (decide (v.toNat = 0) && cpu.ps.carry) = false := by
      rw [Bool.eq_false_iff]; simpa using hne
    simp only [sbcRegs, regs, e1, e2, Bool.not_false, Bool.and_true]

/-- SBC #0x20 with A = 0x90, C = 1. -/
example : ∃ (cpu : Mos6502 FlatRam) (mem : Mem), regs cpu = sampleRegs ∧
    At .debug cpu (.SbcImmediate 0x20) ∧ BusView .debug cpu.address_map mem :=
  exists_at _ _ 0xe9 0x20 0 (by decide) rfl (fun _ => 0)

/-! ## C25 Compares -/

/-- The register a compare instruction uses. -/
def comparedRegister (r : Regs) : Mnemonic → Option Byte
  | .Cmp => some r.a
  | .Cpx => some r.x
  | .Cpy => some r.y
  | _ => none

/-- What C25 claims. -/
def C25_statement : Prop :=
  ∀ (B : Type) [Addressable B] (b : Build) (cpu : Mos6502 B) (mem : Mem) (i : InstructionVariant)
    (mn : Mnemonic) (am : AddrMode) (x : Byte), At b cpu i → BusView b cpu.address_map mem →
    view i = (mn, am) → comparedRegister (regs cpu) mn = some x → AddrOk b (regs cpu) mem am →
    StepHas b cpu { regs := { regs cpu with
      p := compare cpu.ps x (operand (regs cpu) mem am)
      pc := nextPc (regs cpu) am } }

/-- CPX #0 with X = 1 clears the carry although 1 ≥ 0. -/
theorem C25_carry_wrong : ¬ C25_statement := by
  intro h
  have h' := h FlatRam .debug (machine sampleRegs 0xe0 0 0) _ _ _ _ _
    (machine_at _ _ _ _ _ _ (by decide) rfl) (machine_view _ _ _ _ _ _) rfl rfl trivial
  have h'' := congrArg (fun z => match z with | .ok y => y.ps.carry | .error _ => false) h'
  revert h''; decide

/-- The effect the compares do have: N and Z are the documented ones; the carry is too, except that
it is inverted when one of the two numbers is 0 and the other is in 1..127. -/
theorem C25_partial {mn : Mnemonic} {x : Byte} (hat : At b cpu i)
    (hv : BusView b cpu.address_map mem) (hi : view i = (mn, am))
    (hx : comparedRegister (regs cpu) mn = some x) (hok : AddrOk b (regs cpu) mem am) :
    StepHas b cpu { regs := { regs cpu with
      p := { compare cpu.ps x (operand (regs cpu) mem am) with
        carry := xor (compare cpu.ps x (operand (regs cpu) mem am)).carry
          (decide ((x.toNat = 0 ∧ 1 ≤ (operand (regs cpu) mem am).toNat ∧
              (operand (regs cpu) mem am).toNat < 128) ∨
            ((operand (regs cpu) mem am).toNat = 0 ∧ 1 ≤ x.toNat ∧ x.toNat < 128))) }
      pc := nextPc (regs cpu) am } } ∧
    (StepHas b cpu { regs := { regs cpu with
      p := compare cpu.ps x (operand (regs cpu) mem am)
      pc := nextPc (regs cpu) am } } ↔
      ¬ ((x.toNat = 0 ∧ 1 ≤ (operand (regs cpu) mem am).toNat ∧
              (operand (regs cpu) mem am).toNat < 128) ∨
            ((operand (regs cpu) mem am).toNat = 0 ∧ 1 ≤ x.toNat ∧ x.toNat < 128))) := by
  have h : StepHas b cpu { regs := compareRegs (regs cpu) am x (operand (regs cpu) mem am) } := by
    have h : StepHas b cpu _ := step_has hat hv hi hok
    cases mn <;> simp only [comparedRegister, Option.some.injEq, reduceCtorEq] at hx <;>
      (subst hx; exact h)
  generalize operand (regs cpu) mem am = v at *
  rw [compare_regs] at h
  refine ⟨h, ?_⟩
  rw [stepHas_regs_iff h]
  constructor
  · intro e hc
    have e1 : xor (compare cpu.ps x v).carry (decide ((x.toNat = 0 ∧ 1 ≤ v.toNat ∧ v.toNat < 128) ∨
        (v.toNat = 0 ∧ 1 ≤ x.toNat ∧ x.toNat < 128))) = (compare cpu.ps x v).carry :=
      congrArg (fun r => r.p.carry) e
    rw [decide_eq_true hc] at e1
    revert e1
    cases (compare cpu.ps x v).carry <;> decide
  · intro hc
    rw [decide_eq_false hc, Bool.xor_false]
    rfl

/-- CMP #0x80 with A = 0x8f; CPY #1 with Y = 0xfe. -/
example : ∃ (cpu : Mos6502 FlatRam) (mem : Mem), regs cpu = sampleRegs ∧
    At .debug cpu (.CmpImmediate 0x80) ∧ BusView .debug cpu.address_map mem :=
  exists_at _ _ 0xc9 0x80 0 (by decide) rfl (fun _ => 0)

example : ∃ (cpu : Mos6502 FlatRam) (mem : Mem), regs cpu = sampleRegs ∧
    At .debug cpu (.CpyAbsolute 0x1234) ∧ BusView .debug cpu.address_map mem :=
  exists_at _ _ 0xcc 0x34 0x12 (by decide) rfl (fun _ => 1)

end Verif.Props
