import Verif.Proofs.MosRun

/-!
# The number of cycles of an instruction, on any bus
-/

namespace Verif.Mos

open Verif Verif.Spec.Mos

/-- If operations result, they take 2 to 7 cycles. -/
def Cyc (r : Res Operations) : Prop := ∀ ops, r = .ok ops → 2 ≤ ops.cycles ∧ ops.cycles ≤ 7

theorem Cyc.bind {α : Type} {x : Res α} {f : α → Res Operations} (h : ∀ a, Cyc (f a)) :
    Cyc (x >>= f) := by
  intro ops e
  cases x with
  | error p => cases e
  | ok a => exact h a ops e

theorem Cyc.ok {ops : Operations} (h : 2 ≤ ops.cycles ∧ ops.cycles ≤ 7) : Cyc (.ok ops) := by
  intro ops' e
  obtain rfl := Except.ok.inj e
  exact h

theorem Cyc.penalty {o k : Nat} {c : Bool} {mcs : List Microcode} (h : 2 ≤ k ∧ k ≤ 6) :
    Cyc (.ok ⟨o, k + usizeFromBool c, mcs⟩) := by
  apply Cyc.ok
  cases c
  · exact ⟨h.1, by show k + 0 ≤ 7; omega⟩
  · exact ⟨by show 2 ≤ k + 1; omega, by show k + 1 ≤ 7; omega⟩

section
variable {B : Type} [Addressable B] {b : Build}

omit [Addressable B] in
theorem branch_cyc (cpu : Mos6502 B) (cond : Bool) (d : Byte) (o k : Nat) (h : 2 ≤ k ∧ k ≤ 5) :
    Cyc (branchOnCase b cond d o k cpu) := by
  unfold branchOnCase
  refine Cyc.bind fun page => Cyc.ok ?_
  simp only
  split <;> omega

set_option maxHeartbeats 1600000 in
theorem generate_cyc (cpu : Mos6502 B) (i : InstructionVariant) : Cyc (i.generate b cpu) := by
  cases i
  all_goals
    simp only [InstructionVariant.generate,
    adcAbsolute, adcAbsoluteIndexedWithX, adcAbsoluteIndexedWithY, adcIndirectYIndexed,
    adcImmediate, adcXIndexedIndirect, adcZeroPage, adcZeroPageIndexedWithX, sbcAbsolute,
    sbcAbsoluteIndexedWithX, sbcAbsoluteIndexedWithY, sbcIndirectYIndexed, sbcImmediate,
    sbcXIndexedIndirect, sbcZeroPage, sbcZeroPageIndexedWithX, bccRelative, bcsRelative,
    beqRelative, bmiRelative, bneRelative, bplRelative, bvcRelative, bvsRelative,
    cmpAbsolute, cmpAbsoluteIndexedWithX, cmpAbsoluteIndexedWithY, cmpIndirectYIndexed,
    cmpImmediate, cmpXIndexedIndirect, cmpZeroPage, cmpZeroPageIndexedWithX, cpxAbsolute,
    cpxImmediate, cpxZeroPage, cpyAbsolute, cpyImmediate, cpyZeroPage, clcImplied,
    cldImplied, cliImplied, clvImplied, secImplied, sedImplied, seiImplied, decAbsolute,
    decAbsoluteIndexedWithX, decZeroPage, decZeroPageIndexedWithX, dexImplied, deyImplied,
    incAbsolute, incAbsoluteIndexedWithX, incZeroPage, incZeroPageIndexedWithX, inxImplied,
    inyImplied, jmpAbsolute, jsrAbsolute, rtsImplied, rtiImplied, brkImplied, nopImplied,
    ldaImmediate, ldaZeroPage, ldaZeroPageIndexedWithX, ldaAbsolute,
    ldaAbsoluteIndexedWithX, ldaAbsoluteIndexedWithY, ldaIndirectYIndexed,
    ldaXIndexedIndirect, ldxAbsolute, ldxAbsoluteIndexedWithY, ldxImmediate, ldxZeroPage,
    ldxZeroPageIndexedWithY, ldyAbsolute, ldyAbsoluteIndexedWithX, ldyImmediate,
    ldyZeroPage, ldyZeroPageIndexedWithX, andAbsolute, andAbsoluteIndexedWithX,
    andAbsoluteIndexedWithY, andIndirectYIndexed, andImmediate, andXIndexedIndirect,
    andZeroPage, andZeroPageIndexedWithX, bitAbsolute, bitZeroPage, eorAbsolute,
    eorAbsoluteIndexedWithX, eorAbsoluteIndexedWithY, eorIndirectYIndexed, eorImmediate,
    eorXIndexedIndirect, eorZeroPage, eorZeroPageIndexedWithX, oraAbsolute,
    oraAbsoluteIndexedWithX, oraAbsoluteIndexedWithY, oraIndirectYIndexed, oraImmediate,
    oraXIndexedIndirect, oraZeroPage, oraZeroPageIndexedWithX, aslAbsolute,
    aslAbsoluteIndexedWithX, aslAccumulator, aslZeroPage, aslZeroPageIndexedWithX,
    lsrAbsolute, lsrAbsoluteIndexedWithX, lsrAccumulator, lsrZeroPage,
    lsrZeroPageIndexedWithX, rolAbsolute, rolAbsoluteIndexedWithX, rolAccumulator,
    rolZeroPage, rolZeroPageIndexedWithX, rorAbsolute, rorAbsoluteIndexedWithX,
    rorAccumulator, rorZeroPage, rorZeroPageIndexedWithX, phaImplied, phpImplied,
    plaImplied, plpImplied, staAbsolute, staAbsoluteIndexedWithX, staAbsoluteIndexedWithY,
    staIndirectYIndexed, staXIndexedIndirect, staZeroPage, staZeroPageIndexedWithX,
    stxAbsolute, stxZeroPage, stxZeroPageIndexedWithY, styAbsolute, styZeroPage,
    styZeroPageIndexedWithX, taxImplied, tayImplied, tsxImplied, txaImplied, txsImplied,
    tyaImplied]
  all_goals
    first
    | exact branch_cyc _ _ _ _ _ (by decide)
    | (repeat' (refine Cyc.bind fun _ => ?_)
       first
       | exact Cyc.penalty (by decide)
       | exact Cyc.ok (by simp only; decide))

theorem next_cyc {c c' : Mos6502 B} {ops : Operations} (h : next b c = .ok (ops, c')) :
    2 ≤ ops.cycles ∧ ops.cycles ≤ 7 := by
  unfold next at h
  cases hf : fetch b c with
  | error e => rw [hf] at h; cases h
  | ok i =>
    rw [hf, Res.ok_bind] at h
    cases hg : i.generate b c with
    | error e => rw [hg] at h; cases h
    | ok mops =>
      rw [hg, Res.ok_bind] at h
      cases hs : mops.intoSteps b with
      | error e => rw [hs] at h; cases h
      | ok steps =>
        rw [hs, Res.ok_bind] at h
        cases he : executeAll b steps.flatten c with
        | error e => rw [he] at h; cases h
        | ok cpu' =>
          rw [he, Res.ok_bind] at h
          simp only [Except.ok.injEq, Prod.mk.injEq] at h
          obtain ⟨rfl, rfl⟩ := h
          exact generate_cyc c i _ hg

theorem instructions_cyc {c c' : Mos6502 B} {l : List Operations} (h : Instructions b c l c') :
    2 * l.length ≤ totalCycles l ∧ totalCycles l ≤ 7 * l.length := by
  induction h with
  | nil _ => exact ⟨Nat.le_refl _, Nat.le_refl _⟩
  | cons h _ ih =>
    have := next_cyc h
    rw [totalCycles_cons, List.length_cons]
    omega

end

end Verif.Mos
