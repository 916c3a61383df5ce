import Verif.Proofs.MosRel

/-!
# Properties C34, C35: reset
-/

namespace Verif.Props

open Verif Verif.Mos Verif.Spec.Mos

/-- Only bit 5 of the status is set. -/
def resetStatus : ProcessorStatus where
  negative := false
  overflow := false
  unused := true
  brk := false
  decimal := false
  interrupt_disable := false
  zero := false
  carry := false

section
variable {B : Type} [Addressable B] {b : Build} {cpu : Mos6502 B}

/-- The documented state after a reset, with `lo` and `hi` at the reset vector. -/
def afterReset (bus : B) (lo hi : Byte) : Mos6502 B :=
  withRegs ⟨0, 0, 0, 0xff, word (lo.toNat + 256 * hi.toNat), resetStatus⟩ bus

/-! ## C34 Reset -/

/-- Whatever the state before: 5 more cycles to wait, `pc` from the vector, the documented registers,
and the same bus. -/
theorem C34_reset {lo hi : Byte} (hlo : Addressable.read b cpu.address_map 0xfffc = .ok lo)
    (hhi : Addressable.read b cpu.address_map 0xfffd = .ok hi) :
    reset b cpu = .ok (.notReady 5 (afterReset cpu.address_map lo hi)) := by
  have h1 : Addressable.read b (withAddressmap cpu.address_map).address_map RESET_VECTOR_LL = .ok lo := hlo
  have h2 : Addressable.read b (withAddressmap cpu.address_map).address_map RESET_VECTOR_HH = .ok hi := hhi
  unfold reset
  simp only [h1, h2, Res.ok_bind, StepState.new]
  unfold afterReset
  rw [← u16FromLeBytes_eq]
  rfl

omit [Addressable B] in
/-- Its status register reads 0x20. -/
theorem C34_status (bus : B) (lo hi : Byte) : (afterReset bus lo hi).ps.read = 0x20 := by
  show resetStatus.read = 0x20
  decide

/-- The wait takes 5 of the cycles of a run, then instructions execute from the vector. -/
theorem C34_run_after_reset {lo hi : Byte} {n : Nat}
    (hlo : Addressable.read b cpu.address_map 0xfffc = .ok lo)
    (hhi : Addressable.read b cpu.address_map 0xfffd = .ok hi) :
    ((reset b cpu).bind fun s => s.run b (5 + n)) =
      run b (afterReset cpu.address_map lo hi) n := by
  rw [C34_reset hlo hhi]
  show StepState.run b (.notReady 5 _) (5 + n) = _
  unfold StepState.run
  simp only
  rw [if_neg (by omega), show 5 + n - 5 = n by omega]
  rfl

/-- A reset panics only if reading the vector does. -/
theorem C34_panic {p : Panic} (h : reset b cpu = .error p) :
    Addressable.read b cpu.address_map 0xfffc = .error p ∨
    Addressable.read b cpu.address_map 0xfffd = .error p := by
  cases hlo : Addressable.read b cpu.address_map 0xfffc with
  | error q =>
    left
    have h1 : Addressable.read b (withAddressmap cpu.address_map).address_map RESET_VECTOR_LL =
      .error q := hlo
    unfold reset at h
    simp only [h1, Res.error_bind] at h
    simpa using h
  | ok lo =>
    cases hhi : Addressable.read b cpu.address_map 0xfffd with
    | error q =>
      right
      have h1 : Addressable.read b (withAddressmap cpu.address_map).address_map RESET_VECTOR_LL =
        .ok lo := hlo
      have h2 : Addressable.read b (withAddressmap cpu.address_map).address_map RESET_VECTOR_HH =
        .error q := hhi
      unfold reset at h
      simp only [h1, Res.ok_bind, h2, Res.error_bind] at h
      simpa using h
    | ok hi => rw [C34_reset hlo hhi] at h; cases h

/-! ## C35 Reset as microcode -/

end

/-- What C35 claims. -/
def C35_statement : Prop :=
  ∀ (B : Type) [Addressable B] (b : Build) (cpu : Mos6502 B) (s : StepState (Mos6502 B))
    (ops : Operations), reset b cpu = .ok s → resetAsMops b cpu = .ok ops →
    ops.cycles = 6 ∧ replay b (microcodeOf ops) cpu = .ok s.unwrap

/-- A machine with A = 0x8f and the reset vector 0x1234. -/
def resetSample : Mos6502 FlatRam :=
  machine sampleRegs 0xea 0xea 0xea (fun a => if a = 0xfffc then 0x34 else if a = 0xfffd then 0x12 else 0)

/-- The microcode leaves A at 0x8f, the reset clears it. -/
theorem C35_registers_kept : ¬ C35_statement := by
  intro h
  obtain ⟨-, h⟩ := h FlatRam .debug resetSample _ _ (C34_reset (lo := 0x34) (hi := 0x12) rfl rfl) rfl
  have h := congrArg (fun z : Res (Mos6502 FlatRam) => z.map (fun c => c.acc)) h
  revert h
  decide +kernel

/-- What holds: it takes 6 cycles and sets `pc`, `sp` and status as the reset does and keeps the bus,
but A, X and Y stay; so it is the same reset exactly if these three are 0 already. -/
theorem C35_partial {B : Type} [Addressable B] {b : Build} {cpu : Mos6502 B} {lo hi : Byte}
    (hlo : Addressable.read b cpu.address_map 0xfffc = .ok lo)
    (hhi : Addressable.read b cpu.address_map 0xfffd = .ok hi) :
    ∃ ops, resetAsMops b cpu = .ok ops ∧ ops.cycles = 6 ∧
      replay b (microcodeOf ops) cpu = .ok { afterReset cpu.address_map lo hi with
        acc := cpu.acc, x := cpu.x, y := cpu.y } ∧
      ((reset b cpu).map StepState.unwrap = replay b (microcodeOf ops) cpu ↔
        cpu.acc = 0 ∧ cpu.x = 0 ∧ cpu.y = 0) := by
  have h1 : Addressable.read b cpu.address_map RESET_VECTOR_LL = .ok lo := hlo
  have h2 : Addressable.read b cpu.address_map RESET_VECTOR_HH = .ok hi := hhi
  have hrun : ∀ pc : Word, replay b (microcodeOf ⟨0, 6, [
          .Write8bitRegister .Ps ProcessorStatus.default.read,
          .Write8bitRegister .Sp defaultSp,
          .Write16bitRegister .Pc pc]⟩) cpu =
      .ok ⟨cpu.address_map, cpu.acc, cpu.x, cpu.y, 0xff, pc, resetStatus⟩ := by
    intro pc
    simp only [microcodeOf, replay, List.cons_append, List.nil_append, executeAll, executeMut, write8,
      Res.ok_bind]
    have e : ProcessorStatus.withValue ProcessorStatus.default.read = resetStatus := by decide
    have e' : pc + word 0 = pc := by simp [word]
    rw [e, e']
    rfl
  refine ⟨_, by unfold resetAsMops; simp only [h1, h2, Res.ok_bind]; rfl, rfl, ?_, ?_⟩
  · rw [hrun, u16FromLeBytes_eq]; rfl
  · rw [hrun, C34_reset hlo hhi, u16FromLeBytes_eq]
    simp only [Except.map, StepState.unwrap, afterReset, withRegs, Except.ok.injEq, Mos6502.mk.injEq,
      true_and, and_true]
    constructor
    · rintro ⟨h, h', h''⟩; exact ⟨h.symm, h'.symm, h''.symm⟩
    · rintro ⟨h, h', h''⟩; exact ⟨h.symm, h'.symm, h''.symm⟩

/-- The sample machine meets the hypotheses; its reset goes to 0x1234. -/
example : Addressable.read .debug resetSample.address_map 0xfffc = .ok 0x34 ∧
    Addressable.read .debug resetSample.address_map 0xfffd = .ok 0x12 ∧
    (reset .debug resetSample).map (fun s => s.unwrap.pc) = .ok 0x1234 := by
  refine ⟨rfl, rfl, ?_⟩
  decide +kernel

end Verif.Props
