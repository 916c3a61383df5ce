import Verif.Proofs.MosEffect

/-!
# One step of the 6502, completely described
-/

namespace Verif.Mos

open Verif Verif.Spec.Mos

section
variable {B : Type} [Addressable B] {b : Build} {cpu : Mos6502 B} {mem : Mem}

theorem baseCycles_pos (mn : Mnemonic) (am : AddrMode) : 2 ≤ baseCycles mn am := by
  have h : 2 ≤ readCycles am := by cases am <;> simp [readCycles]
  cases mn <;> simp only [baseCycles] <;> (try split) <;> omega

theorem code_cycles_pos (r : Regs) (mem : Mem) (mn : Mnemonic) (am : AddrMode) :
    0 < (code r mem mn am).cycles := by
  have := baseCycles_pos mn am
  simp only [code]; omega

omit [Addressable B] in
theorem withRegs_regs (cpu : Mos6502 B) : withRegs (regs cpu) cpu.address_map = cpu := rfl

/-- A step whose address arithmetic does not overflow. -/
theorem step_ok {i : InstructionVariant} (hat : At b cpu i) (hv : BusView b cpu.address_map mem)
    (hok : AddrOk b (regs cpu) mem (view i).2) :
    next b cpu = (writeAll b cpu.address_map
        (codeEffect (regs cpu) mem (view i).1 (view i).2).writes).map
      (fun bus => (code (regs cpu) mem (view i).1 (view i).2,
        withRegs (codeEffect (regs cpu) mem (view i).1 (view i).2).regs bus)) := by
  have h := exec_code (b := b) (regs cpu) cpu.address_map mem (view i).1 (view i).2
  rw [withRegs_regs] at h
  simp only [code] at h
  rw [next_of_generate _ _ _ hat (generate_code hv i hok) (code_cycles_pos _ _ _ _), h]
  cases writeAll b cpu.address_map (codeEffect (regs cpu) mem (view i).1 (view i).2).writes <;> rfl

theorem step_has {i : InstructionVariant} {mn : Mnemonic} {am : AddrMode} (hat : At b cpu i)
    (hv : BusView b cpu.address_map mem) (hi : view i = (mn, am))
    (hok : AddrOk b (regs cpu) mem am) : StepHas b cpu (codeEffect (regs cpu) mem mn am) := by
  unfold StepHas
  have h := step_ok hat hv (by rw [hi]; exact hok)
  rw [hi] at h
  rw [h]
  cases writeAll b cpu.address_map (codeEffect (regs cpu) mem mn am).writes <;> rfl

theorem step_cycles {i : InstructionVariant} {mn : Mnemonic} {am : AddrMode} (hat : At b cpu i)
    (hv : BusView b cpu.address_map mem) (hi : view i = (mn, am))
    (hok : AddrOk b (regs cpu) mem am) {ops : Operations} {cpu' : Mos6502 B}
    (hn : next b cpu = .ok (ops, cpu')) :
    ops.cycles = baseCycles mn am + codePenalty (regs cpu) mem mn am := by
  have h := step_ok hat hv (by rw [hi]; exact hok)
  rw [hi, hn] at h
  revert h
  cases writeAll b cpu.address_map (codeEffect (regs cpu) mem mn am).writes with
  | error e => intro h; cases h
  | ok bus =>
    intro h
    have h' := congrArg (fun z => match z with | .ok y => y.1.cycles | .error _ => 0) h
    exact h'

theorem not_or_checks {b : Build} {p : Prop} (h : ¬(b.overflowChecks = false ∨ p)) :
    b.overflowChecks = true ∧ ¬p := by
  constructor
  · cases hb : b.overflowChecks
    · exact absurd (Or.inl hb) h
    · rfl
  · intro hp; exact h (Or.inr hp)

theorem overflow_indexed_indirect (h : BusView b cpu.address_map mem) (z : Byte)
    (hok : ¬AddrOk b (regs cpu) mem (.indexedIndirect z)) :
    dereferenceIndexedIndirectAddress b cpu z cpu.x = .error .overflow := by
  obtain ⟨hb, hx⟩ := not_or_checks hok
  have hx' : cpu.x.toNat = 255 := Decidable.of_not_not hx
  have h1 : addU8 b cpu.x 1 = .error .overflow := by
    unfold addU8
    rw [if_pos ⟨hb, by rw [hx']; decide⟩]
  simp only [dereferenceIndexedIndirectAddress, h _, h1, Res.ok_bind, Res.error_bind]

theorem overflow_indirect_indexed (h : BusView b cpu.address_map mem) (z : Byte)
    (hok : ¬AddrOk b (regs cpu) mem (.indirectIndexed z)) :
    dereferenceIndirectIndexedAddress b cpu z cpu.y = .error .overflow := by
  obtain ⟨hb, hx⟩ := not_or_checks hok
  have e1 : u16OfU8 (z + 1) = word ((z.toNat + 1) % 256) := by
    rw [u16OfU8_eq, BitVec.toNat_add]; rfl
  simp only [dereferenceIndirectIndexedAddress, h _, Res.ok_bind, u16OfU8_eq z, e1]
  unfold addU16
  rw [if_pos]
  refine ⟨hb, ?_⟩
  rw [toNat_u16FromLeBytes, u16OfU8_eq, toNat_word]
  simp only [baseAddr, le, regs] at hx
  have := cpu.y.isLt
  omega

theorem overflow_indirect (h : BusView b cpu.address_map mem) (w : Word)
    (hok : ¬AddrOk b (regs cpu) mem (.indirect w)) : jmpIndirect b cpu w = .error .overflow := by
  obtain ⟨hb, hx⟩ := not_or_checks hok
  have hx' : w.toNat = 65535 := Decidable.of_not_not hx
  have h1 : addU16 b w 1 = .error .overflow := by
    unfold addU16
    rw [if_pos ⟨hb, by rw [hx']; decide⟩]
  simp only [jmpIndirect, h _, h1, Res.ok_bind, Res.error_bind]

/-- When the address arithmetic overflows in a checked build, `generate` panics. -/
theorem generate_overflow (hv : BusView b cpu.address_map mem) (i : InstructionVariant)
    (hok : ¬AddrOk b (regs cpu) mem (view i).2) : i.generate b cpu = .error .overflow := by
  cases i <;> simp only [view] at hok <;> first
    | exact absurd trivial hok
    | exact overflow_indirect hv _ hok
    | (simp only [InstructionVariant.generate]
       first
       | (unfold adcIndirectYIndexed; simp only [overflow_indirect_indexed hv _ hok, Res.error_bind])
       | (unfold sbcIndirectYIndexed; simp only [overflow_indirect_indexed hv _ hok, Res.error_bind])
       | (unfold andIndirectYIndexed; simp only [overflow_indirect_indexed hv _ hok, Res.error_bind])
       | (unfold oraIndirectYIndexed; simp only [overflow_indirect_indexed hv _ hok, Res.error_bind])
       | (unfold eorIndirectYIndexed; simp only [overflow_indirect_indexed hv _ hok, Res.error_bind])
       | (unfold cmpIndirectYIndexed; simp only [overflow_indirect_indexed hv _ hok, Res.error_bind])
       | (unfold ldaIndirectYIndexed; simp only [overflow_indirect_indexed hv _ hok, Res.error_bind])
       | (unfold staIndirectYIndexed; simp only [overflow_indirect_indexed hv _ hok, Res.error_bind])
       | (unfold adcXIndexedIndirect; simp only [overflow_indexed_indirect hv _ hok, Res.error_bind])
       | (unfold sbcXIndexedIndirect; simp only [overflow_indexed_indirect hv _ hok, Res.error_bind])
       | (unfold andXIndexedIndirect; simp only [overflow_indexed_indirect hv _ hok, Res.error_bind])
       | (unfold oraXIndexedIndirect; simp only [overflow_indexed_indirect hv _ hok, Res.error_bind])
       | (unfold eorXIndexedIndirect; simp only [overflow_indexed_indirect hv _ hok, Res.error_bind])
       | (unfold cmpXIndexedIndirect; simp only [overflow_indexed_indirect hv _ hok, Res.error_bind])
       | (unfold ldaXIndexedIndirect; simp only [overflow_indexed_indirect hv _ hok, Res.error_bind])
       | (unfold staXIndexedIndirect; simp only [overflow_indexed_indirect hv _ hok, Res.error_bind]))

theorem step_overflow {i : InstructionVariant} (hat : At b cpu i)
    (hv : BusView b cpu.address_map mem) (hok : ¬AddrOk b (regs cpu) mem (view i).2) :
    next b cpu = .error .overflow := by
  rw [next_eq hat, generate_overflow hv i hok]; rfl

/-- The fetch on a bus that shows `mem`. -/
theorem fetch_eq (hv : BusView b cpu.address_map mem) :
    fetch b cpu =
      if b.overflowChecks = true ∧ 65534 ≤ cpu.pc.toNat then .error .overflow
      else match Isa.parseInstruction (mem cpu.pc) (mem (cpu.pc + 1)) (mem (cpu.pc + 2)) with
        | some i => .ok i
        | none => .error (.unwrapErr s!"No match found for {(mem cpu.pc).toNat}") := by
  have h1 : (1 : Word).toNat = 1 := rfl
  have h2 : (2 : Word).toNat = 2 := rfl
  have := cpu.pc.isLt
  unfold fetch addU16
  rw [h1, h2]
  simp only [hv _, Res.ok_bind]
  cases hb : b.overflowChecks
  · simp only [Bool.false_eq_true, false_and, if_false, Res.ok_bind]
    rfl
  · simp only [true_and]
    by_cases ha : 65534 ≤ cpu.pc.toNat
    · rw [if_pos ha]
      by_cases hc : 65536 ≤ cpu.pc.toNat + 1
      · rw [if_pos hc]; rfl
      · rw [if_neg hc, if_pos (by omega)]; rfl
    · rw [if_neg ha, if_neg (by omega), if_neg (by omega)]
      simp only [Res.ok_bind]
      rfl

end

end Verif.Mos
