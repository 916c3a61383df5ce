import Mathlib.Tactic.IntervalCases
import Verif.Spec.MosOpcodes
import Verif.Props.Mos.Control

/-!
# Property C64: which instruction the bytes at `pc` are
-/

namespace Verif.Props

open Verif Verif.Mos Verif.Spec.Mos

theorem operand16_eq (lo hi : Byte) : u16FromLeBytes lo hi = operand16 lo hi := by
  have h1 := lo.isLt
  have h2 := hi.isLt
  unfold u16FromLeBytes operand16
  apply BitVec.eq_of_toNat_eq
  rw [BitVec.toNat_append, BitVec.toNat_ofNat, ← Nat.shiftLeft_add_eq_or_of_lt h1,
    Nat.shiftLeft_eq, Nat.mod_eq_of_lt (by omega)]
  omega

/-- C64: the decoder is the documented opcode matrix, for all 2^24 words of three bytes. -/
theorem C64_matrix (b0 b1 b2 : Byte) :
    (Isa.parseInstruction b0 b1 b2).map view = documented b0.toNat b1 b2 := by
  have hlt : b0.toNat < 256 := b0.isLt
  unfold Isa.parseInstruction
  generalize b0.toNat = n at *
  simp only [operand16_eq]
  interval_cases n <;> rfl

/-- 151 of the 256 opcodes are documented, whatever the operand bytes. -/
theorem C64_count (b1 b2 : Byte) :
    ((List.range 256).filter fun op => (documented op b1 b2).isSome).length = 151 := by
  rfl

section
variable {B : Type} [Addressable B] {b : Build} {cpu : Mos6502 B} {mem : Mem}

/-- The instruction the emulator executes is the documented one at `pc`. -/
theorem C64_fetch {i : InstructionVariant} (hv : BusView b cpu.address_map mem) (hat : At b cpu i) :
    documented (mem cpu.pc).toNat (mem (cpu.pc + 1)) (mem (cpu.pc + 2)) = some (view i) := by
  unfold At at hat
  rw [fetch_eq hv] at hat
  split at hat
  · cases hat
  · rw [← C64_matrix]
    split at hat
    · rename_i j h
      cases hat
      rw [h]
      rfl
    · cases hat

/-- Every documented instruction is executed, unless its bytes run past 0xffff in a build with
overflow checks. -/
theorem C64_all {mn : Mnemonic} {am : AddrMode} (hv : BusView b cpu.address_map mem)
    (hpc : b.overflowChecks = false ∨ cpu.pc.toNat < 65534)
    (h : documented (mem cpu.pc).toNat (mem (cpu.pc + 1)) (mem (cpu.pc + 2)) = some (mn, am)) :
    ∃ i, At b cpu i ∧ view i = (mn, am) := by
  rw [← C64_matrix, Option.map_eq_some_iff] at h
  obtain ⟨i, h1, h2⟩ := h
  refine ⟨i, ?_, h2⟩
  unfold At
  rw [fetch_eq hv, if_neg, h1]
  rintro ⟨h3, h4⟩
  rcases hpc with hpc | hpc
  · rw [hpc] at h3; cases h3
  · omega

/-- Every other opcode panics. -/
theorem C64_undocumented (hv : BusView b cpu.address_map mem)
    (h : documented (mem cpu.pc).toNat (mem (cpu.pc + 1)) (mem (cpu.pc + 2)) = none) :
    ∃ p, next b cpu = .error p := by
  rw [← C64_matrix, Option.map_eq_none_iff] at h
  unfold next
  rw [fetch_eq hv, h]
  split <;> exact ⟨_, rfl⟩

end

/-- 0x9d is STA absolute,X; 0x89 is not documented. -/
example : documented 0x9d 0x34 0x12 = some (.Sta, .absoluteX 0x1234) ∧
    documented 0x89 0x34 0x12 = none := ⟨rfl, rfl⟩

/-- The hypotheses are met by the sample machine. -/
example : ∃ i, At .debug (machine sampleRegs 0x9d 0x34 0x12) i ∧ view i = (.Sta, .absoluteX 0x1234) :=
  C64_all (machine_view _ _ _ _ _ _) (.inr (by decide)) rfl

end Verif.Props
