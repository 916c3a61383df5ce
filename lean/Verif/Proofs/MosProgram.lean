import Verif.Spec.MosProgram
import Verif.Proofs.MosArith
import Verif.Proofs.MosCycles
import Verif.Proofs.MosRun
import Verif.Proofs.MosRel

/-!
# Reasoning about programs: registers and memory reached
-/

namespace Verif.Mos

open Verif Verif.Spec.Mos

section
variable {B : Type} [Addressable B]

variable {b : Build} {I : B → Mem → Prop} {r r' r'' : Regs} {mem mem' mem'' : Mem} {k n k' n' : Nat}

theorem totalCycles_append (l l' : List Operations) :
    totalCycles (l ++ l') = totalCycles l + totalCycles l' := by simp [totalCycles]

theorem _root_.Verif.Spec.Mos.Reaches.refl : Reaches b I r mem 0 0 r mem :=
  fun cpu hr hI => ⟨[], cpu, .nil _, rfl, rfl, hr, hI⟩

theorem _root_.Verif.Spec.Mos.Reaches.trans (h : Reaches b I r mem k n r' mem') (h' : Reaches b I r' mem' k' n' r'' mem'') :
    Reaches b I r mem (k + k') (n + n') r'' mem'' := by
  intro cpu hr hI
  obtain ⟨l, d, h1, h2, h3, h4, h5⟩ := h cpu hr hI
  obtain ⟨l', e, q1, q2, q3, q4, q5⟩ := h' d h4 h5
  exact ⟨l ++ l', e, instructions_append h1 q1, by rw [List.length_append, h2, q2],
    by rw [totalCycles_append, h3, q3], q4, q5⟩

theorem writeAll_accepted (hI : Coherent b I) {W : Word → Prop} (hacc : AcceptsAt b I W)
    (ws : List (Word × Byte)) : ∀ {bus : B} {mem : Mem}, I bus mem → (∀ w ∈ ws, W w.1) →
    ∃ bus', writeAll b bus ws = .ok bus' := by
  induction ws with
  | nil => intro bus mem _ _; exact ⟨bus, rfl⟩
  | cons w ws ih =>
    obtain ⟨a, v⟩ := w
    intro bus mem h hW
    obtain ⟨x, bus1, h1⟩ := hacc bus mem h a (hW (a, v) (by simp)) v
    obtain ⟨bus2, h2⟩ := ih ((hI _ _ h).2 a v x bus1 h1) (fun w hw => hW w (by simp [hw]))
    exact ⟨bus2, by rw [writeAll, h1]; exact h2⟩

/-- One instruction, from the bytes at `pc`. -/
theorem reaches_one (hI : Coherent b I) {W : Word → Prop} (hacc : AcceptsAt b I W)
    {i : InstructionVariant} {mn : Mnemonic} {am : AddrMode} (hpc : PcOk b r)
    (hp : Isa.parseInstruction (mem r.pc) (mem (r.pc + 1)) (mem (r.pc + 2)) = some i)
    (hi : view i = (mn, am)) (hok : AddrOk b r mem am)
    (hW : ∀ w ∈ (codeEffect r mem mn am).writes, W w.1) :
    Reaches b I r mem 1 (baseCycles mn am + codePenalty r mem mn am) (codeEffect r mem mn am).regs
      (store mem (codeEffect r mem mn am).writes) := by
  intro cpu hr hm
  have hv := (hI _ _ hm).1
  have hat : At b cpu i := by
    unfold At
    rw [fetch_eq hv]
    have : cpu.pc = r.pc := by rw [← hr]; rfl
    rw [this, hp, if_neg]
    rintro ⟨h1, h2⟩
    rcases hpc with h | h
    · rw [h] at h1; cases h1
    · omega
  have hok' : AddrOk b (regs cpu) mem am := by rw [hr]; exact hok
  obtain ⟨bus, hw⟩ := writeAll_accepted hI hacc _ hm hW
  have hs := step_ok hat hv (by rw [hi]; exact hok')
  rw [hi, hr] at hs
  simp only at hs
  rw [hw] at hs
  have hc := step_cycles hat hv hi hok' hs
  rw [hr] at hc
  refine ⟨_, _, .cons hs (.nil _), rfl, ?_, rfl, ?_⟩
  · rw [totalCycles_cons, hc]; simp [totalCycles]
  · exact writeAll_coherent hI _ hm hw

end

end Verif.Mos
