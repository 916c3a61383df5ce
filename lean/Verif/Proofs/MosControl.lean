import Verif.Proofs.MosArith

/-!
# Helper lemmas for control flow, frames and cycle counts
-/

namespace Verif.Mos

open Verif Verif.Spec.Mos

section
variable {B : Type} [Addressable B] {b : Build} {cpu cpu' : Mos6502 B} {mem : Mem}

/-- A successful step, taken apart. -/
theorem step_inv {i : InstructionVariant} {mn : Mnemonic} {am : AddrMode} (hat : At b cpu i)
    (hv : BusView b cpu.address_map mem) (hi : view i = (mn, am)) {ops : Operations}
    (hn : next b cpu = .ok (ops, cpu')) :
    AddrOk b (regs cpu) mem am ∧ ops = code (regs cpu) mem mn am ∧
      regs cpu' = (codeEffect (regs cpu) mem mn am).regs ∧
      writeAll b cpu.address_map (codeEffect (regs cpu) mem mn am).writes = .ok cpu'.address_map := by
  have hok : AddrOk b (regs cpu) mem (view i).2 := by
    apply Classical.byContradiction
    intro hno
    rw [step_overflow hat hv hno] at hn
    cases hn
  have h := step_ok hat hv hok
  rw [hi] at h hok
  rw [h] at hn
  cases hw : writeAll b cpu.address_map (codeEffect (regs cpu) mem mn am).writes with
  | error e => rw [hw] at hn; cases hn
  | ok bus =>
    rw [hw] at hn
    simp only [Except.map, Except.ok.injEq, Prod.mk.injEq] at hn
    obtain ⟨h1, h2⟩ := hn
    refine ⟨hok, h1.symm, ?_, ?_⟩
    · rw [← h2]; rfl
    · rw [← h2]; rfl

end

/-- The target of the code is two below the documented one. -/
theorem codeTarget_eq (pc : Word) (d : Byte) : codeTarget pc d = branchTarget pc d - 2 := by
  unfold codeTarget branchTarget
  have h : (BitVec.ofInt 16 ((pc.toNat : Int) + 2 + d.toInt)) = pc + 2 + d.signExtend 16 := by
    rw [BitVec.signExtend, BitVec.ofInt_add, BitVec.ofInt_add]
    congr 1
    congr 1
    rw [BitVec.ofInt_natCast]; simp
  rw [h]
  have : pc + 2 + d.signExtend 16 - 2 = pc + d.signExtend 16 := by
    rw [BitVec.add_assoc, BitVec.add_comm 2, ← BitVec.add_assoc, BitVec.add_sub_cancel]
  exact this.symm

theorem codeTarget_ne (pc : Word) (d : Byte) : codeTarget pc d ≠ branchTarget pc d := by
  rw [codeTarget_eq]
  intro h
  have h1 := congrArg BitVec.toNat h
  rw [BitVec.toNat_sub] at h1
  have h2 : (2 : Word).toNat = 2 := rfl
  have := (branchTarget pc d).isLt
  rw [h2] at h1
  omega

theorem taken_branch {mn : Mnemonic} {p : ProcessorStatus} {t : Bool} (h : taken mn p = some t)
    (r : Regs) (mem : Mem) (d : Byte) (hr : r.p = p) :
    codeEffect r mem mn (.relative d) =
      { regs := { r with pc := if t then codeTarget r.pc d else nextPc r (.relative d) } } := by
  subst hr
  cases mn <;> simp only [taken, Option.some.injEq, reduceCtorEq] at h <;> subst h <;> rfl

theorem rmw_mode {i : InstructionVariant} {mn : Mnemonic} {am : AddrMode} (hi : view i = (mn, am))
    (h : mn = .Dec ∨ mn = .Inc) : am ≠ .accumulator := by
  rintro rfl
  rcases h with rfl | rfl <;> cases i <;> simp [view] at hi

theorem jsr_mode {i : InstructionVariant} {am : AddrMode} (hi : view i = (.Jsr, am)) :
    ∃ w, am = .absolute w := by
  cases i <;> simp only [view, Prod.mk.injEq, reduceCtorEq, false_and, true_and] at hi
  exact ⟨_, hi.symm⟩

theorem brk_mode {i : InstructionVariant} {am : AddrMode} (hi : view i = (.Brk, am)) :
    am = .implied := by
  cases i <;> simp only [view, Prod.mk.injEq, reduceCtorEq, false_and, true_and] at hi
  exact hi.symm

theorem shiftEffect_mem {r : Regs} {am : AddrMode} {e : Word} {s : Byte} {c : Bool}
    (h : am ≠ .accumulator) : shiftEffect r am e s c =
      { regs := { r with p := { setNZ r.p s with carry := c }, pc := nextPc r am }
        writes := [(e, s)] } := by
  unfold shiftEffect
  split
  · exact absurd rfl h
  · rfl

theorem branchEffect_other {r : Regs} {am : AddrMode} {t : Bool}
    (h : ∀ d, am ≠ .relative d) : branchEffect r am t = { regs := r } := by
  unfold branchEffect
  split
  · exact absurd rfl (h _)
  · rfl

/-- An instruction with a memory operand acts like the same instruction with absolute addressing. -/
theorem codeEffect_as_absolute (r : Regs) (mem : Mem) (mn : Mnemonic) (am : AddrMode) (q : Word)
    (ho : operand r mem am = mem (ea r mem am)) (ha : am ≠ .accumulator)
    (hr : ∀ d, am ≠ .relative d) (h1 : mn ≠ .Jsr) (h2 : mn ≠ .Brk) :
    (codeEffect r mem mn am).writes =
      (codeEffect { r with pc := q } mem mn (.absolute (ea r mem am))).writes ∧
    { (codeEffect r mem mn am).regs with pc := 0 } =
      { (codeEffect { r with pc := q } mem mn (.absolute (ea r mem am))).regs with pc := 0 } := by
  have e1 : ∀ w, ea { r with pc := q } mem (.absolute w) = w := fun _ => rfl
  have e2 : ∀ w, operand { r with pc := q } mem (.absolute w) = mem w := fun _ => rfl
  have e3 : ∀ w, (AddrMode.absolute w) ≠ .accumulator := fun _ => nofun
  have e4 : ∀ w d, (AddrMode.absolute w) ≠ .relative d := fun _ _ => nofun
  cases mn <;> first
    | exact absurd rfl h1
    | exact absurd rfl h2
    | (simp only [codeEffect, shiftEffect_mem ha, shiftEffect_mem (e3 _), branchEffect_other hr,
        branchEffect_other (e4 _), arithRegs, compareRegs, ho, e1, e2]
       exact ⟨rfl, rfl⟩)
    | (simp only [codeEffect, shiftEffect_mem ha, shiftEffect_mem (e3 _), branchEffect_other hr,
        branchEffect_other (e4 _), arithRegs, compareRegs, ho, e1, e2, and_self])

end Verif.Mos
