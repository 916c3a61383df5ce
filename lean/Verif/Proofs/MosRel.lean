import Verif.Proofs.MosRun

/-!
# What a step can see of the bus
-/

namespace Verif.Mos

open Verif Verif.Spec.Mos

/-- A bus reduced to the answers of its reads. -/
structure ReadView where
  view : Word → Res Byte

/-- A bus that is only read from. -/
instance : Addressable ReadView where
  read _ d a := d.view a
  write _ d _ v := .ok (.ok v, d)

/-- A CPU in front of given read answers. -/
def viewCpu (r : Regs) (f : Word → Res Byte) : Mos6502 ReadView := withRegs r ⟨f⟩

section
variable {B : Type} [Addressable B] {b : Build}

theorem fetch_view (c : Mos6502 B) :
    fetch b c = fetch b (viewCpu (regs c) (Addressable.read b c.address_map)) := rfl

theorem generate_view (c : Mos6502 B) (i : InstructionVariant) :
    i.generate b c = i.generate b (viewCpu (regs c) (Addressable.read b c.address_map)) := by
  cases i <;> rfl

end

/-- The registers after one microcode. -/
def mcRegs (r : Regs) (mc : Microcode) : Regs :=
  match executeMut .debug (viewCpu r (fun _ => .ok 0)) mc with
  | .ok c => regs c
  | .error _ => r

/-- The effect of microcode on the registers, and its writes, do not depend on the bus. -/
theorem exec_effect (b : Build) (mcs : List Microcode) (r : Regs) : ∃ e : Effect,
    ∀ (B : Type) [Addressable B] (bus : B),
      executeAll b mcs (withRegs r bus) = (writeAll b bus e.writes).map (withRegs e.regs) := by
  induction mcs generalizing r with
  | nil => exact ⟨⟨r, []⟩, fun B _ bus => rfl⟩
  | cons mc mcs ih =>
    cases mc with
    | WriteMemory a v =>
      obtain ⟨e, he⟩ := ih r
      refine ⟨⟨e.regs, (a, v) :: e.writes⟩, fun B _ bus => ?_⟩
      rw [exec_write]
      show (writeAll b bus [(a, v)]).bind (fun bus => executeAll b mcs (withRegs r bus)) = _
      simp only [he]
      simp only [writeAll]
      rcases Addressable.write b bus a v with p | ⟨_ | _, bus'⟩ <;> rfl
    | SetProgramStatusFlagState f v =>
      obtain ⟨e, he⟩ := ih (mcRegs r (.SetProgramStatusFlagState f v))
      exact ⟨e, fun B _ bus => by rw [← he B bus]; cases f <;> rfl⟩
    | Write8bitRegister f v =>
      obtain ⟨e, he⟩ := ih (mcRegs r (.Write8bitRegister f v))
      exact ⟨e, fun B _ bus => by rw [← he B bus]; cases f <;> rfl⟩
    | Inc8bitRegister f v =>
      obtain ⟨e, he⟩ := ih (mcRegs r (.Inc8bitRegister f v))
      exact ⟨e, fun B _ bus => by rw [← he B bus]; cases f <;> rfl⟩
    | Dec8bitRegister f v =>
      obtain ⟨e, he⟩ := ih (mcRegs r (.Dec8bitRegister f v))
      exact ⟨e, fun B _ bus => by rw [← he B bus]; cases f <;> rfl⟩
    | Write16bitRegister f v =>
      obtain ⟨e, he⟩ := ih (mcRegs r (.Write16bitRegister f v))
      exact ⟨e, fun B _ bus => by rw [← he B bus]; cases f <;> rfl⟩
    | Inc16bitRegister f v =>
      obtain ⟨e, he⟩ := ih (mcRegs r (.Inc16bitRegister f v))
      exact ⟨e, fun B _ bus => by rw [← he B bus]; cases f <;> rfl⟩
    | Dec16bitRegister f v =>
      obtain ⟨e, he⟩ := ih (mcRegs r (.Dec16bitRegister f v))
      exact ⟨e, fun B _ bus => by rw [← he B bus]; cases f <;> rfl⟩

/-- One step as a function of the registers and the read answers alone. -/
theorem next_view (b : Build) (r : Regs) (f : Word → Res Byte) :
    ∃ out : Res (Operations × Effect), ∀ (B : Type) [Addressable B] (c : Mos6502 B),
      regs c = r → (∀ a, Addressable.read b c.address_map a = f a) →
      next b c = out.bind fun oe =>
        (writeAll b c.address_map oe.2.writes).map fun bus => (oe.1, withRegs oe.2.regs bus) := by
  have hf : ∀ (B : Type) [Addressable B] (c : Mos6502 B), (∀ a, Addressable.read b c.address_map a = f a) →
      Addressable.read b c.address_map = f := fun B _ c h => funext h
  cases h1 : fetch b (viewCpu r f) with
  | error p =>
    refine ⟨.error p, fun B _ c hr hc => ?_⟩
    unfold next
    rw [fetch_view, hr, hf B c hc, h1]; rfl
  | ok i =>
    cases h2 : i.generate b (viewCpu r f) with
    | error p =>
      refine ⟨.error p, fun B _ c hr hc => ?_⟩
      unfold next
      rw [fetch_view, hr, hf B c hc, h1, Res.ok_bind, generate_view, hr, hf B c hc, h2]; rfl
    | ok mops =>
      cases h3 : mops.intoSteps b with
      | error p =>
        refine ⟨.error p, fun B _ c hr hc => ?_⟩
        unfold next
        rw [fetch_view, hr, hf B c hc, h1, Res.ok_bind, generate_view, hr, hf B c hc, h2, Res.ok_bind,
          h3]
        rfl
      | ok steps =>
        obtain ⟨e, he⟩ := exec_effect b steps.flatten r
        refine ⟨.ok (mops, e), fun B _ c hr hc => ?_⟩
        unfold next
        rw [fetch_view, hr, hf B c hc, h1, Res.ok_bind, generate_view, hr, hf B c hc, h2, Res.ok_bind,
          h3, Res.ok_bind]
        have := he B c.address_map
        rw [← hr, withRegs_regs] at this
        rw [this]
        show _ = (writeAll b c.address_map e.writes).map fun bus => (mops, withRegs e.regs bus)
        cases writeAll b c.address_map e.writes <;> rfl

/-- Writes that both buses accept keep two coherent buses alike. -/
theorem writeAll_coherent₂ {B₁ B₂ : Type} [Addressable B₁] [Addressable B₂] {b : Build}
    {I₁ : B₁ → Mem → Prop} {I₂ : B₂ → Mem → Prop} (h₁ : Coherent b I₁) (h₂ : Coherent b I₂)
    (ws : List (Word × Byte)) : ∀ {bus₁ bus₁' : B₁} {bus₂ bus₂' : B₂} {mem : Mem},
    I₁ bus₁ mem → I₂ bus₂ mem → writeAll b bus₁ ws = .ok bus₁' → writeAll b bus₂ ws = .ok bus₂' →
    ∃ mem', I₁ bus₁' mem' ∧ I₂ bus₂' mem' := by
  intro bus₁ bus₁' bus₂ bus₂' mem i₁ i₂ w₁ w₂
  exact ⟨_, writeAll_coherent h₁ ws i₁ w₁, writeAll_coherent h₂ ws i₂ w₂⟩

end Verif.Mos
