import Verif.Spec.BusAlike
import Verif.Model.Rust

/-!
# Consequences of answering alike
-/

namespace Verif.Spec

open Verif

variable {D₁ D₂ : Type} [Addressable D₁] [Addressable D₂] {b : Build} {d₁ : D₁} {d₂ : D₂}

theorem Alike.read (h : Alike b d₁ d₂) (a : Word) :
    Addressable.read b d₁ a = Addressable.read b d₂ a := by
  have := h [.read a]
  simp only [runOps] at this
  cases h1 : Addressable.read b d₁ a with
  | error p =>
    cases h2 : Addressable.read b d₂ a with
    | error q => rw [h1, h2] at this; exact congrArg _ (Except.error.inj this)
    | ok v => rw [h1, h2] at this; cases this
  | ok v =>
    cases h2 : Addressable.read b d₂ a with
    | error q => rw [h1, h2] at this; cases this
    | ok w =>
      rw [h1, h2] at this
      simp only [Res.ok_bind, Except.map, Except.ok.injEq, List.cons.injEq, BusAnswer.read.injEq,
        and_true] at this
      rw [this]

/-- A write: the same panic, or the same answer and devices that answer alike again. -/
theorem Alike.write (h : Alike b d₁ d₂) (a : Word) (v : Byte) :
    (∃ p, Addressable.write b d₁ a v = .error p ∧ Addressable.write b d₂ a v = .error p) ∨
    ∃ r d₁' d₂', Addressable.write b d₁ a v = .ok (r, d₁') ∧
      Addressable.write b d₂ a v = .ok (r, d₂') ∧ Alike b d₁' d₂' := by
  have key := fun ops => h (.write a v :: ops)
  simp only [runOps] at key
  cases h1 : Addressable.write b d₁ a v with
  | error p =>
    cases h2 : Addressable.write b d₂ a v with
    | error q =>
      have := key []
      rw [h1, h2] at this
      exact .inl ⟨p, rfl, congrArg _ (Except.error.inj this).symm⟩
    | ok v => have := key []; rw [h1, h2] at this; cases this
  | ok x =>
    cases h2 : Addressable.write b d₂ a v with
    | error q => have := key []; rw [h1, h2] at this; cases this
    | ok y =>
      obtain ⟨r, d₁'⟩ := x
      obtain ⟨s, d₂'⟩ := y
      have hrs := key []
      rw [h1, h2] at hrs
      simp only [Res.ok_bind, runOps, Except.map, Except.ok.injEq, List.cons.injEq,
        BusAnswer.write.injEq, and_true] at hrs
      subst hrs
      refine .inr ⟨r, d₁', d₂', rfl, rfl, ?_⟩
      intro ops
      have := key ops
      rw [h1, h2] at this
      simp only [Res.ok_bind] at this
      cases h3 : runOps b d₁' ops with
      | error p =>
        cases h4 : runOps b d₂' ops with
        | error q => rw [h3, h4] at this; exact congrArg _ (Except.error.inj this)
        | ok y => rw [h3, h4] at this; cases this
      | ok x =>
        cases h4 : runOps b d₂' ops with
        | error q => rw [h3, h4] at this; cases this
        | ok y =>
          rw [h3, h4] at this
          simp only [Res.ok_bind, Except.map, Except.ok.injEq, List.cons.injEq, true_and] at this
          simp only [Except.map, this]

theorem Alike.refl {D : Type} [Addressable D] (b : Build) (d : D) : Alike b d d := fun _ => rfl

theorem Alike.symm (h : Alike b d₁ d₂) : Alike b d₂ d₁ := fun ops => (h ops).symm

theorem Alike.trans {D₃ : Type} [Addressable D₃] {d₃ : D₃} (h : Alike b d₁ d₂) (h' : Alike b d₂ d₃) :
    Alike b d₁ d₃ := fun ops => (h ops).trans (h' ops)

/-- A relation that reads and writes respect relates devices that answer alike. -/
theorem alike_of {R : D₁ → D₂ → Prop}
    (hr : ∀ x y, R x y → ∀ a, Addressable.read b x a = Addressable.read b y a)
    (hw : ∀ x y, R x y → ∀ a v,
      (∃ p, Addressable.write b x a v = .error p ∧ Addressable.write b y a v = .error p) ∨
      ∃ r x' y', Addressable.write b x a v = .ok (r, x') ∧ Addressable.write b y a v = .ok (r, y') ∧
        R x' y')
    (h : R d₁ d₂) : Alike b d₁ d₂ := by
  intro ops
  induction ops generalizing d₁ d₂ with
  | nil => rfl
  | cons op ops ih =>
    cases op with
    | read a =>
      simp only [runOps, hr _ _ h a]
      cases Addressable.read b d₂ a with
      | error p => rfl
      | ok v =>
        have := ih h
        simp only [Res.ok_bind]
        cases h3 : runOps b d₁ ops with
        | error p => cases h4 : runOps b d₂ ops <;> simp_all [Except.map]
        | ok x => cases h4 : runOps b d₂ ops <;> simp_all [Except.map]
    | write a v =>
      rcases hw _ _ h a v with ⟨p, h1, h2⟩ | ⟨r, x', y', h1, h2, h'⟩
      · simp only [runOps, h1, h2]; rfl
      · have := ih h'
        simp only [runOps, h1, h2, Res.ok_bind]
        cases h3 : runOps b x' ops with
        | error p => cases h4 : runOps b y' ops <;> simp_all [Except.map]
        | ok x => cases h4 : runOps b y' ops <;> simp_all [Except.map]

end Verif.Spec
