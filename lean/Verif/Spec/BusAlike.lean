import Verif.Spec.Bus

/-!
# Specification of buses that answer alike
-/

namespace Verif.Spec

open Verif

/-- Two devices (of any types) that give the same answers — bytes, echoed values, error texts and
panics — to every sequence of requests, however long. -/
def Alike {D₁ D₂ : Type} [Addressable D₁] [Addressable D₂] (b : Build) (d₁ : D₁) (d₂ : D₂) : Prop :=
  ∀ ops, (runOps b d₁ ops).map Prod.fst = (runOps b d₂ ops).map Prod.fst

end Verif.Spec
