import Verif.Spec.Bus

/-!
# Specification of registering a family of devices
-/

namespace Verif.Spec

open Verif

/-- The devices `es` are registered one after the other, beginning with the map `m`, and every
registration is accepted; `m'` is the map at the end. Each time the map may come out in any iteration
order. -/
inductive Registered {D : Type} : AddressMap D → List (AddrRange × D) → AddressMap D → Prop
  | nil {m : AddressMap D} : Registered m [] m
  | cons {m m₁ m' : AddressMap D} {r : AddrRange} {d : D} {es : List (AddrRange × D)} :
      AddressMap.Registers m r d m₁ → Registered m₁ es m' → Registered m ((r, d) :: es) m'

/-- The range `s` has addresses on both sides of `r`. -/
def Encloses (s r : AddrRange) : Prop :=
  s.start.toNat < r.start.toNat ∧ r.stop.toNat < s.stop.toNat

instance (s r : AddrRange) : Decidable (Encloses s r) := by unfold Encloses; infer_instance

/-- The range has an address. -/
def NonEmpty (r : AddrRange) : Prop := r.start.toNat ≤ r.stop.toNat

instance (r : AddrRange) : Decidable (NonEmpty r) := by unfold NonEmpty; infer_instance

end Verif.Spec
