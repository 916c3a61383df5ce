import Verif.Model.AddressMap

/-!
# Builds with and without overflow checks
-/

namespace Verif.Spec

open Verif

/-- What a checked build (`x`) and an unchecked build (`y`) make of the same thing: the same result or
panic, or the checked build stops with an overflow. -/
def Agree {α : Type} (x y : Res α) : Prop := x = y ∨ x = .error .overflow

/-- Devices of which both builds agree. -/
class BuildsAgree (D : Type) [Addressable D] : Prop where
  /-- about every read -/
  read : ∀ (d : D) (a : Word), Agree (Addressable.read .debug d a) (Addressable.read .release d a)
  /-- about every write -/
  write : ∀ (d : D) (a : Word) (v : Byte),
    Agree (Addressable.write .debug d a v) (Addressable.write .release d a v)

end Verif.Spec
