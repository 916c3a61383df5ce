import Verif.Model.Live.Device
import Verif.Spec.LiveBus

/-!
# Builds with and without overflow checks, on devices with a life of their own
-/

namespace Verif.Spec.Live

open Verif Verif.Live

/-- What a checked build (`x`) and an unchecked build (`y`) ask of the same devices. -/
structure AgreeCalls {α : Type} (x y : Bus α) : Prop where
  /-- what the checked build does without an overflow, the unchecked one does, call for call -/
  same : ∀ l r, Asked x l r → r ≠ .error .overflow → Asked y l r
  /-- when the checked build overflows, the unchecked one has made the same calls and goes on -/
  further : ∀ l, Asked x l (.error .overflow) → ∃ l' r, Asked y (l ++ l') r
  /-- what the unchecked build does, the checked one does, or it overflows on the way -/
  back : ∀ l r, Asked y l r → Asked x l r ∨ ∃ l', l' <+: l ∧ Asked x l' (.error .overflow)

/-- What a call of a device gives in a checked build (`x`) and in an unchecked one (`y`): the same answer, the
same device, the same world; or the checked build stops with an overflow. -/
def AgreeCall {W α : Type} (x y : Res α × W) : Prop := x = y ∨ x.1 = .error .overflow

/-- Live devices of which both builds agree. -/
class DevicesAgree (W D : Type) [Device W D] : Prop where
  /-- about every read -/
  read : ∀ (d : D) (a : Word) (w : W), AgreeCall (Device.read .debug d a w) (Device.read .release d a w)
  /-- about every write -/
  write : ∀ (d : D) (a : Word) (v : Byte) (w : W),
    AgreeCall (Device.write .debug d a v w) (Device.write .release d a v w)

end Verif.Spec.Live
