import Verif.Spec.LiveBus

/-!
# Devices with a part that all clones share
-/

namespace Verif.Spec.Live

open Verif Verif.Live

/-- Devices that keep what reading changes in the part all clones share: a clone's own part stays when it is
read, and a write that is accepted changes it in one way, whatever the shared part is. Memory is such a
device, and so is anything behind `Rc<RefCell<..>>`. -/
structure Steady (b : Build) (W D : Type) [Device W D] : Prop where
  read : ∀ {d d' : D} {a : Word} {v : Byte} {w w' : W}, Device.read b d a w = (.ok (v, d'), w') → d' = d
  write : ∀ {d d₁ d₂ : D} {a : Word} {x v v' : Byte} {w w₁ w' w₂ : W},
    Device.write b d a x w = (.ok (.ok v, d₁), w₁) → Device.write b d a x w' = (.ok (.ok v', d₂), w₂) → d₁ = d₂

/-- The devices at the beginning of `run`, `src/cpu/mos6502/mod.rs:217-228` and
`src/cpu/chip8/mod.rs:293-301`: the clone of the iterator is equal to the CPU's own, and both reach the same
world. -/
def atStart {W D : Type} (d : D) (w : W) : Site W D := ⟨d, d, w⟩

end Verif.Spec.Live
