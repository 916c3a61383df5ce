import Verif.Spec.LiveChip8Panic

/-!
# Devices that panic
-/

namespace Verif.Spec.Live

open Verif Verif.Live Verif.Mos Verif.Spec.Mos Verif.Chip8

/-- The address of a call. -/
def Call.at : Call → Word
  | .read _ a _ => a
  | .write _ a _ _ => a

/-- Calls that are alike but for the answer. -/
def Call.Same : Call → Call → Prop
  | .read who a _, c => ∃ v, c = .read who a v
  | .write who a x _, c => ∃ v, c = .write who a x v

/-- The device panics with `p` when the call is made, and leaves the world `w`. -/
def Fails {W D : Type} [Device W D] (b : Build) (s : Site W D) (p : Panic) (w : W) : Call → Prop
  | .read who a _ => Device.read b (s.on who) a s.world = (.error p, w)
  | .write who a x _ => Device.write b (s.on who) a x s.world = (.error p, w)

/-- The calls of a run of a 6502 on some devices, whether it returns or panics. -/
def Calls (b : Build) (n : Nat) (r : Regs) (l : List Call) : Prop :=
  (∃ r', Ran b n r l r') ∨ ∃ p, RanInto b n r l p

/-- The calls of a run of a CHIP-8 on some devices, whether it returns or panics. -/
def Chip8Calls {R : Type} (b : Build) (env : Nat → Env) (n : Nat) (c : Chip8 Unit R) (l : List Call) : Prop :=
  (∃ c', RanOpcodes b env n 0 c c l c') ∨ ∃ p, RanIntoOpcode b env n 0 c c l p

/-- A device with a watchpoint: it panics when a watched address is called, and otherwise passes the call on.
Such devices are not in the crate; they implement `src/address_map/mod.rs:34-42`. -/
structure Watched (D : Type) where
  /-- the device behind -/
  dev : D
  /-- the addresses watched -/
  watch : Word → Bool
  /-- the panic -/
  panic : Panic

/-- The methods of `src/address_map/mod.rs:40-41` for such a device. -/
instance {W D : Type} [Device W D] : Device W (Watched D) where
  read b d a w :=
    if d.watch a then (.error d.panic, w) else
      match Device.read b d.dev a w with
      | (.ok (v, d'), w') => (.ok (v, { d with dev := d' }), w')
      | (.error e, w') => (.error e, w')
  write b d a v w :=
    if d.watch a then (.error d.panic, w) else
      match Device.write b d.dev a v w with
      | (.ok (r, d'), w') => (.ok (r, { d with dev := d' }), w')
      | (.error e, w') => (.error e, w')

/-- Both clones of a bus watched alike. -/
def watched {W D : Type} (f : Word → Bool) (p : Panic) (s : Site W D) : Site W (Watched D) :=
  ⟨⟨s.iterator, f, p⟩, ⟨s.own, f, p⟩, s.world⟩

end Verif.Spec.Live
