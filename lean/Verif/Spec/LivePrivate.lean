import Verif.Spec.LiveBus

/-!
# Devices of which every clone is one of its own
-/

namespace Verif.Spec.Live

open Verif Verif.Live

/-- The writes made on one clone, with their answers, in order. -/
def writesOn (who : Copy) : List Call → List (Word × Byte × Except String Byte)
  | [] => []
  | .read _ _ _ :: l => writesOn who l
  | .write who' a x v :: l => if who' = who then (a, x, v) :: writesOn who l else writesOn who l

/-- The device `d` accepts these writes, with these answers, and becomes `d'`. -/
inductive Fed {D : Type} [Device Unit D] (b : Build) : D → List (Word × Byte × Except String Byte) → D → Prop
  | nil (d : D) : Fed b d [] d
  | cons {d d' d'' : D} {a : Word} {x : Byte} {v : Except String Byte}
      {ws : List (Word × Byte × Except String Byte)} :
      Device.write b d a x () = (.ok (v, d'), ()) → Fed b d' ws d'' → Fed b d ((a, x, v) :: ws) d''

/-- The devices at the beginning of `run`, `src/cpu/mos6502/mod.rs:217-331` and
`src/cpu/chip8/mod.rs:293-301`: the clone of the iterator is equal to the CPU's own. -/
def cloned {D : Type} (d : D) : Site Unit D := ⟨d, d, ()⟩

end Verif.Spec.Live
