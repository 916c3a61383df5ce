import Verif.Model.Chip8.Cpu

/-!
# Running in slices

What a front end does that calls `run` once per frame.
-/

namespace Verif.Spec

open Verif

/-- `run` called on the result of the last call, with each of these numbers of cycles in turn
(`Cpu::run`, `src/cpu/mod.rs:35-37`, on a `StepState`, lines 73-86). -/
def slices {T : Type} [Cpu T] (b : Build) : StepState T → List Nat → Res (StepState T)
  | s, [] => .ok s
  | s, n :: ns => s.run b n >>= fun s' => slices b s' ns

/-- The same with a CHIP-8; `env` is what the world answers to the first, second, … instruction
(`Chip8::run`, `src/cpu/chip8/mod.rs:293-301`). -/
def chipSlices {B R : Type} [Addressable B] (b : Build) :
    (Nat → Chip8.Env) → Chip8.Chip8 B R → List Nat → Res (Chip8.Chip8 B R)
  | _, c, [] => .ok c
  | env, c, n :: ns =>
    Chip8.run b env c n >>= fun s => chipSlices b (fun k => env (n + k)) s.unwrap ns

end Verif.Spec
