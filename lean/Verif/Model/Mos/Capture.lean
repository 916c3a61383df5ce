import Verif.Model.Mos.Cpu

/-!
# `examples/microcode_step_capture.rs`: recording microcode and replaying it
-/

namespace Verif.Mos

open Verif

section
variable {B : Type} [Addressable B]

/-- `cpu.clone().into_iter().flat_map(..).take(n).flatten().collect()`,
`examples/microcode_step_capture.rs:42-48`: `it` is the state of the instruction iterator, `pending`
what is left of the item `flat_map` is in. Unlike in `run`, nothing is executed on another CPU
meanwhile. -/
def captureLoop (b : Build) : Nat → Mos6502 B → List (List Microcode) → Res (List Microcode)
  | 0, _, _ => .ok []
  | n + 1, it, step :: rest => do
    let l ← captureLoop b n it rest
    .ok (step ++ l)
  | n + 1, it, [] => do
    let (mops, it') ← next b it
    let steps ← mops.intoSteps b
    match steps with
    | step :: rest => do
      let l ← captureLoop b n it' rest
      .ok (step ++ l)
    | [] => .ok [] -- not reachable: `intoSteps` never yields an empty list

/-- The whole capture, `examples/microcode_step_capture.rs:42-48`. -/
def capture (b : Build) (cpu : Mos6502 B) (cycles : Nat) : Res (List Microcode) :=
  captureLoop b cycles cpu []

/-- `states.iter().fold(cpu, |c, mc| mc.execute(c))`, `examples/microcode_step_capture.rs:53`. -/
def replay (b : Build) (states : List Microcode) (cpu : Mos6502 B) : Res (Mos6502 B) :=
  executeAll b states cpu

end

end Verif.Mos
