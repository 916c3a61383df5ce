import Verif.Model.Chip8.Cpu

/-!
# Recording and replaying the microcode of a CHIP-8

The iterator of a CPU is public (`IntoIterator for Chip8`, `src/cpu/chip8/mod.rs:304-314`), its items
are the microcode of one instruction each, it can be turned back into a CPU (lines 320-324), and
every microcode can be executed on any CPU (lines 369-377). A caller that takes the items itself
records a run and replays it later. The 6502's counterpart is in `Model/Mos/Capture.lean`.
-/

namespace Verif.Chip8

open Verif

variable {B R : Type}

/-- `n` calls of `<Chip8IntoIterator as Iterator>::next`, `src/cpu/chip8/mod.rs:337-365`, on the
iterator whose state is `it`: the items, and the iterator as a CPU (`Chip8::from`, lines 320-324).
`env k` is what the world answers during call `k`; `foldAt` is not asked. -/
def record [Addressable B] (b : Build) (env : Nat → Env) :
    Nat → Nat → Chip8 B R → Res (List (List Microcode) × Chip8 B R)
  | 0, _, it => .ok ([], it)
  | n + 1, k, it => do
    let (mcs, it) ← next b (env k) it
    let (items, it) ← record b env n (k + 1) it
    .ok (mcs :: items, it)

/-- The fold `mcs.into_iter().fold(cpu, |cpu, mc| mc.execute(cpu))` of a caller,
`src/cpu/chip8/mod.rs:369-377` and 379-419; `now i` is the clock while the `i`-th microcode runs. -/
def replay [Addressable B] (b : Build) : (Nat → Instant) → List Microcode → Chip8 B R → Res (Chip8 B R)
  | _, [], cpu => .ok cpu
  | now, mc :: mcs, cpu => do
    let cpu ← executeMut b (now 0) cpu mc
    replay b (fun i => now (i + 1)) mcs cpu

end Verif.Chip8
