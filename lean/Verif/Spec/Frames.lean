import Verif.Spec.Chip8

/-!
# A front end for the CHIP-8 that works frame by frame
-/

namespace Verif.Spec.Chip8

open Verif Verif.Chip8

variable {B R : Type}

/-- Each frame: tell the CPU which key is held down (`Chip8::with_interrupt`,
`src/cpu/chip8/mod.rs:210-227`), then run a number of instructions (`Chip8::run`, lines 293-301).
`env` is what the world answers to the first, second, … instruction. -/
def frames [Addressable B] (b : Build) :
    (Nat → Env) → Chip8 B R → List (Option Interrupt × Nat) → Res (Chip8 B R)
  | _, c, [] => .ok c
  | env, c, (key, n) :: fs =>
    run b env (withInterrupt c key) n >>= fun s => frames b (fun k => env (n + k)) s.unwrap fs

/-- The number of instructions of some frames. -/
def frameSum (fs : List (Option Interrupt × Nat)) : Nat := (fs.map Prod.snd).sum

/-- `p: SKP Vx; JP p`: wait until the key numbered Vx is held down. -/
def keyLoop (p : Nat) (x : GpRegisters) : List Nat := [0xE09E + num x * 0x100, 0x1000 + p]

/-- The key with the number `v` is held down. -/
def Holds (key : Option Interrupt) (v : Nat) : Prop :=
  ∃ k, key = some (.KeyPress k) ∧ keyNum k = v

end Verif.Spec.Chip8
