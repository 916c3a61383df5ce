import Verif.Spec.MosProgram

/-!
# A CHIP-8 program that runs for long
-/

namespace Verif.Spec.Chip8

open Verif

/-- Counting up: `LD I, i; LD V0, [I]; ADD V0, 1; LD [I], V0; SE V0, 0; JP p` for each of the `n` bytes from
`i` on, then a write of VF, which panics (`src/cpu/chip8/mod.rs:427-443`, C44). -/
def counterWords (p : Nat) : Nat → Nat → List Nat
  | _, 0 => [0x6F01]
  | i, n + 1 => [0xA000 + i, 0xF065, 0x7001, 0xF055, 0x3000, 0x1000 + p] ++ counterWords p (i + 1) n

/-- Words as bytes, the high byte first (`src/cpu/chip8/mod.rs:340-344`). -/
def bytesOfWords (ws : List Nat) : List Byte := ws.flatMap fun w => [Mos.byte (w / 256), Mos.byte w]

end Verif.Spec.Chip8
