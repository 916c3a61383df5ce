import Verif.Spec.MosProgram

/-!
# A program that runs for long
-/

namespace Verif.Spec.Mos

open Verif

/-- Counting up: `INC i; BEQ next; JMP p` for each of the `n` bytes from `i` on, then an opcode that no
instruction has. The branch is written for the emulator, which lands two bytes early
(`src/cpu/mos6502/operations/mod.rs:2357-2363`, C26): 5 bytes after its own address, which is the next block. -/
def counterCode (p : Nat) : Nat → Nat → List Byte
  | _, 0 => [0x02]
  | i, n + 1 => op16 0xee i ++ ([0xf0, 0x05] ++ (op16 0x4c p ++ counterCode p (i + 1) n))

end Verif.Spec.Mos
