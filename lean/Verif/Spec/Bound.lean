import Verif.Model.Memory

/-!
# How long is long enough
-/

namespace Verif.Spec

open Verif

/-- The number of bytes of RAM on a bus: the lengths of its `ReadWrite` segments
(`src/address_map/memory.rs:28-36`). -/
def ramBytes (m : AddressMap Memory) : Nat :=
  ((m.inner.filter fun e => e.2.kind = .readWrite).map fun e => e.2.inner.length).sum

/-- The number of states of a 6502 on a bus with `k` states: A, X, Y, S and P are bytes, the program
counter is a word (`src/cpu/mos6502/mod.rs:44-52`). -/
def mosStates (k : Nat) : Nat := 2 ^ 56 * k

/-- A bound on the number of states of a CHIP-8 with `len` stack cells on a bus with `k` states, but
for the instants at which its timers were written: 15 registers and the two timers, pc, SP and I, the
stack, 64 × 32 pixels, and no key or one of 16 (`src/cpu/chip8/mod.rs:130-142`). -/
def chip8States (len k : Nat) : Nat := 2 ^ (15 * 8 + 2 * 8 + 16 + 8 + 16 + 16 * len + 64 * 32) * 17 * k

end Verif.Spec
