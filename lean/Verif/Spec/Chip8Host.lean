import Verif.Spec.Builders
import Verif.Spec.Chip8

/-!
# What a host can do with a CHIP-8

The fields of `Chip8` are private (`src/cpu/chip8/mod.rs:130-142`), so are the modules with the types of the
registers and of the microcode (`:7-12`). What is public: `default` and `reset`, the builder methods, `clone`,
`run` (also through `StepState`, which hands the CPU out again), `into_iter`, the iterator's `next`, the CPU
made of the iterator, and `execute` of a microcode operation, which the host must have got from an iterator.
Here the builder methods take any arguments, also those whose types a host cannot name.
-/

namespace Verif.Spec.Chip8

open Verif Verif.Chip8 Verif.Spec

/-- The CHIP-8s that a host can get. -/
inductive Obtained (b : Build) : {R : Type} → Chip8 (AddressMap Memory) R → Prop
  /-- `Chip8::default` and `reset`, `src/cpu/chip8/mod.rs:248-287`. -/
  | new {R : Type} {now : Instant} {rng : R} {c : Chip8 (AddressMap Memory) R} :
      defaultCpu b now rng = .ok c → Obtained b c
  /-- The table of the bus in another order, which a clone may have. -/
  | clone {R : Type} {c : Chip8 (AddressMap Memory) R} {m : AddressMap Memory} : Obtained b c →
      c.address_space.inner.Perm m.inner → Obtained b { c with address_space := m }
  /-- A builder method, `src/cpu/chip8/mod.rs:144-244`. -/
  | build {R : Type} {c c' : Chip8 (AddressMap Memory) R} {call : Chip8Call R} : Obtained b c →
      call.exec c = .ok c' → Obtained b c'
  /-- `with_rng` with a generator of any type, `src/cpu/chip8/mod.rs:192-206`. -/
  | generator {R NR : Type} {c : Chip8 (AddressMap Memory) R} {rng : NR} : Obtained b c →
      Obtained b (withRng c rng)
  /-- `run`, `src/cpu/chip8/mod.rs:289-302`. -/
  | run {R : Type} {c : Chip8 (AddressMap Memory) R} {env : Nat → Env} {n : Nat}
      {s : StepState (Chip8 (AddressMap Memory) R)} : Obtained b c → Verif.Chip8.run b env c n = .ok s →
      Obtained b s.unwrap
  /-- The iterator, one instruction further, as a CPU, `src/cpu/chip8/mod.rs:304-364`. -/
  | iterate {R : Type} {c c' : Chip8 (AddressMap Memory) R} {e : Env} {mcs : List Microcode} : Obtained b c →
      next b e c = .ok (mcs, c') → Obtained b c'
  /-- A microcode operation from one CPU's iterator, executed on another CPU,
  `src/cpu/chip8/mod.rs:369-419`. -/
  | execute {R R' : Type} {c c' : Chip8 (AddressMap Memory) R} {d d' : Chip8 (AddressMap Memory) R'} {e : Env}
      {mcs : List Microcode} {mc : Microcode} {now : Instant} : Obtained b c → Obtained b d →
      next b e d = .ok (mcs, d') → mc ∈ mcs → executeMut b now c mc = .ok c' → Obtained b c'

/-- What a host does with one CHIP-8. -/
inductive HostOp (R : Type) where
  | call (c : Chip8Call R)
  | run (env : Nat → Env) (n : Nat)

/-- Done, one after the other (`src/cpu/chip8/mod.rs:144-244`, `:289-302`). -/
def execHost {B R : Type} [Addressable B] (b : Build) : Chip8 B R → List (HostOp R) → Res (Chip8 B R)
  | c, [] => .ok c
  | c, .call k :: l => k.exec c >>= fun c => execHost b c l
  | c, .run env n :: l => Verif.Chip8.run b env c n >>= fun s => execHost b s.unwrap l

/-- The builder calls among them. -/
def buildersOf {R : Type} (l : List (HostOp R)) : List (Chip8Call R) :=
  l.filterMap fun | .call k => some k | .run _ _ => none

/-- The program counter afterwards: the last one set, plus 2 for each instruction since. -/
def counterAfter {R : Type} : Nat → List (HostOp R) → Nat
  | p, [] => p % 65536
  | _, .call (.pc v) :: l => counterAfter v.toNat l
  | p, .call _ :: l => counterAfter p l
  | p, .run _ n :: l => counterAfter (p + 2 * n) l

end Verif.Spec.Chip8
