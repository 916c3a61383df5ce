import Verif.Model.Chip8.Cpu

/-!
# Random generators with a state

In `Verif.Model.Chip8.Cpu` the byte a generator answers is part of the environment of a step. Here the
generator itself is modelled: `random(&self)` may change the generator (through a `Cell`), a world that
clones share (an `Rc`, a file), or nothing.
-/

namespace Verif.Chip8.Live

open Verif Verif.Chip8

/-- The trait `GenerateRandom<u8>`, `src/cpu/chip8/mod.rs:16-20`, for generators that share a world `W`:
`G` is what each clone has for itself. -/
class Generator (W G : Type) where
  /-- `fn random(&self) -> T`, `src/cpu/chip8/mod.rs:19` -/
  random : G → W → Res Byte × G × W

/-- A closure over a state of its own, as `impl GenerateRandom for F`, `src/cpu/chip8/mod.rs:22-29`: a
clone of the closure has a copy of the state. -/
structure Closure (S : Type) where
  /-- what a call does -/
  call : S → Byte × S
  /-- the state, in a `Cell` -/
  state : S

/-- `impl GenerateRandom for F`, `src/cpu/chip8/mod.rs:22-29`. -/
instance {S : Type} : Generator Unit (Closure S) where
  random f w := (.ok (f.call f.state).1, { f with state := (f.call f.state).2 }, w)

/-- `UnixRandomNumberGenerator`, `src/cpu/chip8/mod.rs:31-34`. -/
structure UnixRng where

/-- What the system answers when `/dev/random` is opened and one byte is read: the next answers in order,
an error as its message (`src/cpu/chip8/mod.rs:43-45`). -/
abbrev DevRandom := Nat → Except String Byte

/-- `<UnixRandomNumberGenerator as GenerateRandom<u8>>::random`, `src/cpu/chip8/mod.rs:37-49`; the world
is the sequence of the system's answers to come. -/
instance : Generator DevRandom UnixRng where
  random g w :=
    (match w 0 with
      | .ok v => .ok v
      | .error msg => .error (.unwrapErr ("cannot read exactly one byte from /dev/random.: " ++ msg)),
    g, fun k => w (k + 1))

section
variable {B W G : Type} [Addressable B] [Generator W G]

/-- The call of `cpu.rng.random()` by the instruction `op`: only `Rnd` makes one,
`src/cpu/chip8/operations/mod.rs:1181`. -/
def ask (op : Opcode) (g : G) (w : W) : Res Byte × G × W :=
  match op with
  | .Rnd _ _ => Generator.random g w
  | _ => (.ok 0, g, w)

/-- `<Chip8IntoIterator as Iterator>::next`, `src/cpu/chip8/mod.rs:338-364`; `generate` calls the
generator of the iterator's machine through `&self.state`, and the clone of line 361 is made afterwards.
The field `rand` of `e` is not used. -/
def nextR (b : Build) (e : Env) (state : Chip8 B G) (w : W) : Res (List Microcode × Chip8 B G) × W :=
  match fetch b state with
  | .error p => (.error p, w)
  | .ok ops =>
    match ask ops state.rng w with
    | (.error p, _, w') => (.error p, w')
    | (.ok v, g, w') =>
      (do
        let mcs ← generate b { e with rand := v } state ops
        let microcode_steps := mcs ++ [.Inc16bitRegister .ProgramCounter 2]
        let state ← executeAll b e.iterAt { state with rng := g } microcode_steps
        .ok (microcode_steps, state), w')

/-- The loop of `run`, `src/cpu/chip8/mod.rs:294-299`, as in `Verif.Chip8.runLoop`. -/
def runLoopR (b : Build) (env : Nat → Env) : Nat → Nat → Chip8 B G → Chip8 B G → W → Res (Chip8 B G) × W
  | 0, _, _, cpu, w => (.ok cpu, w)
  | n + 1, k, it, cpu, w =>
    match nextR b (env k) it w with
    | (.error p, w') => (.error p, w')
    | (.ok (mcs, it), w') =>
      match executeAll b (env k).foldAt cpu mcs with
      | .error p => (.error p, w')
      | .ok cpu => runLoopR b env n (k + 1) it cpu w'

/-- `Chip8::run`, `src/cpu/chip8/mod.rs:293-301`: the iterator has a clone of the generator. -/
def runR (b : Build) (env : Nat → Env) (cpu : Chip8 B G) (cycles : Nat) (w : W) :
    Res (StepState (Chip8 B G)) × W :=
  match runLoopR b env cycles 0 cpu cpu w with
  | (.ok state, w') => (.ok (StepState.ofState state), w')
  | (.error p, w') => (.error p, w')

end

end Verif.Chip8.Live
