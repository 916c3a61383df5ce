import Verif.Model.Rust

/-!
# `src/cpu/mod.rs`: `StepState` and `Cpu`
-/

namespace Verif

/-- `StepState<T>`, `src/cpu/mod.rs:42-45`. -/
inductive StepState (T : Type) where
  | notReady (cycles : Nat) (state : T)
  | ready (state : T)
  deriving DecidableEq, Repr

/-- The trait `Cpu<T>` for `Self = T`, `src/cpu/mod.rs:35-37`; a run may panic. -/
class Cpu (T : Type) where
  /-- `fn run(self, cycles: usize) -> StepState<T>` -/
  run : Build → T → Nat → Res (StepState T)

namespace StepState

variable {T : Type}

/-- `StepState::new`, `src/cpu/mod.rs:48-53`. -/
def new (cycle : Nat) (state : T) : StepState T :=
  match cycle with
  | 0 => .ready state
  | 1 => .ready state
  | n + 2 => .notReady (n + 2 - 1) state

/-- `StepState::decrement`, `src/cpu/mod.rs:56-63`. -/
def decrement : StepState T → StepState T
  | .ready s => .ready s
  | .notReady 1 s => .ready s
  | .notReady 0 s => .ready s
  | .notReady (n + 2) s => .notReady (n + 2 - 1) s

/-- `StepState::unwrap`, `src/cpu/mod.rs:65-70`. -/
def unwrap : StepState T → T
  | .ready s => s
  | .notReady _ s => s

/-- `impl Cpu<T> for StepState<T>`, `src/cpu/mod.rs:73-86`. -/
def run [Cpu T] (b : Build) (s : StepState T) (cycles : Nat) : Res (StepState T) :=
  match s with
  | .ready cpu => Cpu.run b cpu cycles
  | .notReady remaining cpu =>
    if cycles < remaining then .ok (.notReady 0 cpu)
    else Cpu.run b cpu (cycles - remaining)

/-- `impl From<T> for StepState<T>`, `src/cpu/mod.rs:88-92`. -/
def ofState (src : T) : StepState T := StepState.new 1 src

/-- `impl From<StepState<T>> for (usize, T)`, `src/cpu/mod.rs:94-101`. -/
def toPair : StepState T → Nat × T
  | .ready s => (0, s)
  | .notReady n s => (n, s)

end StepState

end Verif
