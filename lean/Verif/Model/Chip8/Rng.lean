import Verif.Model.Rust

/-!
# `BufferedRandomNumberGenerator` of `src/cpu/chip8/mod.rs`

A producer thread and the caller share a bounded channel. The model is a transition system with one
action per step of either thread; a run is any interleaving of enabled actions. The wrapped
generator is the sequence of its answers, `stream k` being the answer of its `k`-th call, `none` if that
call panics (as `UnixRandomNumberGenerator` does if `/dev/random` cannot be read). The channel is `std::sync::mpsc::sync_channel`: `send` blocks while the
buffer is full (with bound 0: until the receiver takes the value) and fails when the receiver is
gone; `recv` blocks while the buffer is empty and fails when it is empty and the sender is gone.
-/

namespace Verif.Chip8

open Verif

/-- `BufferedRandomNumberGenerator`, `src/cpu/chip8/mod.rs:55-60`, with the thread it spawns. -/
structure BufferedRng where
  /-- the bound of the channel -/
  bound : Nat
  /-- how many bytes the thread has drawn from the wrapped generator -/
  drawn : Nat
  /-- the byte the thread is sending, if it is inside `send` -/
  sending : Option Byte
  /-- the thread has returned -/
  done : Bool
  /-- the bytes in the channel, the oldest first -/
  buf : List Byte
  /-- the caller is inside `random`, that is inside `recv` -/
  waiting : Bool
  /-- the receiver has not been dropped -/
  alive : Bool
  /-- the answers of `random` so far, the first call first -/
  got : List Byte
  /-- the `expect` of `random` has panicked -/
  panicked : Bool
  deriving DecidableEq, Repr

namespace BufferedRng

/-- `BufferedRandomNumberGenerator::with_capacity`, `src/cpu/chip8/mod.rs:70-85`. -/
def withCapacity (bound : Nat) : BufferedRng where
  bound := bound
  drawn := 0
  sending := none
  done := false
  buf := []
  waiting := false
  alive := true
  got := []
  panicked := false

/-- `BufferedRandomNumberGenerator::new`, `src/cpu/chip8/mod.rs:63-68`, and
`DEFAULT_BUFFERED_RNG_BUFFER_LEN`, line 53. -/
def new : BufferedRng := withCapacity 1024

/-- The steps of the two threads, `src/cpu/chip8/mod.rs:78-82` and `:88-95`. -/
inductive Action where
  /-- the thread: `rng.random()`; a panic ends the thread -/
  | draw
  /-- the thread: `send` finds room in the buffer -/
  | send
  /-- both, with bound 0: `send` hands the byte to a waiting `recv` -/
  | handoff
  /-- the thread: `send` fails, the loop ends and with it the thread -/
  | sendFails
  /-- the caller: enters `random` -/
  | call
  /-- the caller: `recv` takes the oldest byte -/
  | recv
  /-- the caller: `recv` fails and `expect` panics -/
  | recvFails
  /-- the caller: drops the generator -/
  | drop
  deriving DecidableEq, Repr

/-- One step: the loop `while tx.send(rng.random()).is_ok() {}` of the thread,
`src/cpu/chip8/mod.rs:77-82`, and `random`, lines 88-95. `none`: the action is not enabled. -/
def step (stream : Nat → Option Byte) (s : BufferedRng) : Action → Option BufferedRng
  | .draw =>
    if s.sending = none ∧ s.done = false then
      match stream s.drawn with
      | some v => some { s with sending := some v, drawn := s.drawn + 1 }
      | none => some { s with done := true }
    else none
  | .send =>
    match s.sending with
    | some v =>
      if s.alive = true ∧ s.buf.length < s.bound then
        some { s with sending := none, buf := s.buf ++ [v] }
      else none
    | none => none
  | .handoff =>
    match s.sending with
    | some v =>
      if s.bound = 0 ∧ s.waiting = true then
        some { s with sending := none, waiting := false, got := s.got ++ [v] }
      else none
    | none => none
  | .sendFails =>
    match s.sending with
    | some _ => if s.alive = false then some { s with sending := none, done := true } else none
    | none => none
  | .call => if s.alive = true ∧ s.waiting = false then some { s with waiting := true } else none
  | .recv =>
    match s.buf with
    | v :: rest =>
      if s.waiting = true then
        some { s with buf := rest, waiting := false, got := s.got ++ [v] }
      else none
    | [] => none
  | .recvFails =>
    if s.waiting = true ∧ s.buf = [] ∧ s.done = true then
      some { s with waiting := false, panicked := true }
    else none
  | .drop =>
    if s.alive = true ∧ s.waiting = false then some { s with alive := false, buf := [] } else none

/-- A run of the two threads: any interleaving of enabled actions, `src/cpu/chip8/mod.rs:70-95`. -/
def runs (stream : Nat → Option Byte) : BufferedRng → List Action → Option BufferedRng
  | s, [] => some s
  | s, a :: as => (step stream s a).bind fun s => runs stream s as

end BufferedRng

end Verif.Chip8
