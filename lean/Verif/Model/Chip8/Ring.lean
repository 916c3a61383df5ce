import Verif.Model.Rust

/-!
# `src/cpu/chip8/memory.rs`: the ring buffer of the stack
-/

namespace Verif.Chip8

open Verif

/-- `Ring<T>`, `src/cpu/chip8/memory.rs:3-7`. -/
structure Ring (T : Type) where
  capacity : Nat
  inner : List T
  deriving DecidableEq, Repr

namespace Ring

variable {T : Type} [Inhabited T]

/-- `Ring::new`, `src/cpu/chip8/memory.rs:13-16`; `T::default()` is `default`. -/
def new (capacity : Nat) : Ring T := ⟨capacity, List.replicate capacity default⟩

/-- `offset % self.capacity`, `src/cpu/chip8/memory.rs:24` and `:32`; the remainder by zero panics in every build. -/
def wrap (r : Ring T) (offset : Nat) : Res Nat :=
  if r.capacity = 0 then .error .divByZero else .ok (offset % r.capacity)

/-- `<Ring as Addressable>::read`, `src/cpu/chip8/memory.rs:23-29`; the same function is
`<Ring as SafeAddressable>::read`, `src/address_map/mod.rs:23-25`. -/
def read (r : Ring T) (offset : Nat) : Res T := do
  let i ← r.wrap offset
  .ok (r.inner[i]?.getD default)

/-- `<Ring as Addressable>::write`, `src/cpu/chip8/memory.rs:31-41`. -/
def write (r : Ring T) (offset : Nat) (data : T) : Res (Except String T × Ring T) := do
  let i ← r.wrap offset
  if i < r.inner.length then .ok (.ok data, { r with inner := r.inner.set i data })
  else .ok (.error s!"invalid addr: {offset}", r)

/-- `<Ring as SafeAddressable>::write`, `src/address_map/mod.rs:27-29`. -/
def writeSafe (r : Ring T) (offset : Nat) (data : T) : Res (T × Ring T) := do
  let (res, r') ← r.write offset data
  let v ← unwrapResult res
  .ok (v, r')

end Ring

end Verif.Chip8
