import Verif.Model.Rust

/-!
# Devices with a life of their own

`Verif.Addressable` takes a device to be a value. A device may also keep state that its clones share
(`Rc<RefCell<..>>`), change when it is read (interior mutability), or act on the outside world
(`println!`). Then it matters which calls of `read` and `write` the code makes, in which order, and
on which clone of the bus. Here a computation of the code is the tree of its calls: what it asks
next depends on the answers so far, and nothing is assumed of the answers.
-/

namespace Verif.Live

open Verif

/-- The clones of the bus in `run`, `src/cpu/mos6502/mod.rs:217-228` and `:239-253`. -/
inductive Copy where
  /-- the clone inside the instruction iterator -/
  | iterator
  /-- the bus of the CPU that `run` was called on and returns -/
  | own
  deriving DecidableEq, Repr

/-- A Rust computation that calls `Addressable::read` and `Addressable::write`
(`src/address_map/mod.rs:40-41`) on clones of the bus. -/
inductive Bus (α : Type) where
  /-- it returns or panics -/
  | done (r : Res α)
  /-- it calls `read` and goes on with the answer -/
  | read (who : Copy) (addr : Word) (k : Byte → Bus α)
  /-- it calls `write` and goes on with the answer -/
  | write (who : Copy) (addr : Word) (value : Byte) (k : Except String Byte → Bus α)

namespace Bus

variable {α β : Type}

/-- Sequencing, as of the reads in `src/cpu/mos6502/mod.rs:260-264`; a panic ends the computation. -/
def bind : Bus α → (α → Bus β) → Bus β
  | .done (.ok a), f => f a
  | .done (.error e), _ => .done (.error e)
  | .read who addr k, f => .read who addr fun v => bind (k v) f
  | .write who addr value k, f => .write who addr value fun r => bind (k r) f

/-- Computations with calls in sequence, as in `src/cpu/mos6502/mod.rs:258-278`. -/
instance : Monad Bus where
  pure a := .done (.ok a)
  bind := bind

/-- Computations without calls, such as the sums of `src/cpu/mos6502/mod.rs:262-263`. -/
instance : MonadLift (Except Panic) Bus where
  monadLift r := .done r

/-- `address_map.read(addr)`, `src/address_map/mod.rs:40`. -/
def get (who : Copy) (addr : Word) : Bus Byte := .read who addr pure

/-- `address_map.write(addr, value)`, `src/address_map/mod.rs:41`. -/
def put (who : Copy) (addr : Word) (value : Byte) : Bus (Except String Byte) := .write who addr value pure

end Bus

end Verif.Live
