import Verif.Model.AddressMap
import Verif.Model.Chip8.Ring

/-!
# `src/address_map/mod.rs` for every type of addresses and values

`Model/AddressMap.lean` is the map of the two CPUs, with `O = u16` and `V = u8`. This is the same
code before the types are fixed.
-/

namespace Verif.Generic

open Verif

/-- The bounds on `O`, `src/address_map/mod.rs:92` and `:129`, as far as the map uses them:
`PartialOrd::le` in `RangeInclusive::contains`, and `{:?}`. Nothing is assumed of the order. -/
class Offset (O : Type) where
  /-- `a <= b` -/
  le : O → O → Bool
  /-- `format!("{:?}", a)` -/
  debug : O → String

/-- The trait `Addressable<O, V>`, `src/address_map/mod.rs:34-42`, with the simplifications named at
`Verif.Addressable`. -/
class Device (O V D : Type) where
  /-- `fn read(&self, offset: O) -> V`, `src/address_map/mod.rs:40` -/
  read : Build → D → O → Res V
  /-- `fn write(&mut self, offset: O, data: V) -> Result<V, WriteError>`, `src/address_map/mod.rs:41` -/
  write : Build → D → O → V → Res (Except String V × D)

/-- `std::ops::RangeInclusive<O>`, a key of the map (`src/address_map/mod.rs:77`). -/
structure Range (O : Type) where
  /-- `range.start()` -/
  start : O
  /-- `range.end()` -/
  stop : O
  deriving DecidableEq

/-- `RangeInclusive::contains`, used in `src/address_map/mod.rs:110`, `:136` and `:147`. -/
def Range.contains {O : Type} [Offset O] (r : Range O) (a : O) : Bool := Offset.le r.start a && Offset.le a r.stop

/-- `AddressMap<O, V>`, `src/address_map/mod.rs:72-78`: the entries in iteration order. -/
structure Map (O D : Type) where
  /-- the entries of the hash map -/
  inner : List (Range O × D)

namespace Map

variable {O V D : Type}

/-- `AddressMap::new`, `src/address_map/mod.rs:94-98`. -/
def new : Map O D := ⟨[]⟩

section
variable [Offset O]

/-- The test of `register`, `src/address_map/mod.rs:110`. -/
def conflicts (range key : Range O) : Bool := key.contains range.start || key.contains range.stop

/-- `HashMap::insert`, `src/address_map/mod.rs:121`, as in `Verif.AddressMap.insert`. -/
def insert [DecidableEq O] (inner : List (Range O × D)) (range : Range O) (dev : D) : List (Range O × D) :=
  if range ∈ inner.map Prod.fst then inner.map (fun e => if e.1 = range then (range, dev) else e)
  else (range, dev) :: inner

/-- `{:?}` of a range that was not iterated, used in `src/address_map/mod.rs:86` and `:111-114`. -/
def debugRange (r : Range O) : String := s!"{Offset.debug r.start}..={Offset.debug r.stop}"

/-- The error text of `register`, `src/address_map/mod.rs:111-114`. -/
def overlapText (range : Range O) (inner : List (Range O × D)) : String :=
  match inner.find? (fun e => conflicts range e.1) with
  | some (key, _) => s!"address space {debugRange range} overlaps with {debugRange key}"
  | none => ""

/-- `AddressMap::register`, `src/address_map/mod.rs:102-124`. -/
def register [DecidableEq O] (m : Map O D) (range : Range O) (dev : D) : Except String (Map O D) :=
  if m.inner.any (fun e => conflicts range e.1) then .error (overlapText range m.inner)
  else .ok ⟨insert m.inner range dev⟩

/-- `<AddressMap as Debug>::fmt` with `{:?}`, `src/address_map/mod.rs:80-88`: the ranges in iteration
order, as the `Debug` text of a `Vec`. -/
def debugText (m : Map O D) : String :=
  s!"AddressMap [{", ".intercalate (m.inner.map fun e => debugRange e.1)}]"

variable [Inhabited V] [Device O V D]

/-- `<AddressMap as Addressable>::read`, `src/address_map/mod.rs:133-140`; `V::default()` is
`default`. -/
def read (b : Build) (m : Map O D) (addr : O) : Res V :=
  match m.inner.find? (fun e => e.1.contains addr) with
  | some (_, d) => Device.read b d addr
  | none => .ok default

omit [Inhabited V] in
/-- The lookup-and-update part of `write` on the entry list, `src/address_map/mod.rs:144-154`. -/
def writeEntries (b : Build) (addr : O) (value : V) :
    List (Range O × D) → Res (Except String V × List (Range O × D))
  | [] => .ok (.error s!"address space {Offset.debug addr} unallocated", [])
  | (r, d) :: es =>
    if r.contains addr then do
      let (res, d') ← Device.write b d addr value
      .ok (res, (r, d') :: es)
    else do
      let (res, es') ← writeEntries b addr value es
      .ok (res, (r, d) :: es')

omit [Inhabited V] in
/-- `<AddressMap as Addressable>::write`, `src/address_map/mod.rs:143-155`. -/
def write (b : Build) (m : Map O D) (addr : O) (value : V) : Res (Except String V × Map O D) := do
  let (res, es) ← writeEntries b addr value m.inner
  .ok (res, ⟨es⟩)

/-- `impl Addressable for AddressMap`, `src/address_map/mod.rs:127-156`. -/
instance : Device O V (Map O D) where
  read := read
  write := write

end

end Map

/-- `u16` as an address type, that of both CPUs (`src/cpu/chip8/mod.rs:132`). -/
instance : Offset Word where
  le a b := decide (a.toNat ≤ b.toNat)
  debug a := s!"{a.toNat}"

/-- `usize` as an address type, that of `Ring` (`src/cpu/chip8/memory.rs:19`). -/
instance : Offset Nat where
  le a b := decide (a ≤ b)
  debug a := s!"{a}"

/-- A device of the two CPUs, `Addressable<u16, u8>` (`src/address_map/memory.rs:76` and `:93`). -/
instance {D : Type} [Addressable D] : Device Word Byte D where
  read := Addressable.read
  write := Addressable.write

/-- `impl Addressable<usize, T> for Ring<T>`, `src/cpu/chip8/memory.rs:19-42`. -/
instance {T : Type} [Inhabited T] : Device Nat T (Chip8.Ring T) where
  read _ := Chip8.Ring.read
  write _ := Chip8.Ring.write

end Verif.Generic
