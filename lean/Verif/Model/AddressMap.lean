import Verif.Model.Rust

/-!
# `src/address_map/mod.rs`
-/

namespace Verif

/-- The trait `Addressable<u16, u8>`, `src/address_map/mod.rs:34-42`.

Simplifications: a device is a value (no interior mutability, `Clone` gives an equal
independent device), and its methods are functions that return or panic (they terminate).
`write` returns the `Result` together with the new device. -/
class Addressable (D : Type) where
  /-- `fn read(&self, offset) -> V`, `src/address_map/mod.rs:40` -/
  read : Build → D → Word → Res Byte
  /-- `fn write(&mut self, offset, data) -> Result<V, WriteError>`, `src/address_map/mod.rs:41` -/
  write : Build → D → Word → Byte → Res (Except String Byte × D)

/-- `std::ops::RangeInclusive<u16>` as used for the keys of the map (`src/address_map/mod.rs:77`);
the iteration state of a Rust range is not modelled (the keys are never iterated). -/
structure AddrRange where
  /-- `*range.start()` -/
  start : Word
  /-- `*range.end()` -/
  stop : Word
  deriving DecidableEq, Repr

/-- `RangeInclusive::contains`, used in `src/address_map/mod.rs:110`, `:136` and `:147`. -/
def AddrRange.contains (r : AddrRange) (a : Word) : Bool :=
  decide (r.start.toNat ≤ a.toNat) && decide (a.toNat ≤ r.stop.toNat)

/-- `AddressMap<u16, u8>`, `src/address_map/mod.rs:72-78`: the entries of the `HashMap` in its
(arbitrary) current iteration order. `Box<dyn Addressable>` becomes a device of type `D`; several
kinds of device are one sum type `D`. -/
structure AddressMap (D : Type) where
  /-- the entries of the hash map, in iteration order -/
  inner : List (AddrRange × D)

namespace AddressMap

variable {D : Type}

/-- `AddressMap::new`, `src/address_map/mod.rs:94-98`. -/
def new : AddressMap D := ⟨[]⟩

/-- The conflict test of `register`, `src/address_map/mod.rs:110`. -/
def conflicts (range : AddrRange) (key : AddrRange) : Bool :=
  key.contains range.start || key.contains range.stop

/-- `HashMap::insert`, `src/address_map/mod.rs:121`: replaces the value of an equal key, else adds an entry. The new entry is
put first here; the order is left open by `Registers` below. -/
def insert (inner : List (AddrRange × D)) (range : AddrRange) (dev : D) : List (AddrRange × D) :=
  if range ∈ inner.map Prod.fst then
    inner.map (fun e => if e.1 = range then (range, dev) else e)
  else (range, dev) :: inner

/-- `{:?}` of a `RangeInclusive<u16>` that was not iterated, used in `src/address_map/mod.rs:111-114`. -/
def debugRange (r : AddrRange) : String := s!"{r.start.toNat}..={r.stop.toNat}"

/-- The error text of `register`, `src/address_map/mod.rs:111-114`: the one made for the first
conflicting key in iteration order (the `collect` of lines 109-119 stops there). -/
def overlapText (range : AddrRange) (inner : List (AddrRange × D)) : String :=
  match inner.find? (fun e => conflicts range e.1) with
  | some (key, _) => s!"address space {debugRange range} overlaps with {debugRange key}"
  | none => ""

/-- `AddressMap::register`, `src/address_map/mod.rs:102-124`. -/
def register (m : AddressMap D) (range : AddrRange) (dev : D) : Except String (AddressMap D) :=
  if m.inner.any (fun e => conflicts range e.1) then
    .error (overlapText range m.inner)
  else .ok ⟨insert m.inner range dev⟩

/-- `register`, `src/address_map/mod.rs:102-124`, with the iteration order of the resulting `HashMap` left open: `m'` is the result
of a successful registration in some iteration order. -/
def Registers (m : AddressMap D) (range : AddrRange) (dev : D) (m' : AddressMap D) : Prop :=
  ∃ m₀, m.register range dev = .ok m₀ ∧ m'.inner.Perm m₀.inner

variable [Addressable D]

/-- `<AddressMap as Addressable>::read`, `src/address_map/mod.rs:133-140`: the first key (in
iteration order) that contains the address decides; the default value 0 if there is none. -/
def read (b : Build) (m : AddressMap D) (addr : Word) : Res Byte :=
  match m.inner.find? (fun e => e.1.contains addr) with
  | some (_, d) => Addressable.read b d addr
  | none => .ok 0

/-- The lookup-and-update part of `write` on the entry list, `src/address_map/mod.rs:144-154`. -/
def writeEntries (b : Build) (addr : Word) (value : Byte) :
    List (AddrRange × D) → Res (Except String Byte × List (AddrRange × D))
  | [] => .ok (.error s!"address space {addr.toNat} unallocated", [])
  | (r, d) :: es =>
    if r.contains addr then do
      let (res, d') ← Addressable.write b d addr value
      .ok (res, (r, d') :: es)
    else do
      let (res, es') ← writeEntries b addr value es
      .ok (res, (r, d) :: es')

/-- `<AddressMap as Addressable>::write`, `src/address_map/mod.rs:143-155`: the first key that
contains the address gets the write (with the absolute address); `Err` if there is none. -/
def write (b : Build) (m : AddressMap D) (addr : Word) (value : Byte) :
    Res (Except String Byte × AddressMap D) := do
  let (res, es) ← writeEntries b addr value m.inner
  .ok (res, ⟨es⟩)

/-- `impl Addressable for AddressMap`, `src/address_map/mod.rs:127-156`: maps can be nested. -/
instance : Addressable (AddressMap D) where
  read := read
  write := write

end AddressMap

end Verif
