import Verif.Model.AddressMap

/-!
# `src/address_map/memory.rs`
-/

namespace Verif

/-- The marker types `ReadOnly` and `ReadWrite`, `src/address_map/memory.rs:18-26`. -/
inductive MemKind where
  | readOnly
  | readWrite
  deriving DecidableEq, Repr

/-- `MemoryErr`, `src/address_map/memory.rs:4-8`; nothing in the crate returns it. -/
inductive MemoryErr where
  | Load

/-- `Display for MemoryErr`, `src/address_map/memory.rs:10-16`. -/
def MemoryErr.display : MemoryErr → String
  | .Load => "failed to load rom"

/-- `Memory<T, u16, u8>`, `src/address_map/memory.rs:28-36`. The type parameter `T` is the field
`kind` (it selects the `Addressable` impl), so that one Lean type covers both impls. -/
structure Memory where
  /-- `mem_type: PhantomData<T>` -/
  kind : MemKind
  /-- `start_address` -/
  start : Word
  /-- `stop_address` -/
  stop : Word
  /-- `inner: Vec<u8>` -/
  inner : List Byte
  deriving DecidableEq, Repr

namespace Memory

/-- `Memory::new`, `src/address_map/memory.rs:45-57`: `stop - start + 1` cells of 0. With
`stop < start` the `usize` subtraction overflows: a checked build panics; an unchecked build wraps,
which gives 0 cells for `stop + 1 = start` and an impossible capacity otherwise. -/
def new (b : Build) (kind : MemKind) (start stop : Word) : Res Memory :=
  if start.toNat ≤ stop.toNat then
    .ok ⟨kind, start, stop, List.replicate (stop.toNat - start.toNat + 1) 0⟩
  else if b.overflowChecks then .error .overflow
  else if stop.toNat + 1 = start.toNat then .ok ⟨kind, start, stop, []⟩
  else .error .capacity

/-- `Memory::dump`, `src/address_map/memory.rs:60-62`. -/
def dump (m : Memory) : List Byte := m.inner

/-- `Memory::load`, `src/address_map/memory.rs:66-73`: replaces the cells, whatever their number. -/
def load (m : Memory) (data : List Byte) : Memory := { m with inner := data }

/-- `read` of both impls, `src/address_map/memory.rs:79-82` (ReadWrite) and `:95-98` (ReadOnly),
which have the same body. -/
def read (b : Build) (m : Memory) (addr : Word) : Res Byte := do
  let off ← subU16 b addr m.start
  index m.inner off.toNat

/-- `write`, `src/address_map/memory.rs:86-90` (ReadWrite) and `:102-104` (ReadOnly). -/
def write (b : Build) (m : Memory) (addr : Word) (value : Byte) :
    Res (Except String Byte × Memory) :=
  match m.kind with
  | .readWrite => do
    let off ← subU16 b addr m.start
    let inner ← indexSet m.inner off.toNat value
    .ok (.ok value, { m with inner := inner })
  | .readOnly => .ok (.error "memory is read-only", m)

/-- `impl Addressable<u16, u8> for Memory<_, u16, u8>`, `src/address_map/memory.rs:76-105`. -/
instance : Addressable Memory where
  read := read
  write := write

end Memory

end Verif
