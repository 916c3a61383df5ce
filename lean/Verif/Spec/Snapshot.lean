import Verif.Spec.BusAlike
import Verif.Model.Mos.Cpu

/-!
# Save states of a 6502
-/

namespace Verif.Spec.Mos

open Verif Verif.Mos

/-- The plan of a memory: which ranges are RAM or ROM. The host knows it: it registered them. -/
abbrev SegmentPlan := List (MemKind × AddrRange)

/-- The kind of memory that a plan has at an address. -/
def kindAt (L : SegmentPlan) (a : Word) : Option MemKind := (L.find? fun x => InRange x.2 a).map Prod.fst

/-- A plan of non-empty ranges without overlaps. -/
structure Sound (L : SegmentPlan) : Prop where
  order : ∀ x ∈ L, x.2.start.toNat ≤ x.2.stop.toNat
  apart : L.Pairwise fun x y => ¬ Overlap x.2 y.2

/-- The bytes of a range, read over the bus one after the other
(`AddressMap::read`, `src/address_map/mod.rs:133-140`). -/
def readRange (b : Build) (m : AddressMap Memory) (r : AddrRange) : Res (List Byte) :=
  (List.range (r.stop.toNat + 1 - r.start.toNat)).mapM fun k => m.read b (r.start + BitVec.ofNat 16 k)

/-- A save state: five bytes, a word and the bytes of each range. -/
structure Saved where
  a : Byte
  x : Byte
  y : Byte
  sp : Byte
  pc : Word
  status : Byte
  memory : List (MemKind × AddrRange × List Byte)

/-- Saving: read the registers (the fields are public, `src/cpu/mos6502/mod.rs:44-52`; the status as a
byte, `src/cpu/mos6502/register.rs:156-158`) and all bytes of the plan. -/
def save (b : Build) (L : SegmentPlan) (c : Mos6502 (AddressMap Memory)) : Res Saved := do
  let memory ← L.mapM fun x => do
    let bytes ← readRange b c.address_map x.2
    .ok (x.1, x.2, bytes)
  .ok ⟨c.acc, c.x, c.y, c.sp, c.pc, c.ps.read, memory⟩

/-- New segments with the saved bytes, registered one after the other (`Memory::new` and `load`,
`src/address_map/memory.rs:44-73`; `AddressMap::register`, `src/address_map/mod.rs:102-124`). -/
def rebuild (b : Build) : AddressMap Memory → List (MemKind × AddrRange × List Byte) →
    Res (Except String (AddressMap Memory))
  | m, [] => .ok (.ok m)
  | m, (kind, r, data) :: rest => do
    let fresh ← Memory.new b kind r.start r.stop
    match m.register r (fresh.load data) with
    | .ok m' => rebuild b m' rest
    | .error e => .ok (.error e)

/-- Restoring into a new CPU with the builder methods (`src/cpu/mos6502/mod.rs:60-65`, `:168-196`;
`ProcessorStatus::with_value`, `src/cpu/mos6502/register.rs:164-176`). -/
def restoreOn {B : Type} (m : B) (s : Saved) : Mos6502 B :=
  withPsRegister (withPcRegister (withSpRegister (withGpRegister (withGpRegister (withGpRegister
    (withAddressmap m) .Acc s.a) .X s.x) .Y s.y) s.sp) s.pc) (ProcessorStatus.withValue s.status)

end Verif.Spec.Mos
