import Verif.Model.Mos.Cpu

/-!
# Calls of the methods that give access to the bus of a 6502

The reference has no CPU: it makes the same calls on the address map alone.
-/

namespace Verif.Spec

open Verif

/-- A call of `with_address_map`, `with_address_map_mut`, `with_owned_address_map` or
`register_address_space`; the closures answer with an `X`. -/
inductive BusCall (D X : Type) where
  | look (f : AddressMap D → Res X)
  | change (f : AddressMap D → Res (X × AddressMap D))
  | owned (f : AddressMap D → Res (AddressMap D))
  | register (space : AddrRange) (dev : D)

variable {D X : Type}

/-- The calls on a bare address map: the answers so far, with the map, or the error of the first
registration that fails. -/
def callsOnMap : AddressMap D → List (BusCall D X) → Res (Except String (List X × AddressMap D))
  | am, [] => .ok (.ok ([], am))
  | am, .look f :: cs => do
    let x ← f am
    let r ← callsOnMap am cs
    .ok (r.map fun p => (x :: p.1, p.2))
  | am, .change f :: cs => do
    let (x, am') ← f am
    let r ← callsOnMap am' cs
    .ok (r.map fun p => (x :: p.1, p.2))
  | am, .owned f :: cs => do
    let am' ← f am
    callsOnMap am' cs
  | am, .register space dev :: cs =>
    match am.register space dev with
    | .error e => .ok (.error e)
    | .ok am' => callsOnMap am' cs

/-- The calls on a CPU. -/
def callsOnCpu : Mos.Mos6502 (AddressMap D) → List (BusCall D X) →
    Res (Except String (List X × Mos.Mos6502 (AddressMap D)))
  | cpu, [] => .ok (.ok ([], cpu))
  | cpu, .look f :: cs => do
    let x ← Mos.withAddressMap cpu f
    let r ← callsOnCpu cpu cs
    .ok (r.map fun p => (x :: p.1, p.2))
  | cpu, .change f :: cs => do
    let (x, cpu') ← Mos.withAddressMapMut cpu f
    let r ← callsOnCpu cpu' cs
    .ok (r.map fun p => (x :: p.1, p.2))
  | cpu, .owned f :: cs => do
    let cpu' ← Mos.withOwnedAddressMap cpu f
    callsOnCpu cpu' cs
  | cpu, .register space dev :: cs =>
    match Mos.registerAddressSpace cpu space dev with
    | .error e => .ok (.error e)
    | .ok cpu' => callsOnCpu cpu' cs

end Verif.Spec
