import Verif.Spec.Bus

/-!
# Specification of nested address maps

A map whose devices are maps, and the one map that has all their devices: every device of an inner
map, over the part of its range that the outer map hands to that inner map.
-/

namespace Verif.Spec

open Verif

/-- The addresses that two ranges share, as a range (an empty one if there are none). -/
def meet (r s : AddrRange) : AddrRange where
  start := if r.start.toNat ≤ s.start.toNat then s.start else r.start
  stop := if r.stop.toNat ≤ s.stop.toNat then r.stop else s.stop

/-- All devices of all inner maps, each over the addresses that reach it. -/
def flatten {D : Type} (m : AddressMap (AddressMap D)) : AddressMap D :=
  AddressMap.mk (m.inner.flatMap fun e => e.2.inner.map fun f => (meet e.1 f.1, f.2))

end Verif.Spec
