import Verif.Spec.Bus

/-!
# Specification of what the devices of a bus are told
-/

namespace Verif.Spec

open Verif

/-- The place of the first of the ranges that holds the address. -/
def ownerOf (rs : List AddrRange) (a : Word) : Option Nat := rs.findIdx? fun r => decide (InRange r a)

/-- Those of the stores whose address belongs to range number `i`, in order. -/
def toldOf (rs : List AddrRange) (i : Nat) (ws : List (Word × Byte)) : List (Word × Byte) :=
  ws.filter fun w => decide (ownerOf rs w.1 = some i)

/-- What a console shows that prints every byte stored at the address `a`. -/
def shownAt (a : Word) (ws : List (Word × Byte)) : List Byte :=
  (ws.filter fun w => decide (w.1 = a)).map Prod.snd

end Verif.Spec
