import Verif.Model.Rust
import Verif.Spec.Numeral

/-!
# Reading the message of a panic
-/

namespace Verif.Spec

/-- What the message of a panic says. -/
inductive Cause
  /-- machine arithmetic overflowed -/
  | overflow
  /-- there is no instruction with this number -/
  | opcode (n : Nat)
  /-- there is no instruction word with this number -/
  | word (n : Nat)
  /-- there is no register with the number used -/
  | register
  /-- a store to read-only memory -/
  | readOnly
  /-- a store to an address at which there is nothing -/
  | unmapped (a : Nat)
  deriving DecidableEq

/-- What stands between a beginning and an end of a text. -/
def between (first last s : List Char) : Option (List Char) :=
  if s.take first.length = first then
    let t := s.drop first.length
    if last.length ≤ t.length ∧ t.drop (t.length - last.length) = last then
      some (t.take (t.length - last.length))
    else none
  else none

/-- The number between a beginning and an end of a text. -/
def numberBetween (base : Nat) (first last : String) (s : List Char) : Option Nat :=
  (between first.toList last.toList s).bind (numeral base)

/-- The cause that the message of a panic names. -/
def cause : Panic → Option Cause
  | .overflow => some .overflow
  | .unwrapErr msg =>
    if msg.toList = "memory is read-only".toList then some .readOnly
    else match numberBetween 10 "No match found for " "" msg.toList with
      | some n => some (.opcode n)
      | none => match numberBetween 16 "No match found for 0x" "" msg.toList with
        | some n => some (.word n)
        | none => (numberBetween 10 "address space " " unallocated" msg.toList).map .unmapped
  | .bounds | .unwrapNone => some .register
  | _ => none

end Verif.Spec
