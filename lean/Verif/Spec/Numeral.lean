/-!
# Specification of numerals: what a string of digits means
-/

namespace Verif.Spec

/-- The digits, in order. -/
def digitChars : List Char := "0123456789abcdef".toList

/-- The value of a digit in a base up to 16, of either case. -/
def digitValue (base : Nat) (c : Char) : Option Nat :=
  match digitChars.idxOf? c.toLower with
  | some d => if d < base then some d else none
  | none => none

/-- Positional notation: the number that digits mean after a number already read. -/
def numeralFrom (base : Nat) : Nat → List Char → Option Nat
  | n, [] => some n
  | n, c :: cs =>
    match digitValue base c with
    | some d => numeralFrom base (n * base + d) cs
    | none => none

/-- The number a string of digits means; no digits mean nothing. -/
def numeral (base : Nat) (s : List Char) : Option Nat :=
  if s = [] then none else numeralFrom base 0 s

end Verif.Spec
