import Verif.Spec.Sort

/-!
# How long the counting sort takes

Formulas. `C143` proves that the 6502 takes exactly these cycles, `C144` that the two machines execute
exactly these numbers of instructions.
-/

namespace Verif.Spec.Sort

/-- The sum of `w 0`, …, `w (n - 1)`. -/
def total (w : Nat → Nat) : Nat → Nat
  | 0 => 0
  | n + 1 => total w n + w n

/-- How often the sort counts up its value: one more than the largest value, zero if there is none. -/
def rounds : List (BitVec 8) → Nat
  | [] => 0
  | v :: l => max (v.toNat + 1) (rounds l)

/-- One cycle if the element `j` of an array lies in another page than the array's beginning at `b`. -/
def indexPenalty (b j : Nat) : Nat := if b % 256 + j < 256 then 0 else 1

/-- One cycle if the test at `q` branches to another page. -/
def branchPenalty (q : Nat) : Nat := if (q + 9) / 256 = (q + 4) / 256 then 0 else 1

/-- The cycles the sort at `p` takes for the values `l`, with its arrays at `data` and `count`: 8238, for
each value 105 and for each round 42, if no page is crossed. The tests lie 22, 52, 107 and 123 bytes behind
its beginning. -/
def sortCycles (p data count : Nat) (l : List (BitVec 8)) : Nat :=
  8238 + 105 * l.length + 42 * rounds l +
    (255 * branchPenalty (p + 22) + l.length * branchPenalty (p + 52) + rounds l * branchPenalty (p + 107) +
      l.length * branchPenalty (p + 123)) +
    (total (indexPenalty data) l.length + (l.map fun v => indexPenalty count v.toNat).sum +
      total (indexPenalty count) (rounds l))

/-- The instructions the 6502 executes to sort the values `l`. -/
def mosSortInstructions (l : List (BitVec 8)) : Nat := 2834 + 36 * l.length + 15 * rounds l

/-- The instructions the CHIP-8 executes to sort the values `l`. -/
def chip8SortInstructions (l : List (BitVec 8)) : Nat := 1801 + 24 * l.length + 9 * rounds l

end Verif.Spec.Sort
