import Verif.Spec.Turing
import Verif.Spec.SortTimed

/-!
# The running time of Turing machines on a ring

The times the charts of `Spec/Turing` take on the two machines. Nothing here refers to their models. `C151`
proves them.
-/

namespace Verif.Spec.Turing

open Verif.Spec.Sort (indexPenalty branchPenalty)

/-- How many rules of the state are tried before the one that applies; if none applies, all of them. -/
def Machine.tried (m : Machine) (c : Config) : Nat :=
  (m[c.state]?.getD []).findIdx fun r => decide (r.seen = c.tape c.head)

/-- The time of the first `k` steps, if the step from `c` takes the time `f c`. -/
def Machine.stepsTime (m : Machine) (f : Config → Nat) : Nat → Config → Nat
  | 0, _ => 0
  | k + 1, c => match m.step c with
    | none => 0
    | some c' => f c + m.stepsTime f k c'

/-- The instructions of the CHIP-8 for a step: five to read the symbol, two to try a rule, seven to apply it. -/
def chip8Step (m : Machine) (c : Config) : Nat := 5 + 2 * (m.tried c + 1) + 7

/-- Those to find that no rule applies. In a state that there is not, there is nothing to find. -/
def chip8Halt (m : Machine) (c : Config) : Nat := if c.state < m.length then 5 + 2 * m.tried c + 1 else 0

/-- Where the code for the 6502 at `p` tests the symbol for the rule `j` of the state `q`. -/
def testPlace (m : Machine) (p q j : Nat) : Nat := p + ((m.take q).map fun rs => 13 + 33 * rs.length).sum + 10 + 33 * j

/-- The cycles of the 6502 for a step, with the code at `p` and the tape at `t`: 13 to read the symbol, 10 for
each rule that does not apply, 11 for the test of the one that does and 29 to apply it; one more if the symbol
lies in another page than the beginning of the tape, and one if the branch of the test leads to another page. -/
def mosStep (m : Machine) (p t : Nat) (c : Config) : Nat :=
  13 + indexPenalty t c.head.toNat + 10 * m.tried c + (11 + branchPenalty (testPlace m p c.state (m.tried c))) + 29

/-- Those to find that no rule applies. -/
def mosHalt (m : Machine) (t : Nat) (c : Config) : Nat :=
  if c.state < m.length then 13 + indexPenalty t c.head.toNat + 10 * m.tried c + 3 else 0

end Verif.Spec.Turing
