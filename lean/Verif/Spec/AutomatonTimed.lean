import Verif.Spec.Automaton
import Verif.Spec.SortTimed

/-!
# The running time of finite automata

The times the charts of `Spec/Automaton` take on the two machines. Nothing here refers to their models. `C153`
proves them.
-/

namespace Verif.Spec.Automaton

open Verif.Spec.Sort (indexPenalty branchPenalty)

/-- How many cases of the state are compared in vain with the byte. -/
def vain (r : Row) (b : BitVec 8) : Nat := r.cases.findIdx fun c => decide (b = c.1)

/-- One of the cases is for the byte. -/
def found (r : Row) (b : BitVec 8) : Prop := vain r b < r.cases.length

instance (r : Row) (b : BitVec 8) : Decidable (found r b) := inferInstanceAs (Decidable (_ < _))

/-- The time for the word from the place `k` on, in the state `q`: `gone` in a state that there is not, `stop q k`
if the word ends here, and `step r q k b` for a byte `b`. -/
def Automaton.wordTime (a : Automaton) (gone : Nat) (stop : Nat → Nat → Nat) (step : Row → Nat → Nat → BitVec 8 → Nat) :
    Nat → Nat → List (BitVec 8) → Nat
  | q, k, [] => match a[q]? with
    | none => gone
    | some _ => stop q k
  | q, k, b :: w => match a[q]? with
    | none => gone
    | some r => step r q k b + a.wordTime gone stop step (next r.cases r.other b) (k + 1) w

/-- The instructions of the CHIP-8: two to start, two for the answer, and for each byte and the zero seven to read
it and compare it with zero; for each byte two for each comparison, and one more if there is no case for it. -/
def chip8Time (a : Automaton) (w : List (BitVec 8)) : Nat :=
  2 + a.wordTime 2 (fun _ _ => 7 + 2)
    (fun r _ _ b => 7 + 2 * vain r b + (if found r b then 2 else 1)) 0 0 w

/-- Where the code of the state `q` lies, if the code for the 6502 begins at `p`. -/
def rowPlace (a : Automaton) (p q : Nat) : Nat := p + 21 + ((a.take q).map fun r => 29 + 12 * r.cases.length).sum

/-- The cycles of the 6502, with the code at `p` and the word at `t`: eight to start, eight for the answer, 20 to
read a byte or the zero, ten for each comparison in vain, also that with zero, eleven for one that is not, and three
if there is no case for the byte; one more for each byte read from another page, and one for each branch taken to
another page. -/
def mosTime (a : Automaton) (p t : Nat) (w : List (BitVec 8)) : Nat :=
  8 + a.wordTime 8 (fun q k => 20 + indexPenalty t k + (11 + branchPenalty (rowPlace a p q + 14)) + 8)
    (fun r q k b => 20 + indexPenalty t k + 10 + 10 * vain r b +
      (if found r b then 11 + branchPenalty (rowPlace a p q + 26 + 12 * vain r b) else 3)) 0 0 w

/-- All states the automaton can get to are there. -/
def Automaton.complete (a : Automaton) : Prop :=
  0 < a.length ∧ ∀ r ∈ a, r.other < a.length ∧ ∀ c ∈ r.cases, c.2 < a.length

end Verif.Spec.Automaton
