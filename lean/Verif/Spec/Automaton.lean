import Verif.Spec.CopyText

/-!
# Finite automata

Finite automata over bytes, the words they accept, and a chart that runs one. Nothing here refers to either
CPU. `C148` runs them on both.
-/

namespace Verif.Spec.Automaton

open Verif.Spec.Flow Verif.Spec.Structured
open Verif.Spec.CopyText (Var)

/-- A state: where to go with some bytes, where with all others, and whether a word may end here. -/
structure Row where
  cases : List (BitVec 8 × Nat)
  other : Nat
  accepting : Bool

/-- The first of the cases for the byte `b`. -/
def next : List (BitVec 8 × Nat) → Nat → BitVec 8 → Nat
  | [], other, _ => other
  | (c, q) :: cs, other, b => if b = c then q else next cs other b

/-- An automaton. It starts in the state 0; in a state that there is not, it accepts nothing. -/
abbrev Automaton : Type := List Row

/-- From the state `q` the automaton accepts the word. -/
def Automaton.accepts (a : Automaton) : Nat → List (BitVec 8) → Bool
  | q, [] => match a[q]? with
    | some r => r.accepting
    | none => false
  | q, b :: w => match a[q]? with
    | some r => a.accepts (next r.cases r.other b) w
    | none => false

/-- The word lies in the array from `k` on, without a zero in it and with one behind. -/
def TextAt (src : BitVec 8 → BitVec 8) : Nat → List (BitVec 8) → Prop
  | k, [] => src (BitVec.ofNat 8 k) = 0
  | k, b :: w => src (BitVec.ofNat 8 k) = b ∧ b ≠ 0 ∧ TextAt src (k + 1) w

/-! ### The chart -/

/-- The blocks of a state: one that reads, one for each case, one for all other bytes. -/
def rowLength (r : Row) : Nat := r.cases.length + 2

/-- The number of the first block of the state `q`. -/
def rowAt (a : Automaton) (q : Nat) : Nat := 3 + ((a.take q).map rowLength).sum

/-- The block to go to for the state `q`; block 2 refuses. -/
def target (a : Automaton) (q : Nat) : Nat := if q < a.length then rowAt a q else 2

/-- The blocks from `m` on that compare with the cases: `if v = b goto q else goto m + 1`. -/
def caseBlocks (t : Nat → Nat) : Nat → List (BitVec 8 × Nat) → Nat → Chart (Action Var Unit) (Guard Var)
  | _, [], other => [⟨[], .goto (t other)⟩]
  | m, (b, q) :: cs, other => ⟨[], .branch (.eqK .v b) (t q) (m + 1)⟩ :: caseBlocks t (m + 1) cs other

/-- The blocks of a state, from `m` on. The first is `v := src[i]; i := i + 1; if v = 0 goto 1 or 2`. -/
def rowBlocks (t : Nat → Nat) (m : Nat) (r : Row) : Chart (Action Var Unit) (Guard Var) :=
  ⟨[.read .v () .i, .base (.add .i 1)], .branch (.eqK .v 0) (if r.accepting then 1 else 2) (m + 1)⟩ ::
    caseBlocks t (m + 1) r.cases r.other

/-- The blocks of all states. -/
def rowsBlocks (t : Nat → Nat) : Nat → List Row → Chart (Action Var Unit) (Guard Var)
  | _, [] => []
  | m, r :: rs => rowBlocks t m r ++ rowsBlocks t (m + rowLength r) rs

/-- The chart that runs the automaton. Block 0 starts it, block 1 ends with `v = 1`, block 2 with `v = 0`. -/
def Automaton.chart (a : Automaton) : Chart (Action Var Unit) (Guard Var) :=
  ⟨[.base (.set .i 0)], .goto (target a 0)⟩ :: ⟨[.base (.set .v 1)], .goto (rowAt a a.length)⟩ ::
    ⟨[.base (.set .v 0)], .goto (rowAt a a.length)⟩ :: rowsBlocks (target a) 3 a

end Verif.Spec.Automaton
