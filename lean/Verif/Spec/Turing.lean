import Verif.Spec.CopyText

/-!
# Turing machines on a ring of 256 cells

Turing machines whose symbols are bytes, on a tape of 256 cells that is closed to a ring, and a chart that runs
one. Nothing here refers to either CPU. `C150` runs them on both.
-/

namespace Verif.Spec.Turing

open Verif.Spec.Flow Verif.Spec.Structured
open Verif.Spec.CopyText (Var)

/-- Where the head goes. -/
inductive Move
  | left | stay | right
  deriving DecidableEq

/-- The head after a move. -/
def Move.head : Move → BitVec 8 → BitVec 8
  | .left, h => h - 1
  | .stay, h => h
  | .right, h => h + 1

/-- On the symbol `seen`: write, move, and change the state. -/
structure Rule where
  seen : BitVec 8
  written : BitVec 8
  move : Move
  next : Nat

/-- The rules of each state. -/
abbrev Machine : Type := List (List Rule)

/-- State, place of the head, and tape. -/
structure Config where
  state : Nat
  head : BitVec 8
  tape : BitVec 8 → BitVec 8

/-- One step by a rule. -/
def Rule.apply (r : Rule) (c : Config) : Config :=
  ⟨r.next, r.move.head c.head, fun j => if j = c.head then r.written else c.tape j⟩

/-- One step: by the first rule of the state for the symbol under the head. Without one, or in a state that
there is not, the machine has halted. -/
def Machine.step (m : Machine) (c : Config) : Option Config :=
  match m[c.state]? with
  | none => none
  | some rs => (rs.find? fun r => decide (r.seen = c.tape c.head)).map fun r => r.apply c

/-- `k` steps lead from `c` to `c'`. -/
inductive Machine.Steps (m : Machine) : Nat → Config → Config → Prop
  | here {c} : Steps m 0 c c
  | step {k c c' c''} (h : m.step c = some c') (hs : Steps m k c' c'') : Steps m (k + 1) c c''

/-- Started in `c` the machine halts. -/
def Machine.Halts (m : Machine) (c : Config) : Prop := ∃ k c', m.Steps k c c' ∧ m.step c' = none

/-! ### The chart -/

/-- The blocks of a state: one that reads, two for each rule, one that ends. -/
def rowLength (rs : List Rule) : Nat := 2 * rs.length + 2

/-- The number of the first block of the state `q`, or the number of all blocks. -/
def rowAt (m : Machine) (q : Nat) : Nat := ((m.take q).map rowLength).sum

/-- What to add to the head. -/
def Move.shift : Move → BitVec 8
  | .left => 255
  | .stay => 0
  | .right => 1

/-- The blocks from `k` on for the rules: `if v = seen goto k + 1 else goto k + 2`, then
`v := written; tape[i] := v; i := i + shift; goto next`. -/
def ruleBlocks (t : Nat → Nat) (out : Nat) : Nat → List Rule → Chart (Action Var Unit) (Guard Var)
  | _, [] => [⟨[], .goto out⟩]
  | k, r :: rs =>
    ⟨[], .branch (.eqK .v r.seen) (k + 1) (k + 2)⟩ ::
      ⟨[.base (.set .v r.written), .write () .i .v, .base (.add .i r.move.shift)], .goto (t r.next)⟩ ::
      ruleBlocks t out (k + 2) rs

/-- The blocks of a state, from `k` on. The first is `v := tape[i]`. -/
def rowBlocks (t : Nat → Nat) (out k : Nat) (rs : List Rule) : Chart (Action Var Unit) (Guard Var) :=
  ⟨[.read .v () .i], .goto (k + 1)⟩ :: ruleBlocks t out (k + 1) rs

/-- The blocks of all states. -/
def rowsBlocks (t : Nat → Nat) (out : Nat) : Nat → Machine → Chart (Action Var Unit) (Guard Var)
  | _, [] => []
  | k, rs :: m => rowBlocks t out k rs ++ rowsBlocks t out (k + rowLength rs) m

/-- The chart that runs the machine from its state 0, with the head in `i`. -/
def Machine.chart (m : Machine) : Chart (Action Var Unit) (Guard Var) :=
  rowsBlocks (rowAt m) (rowAt m m.length) 0 m

end Verif.Spec.Turing
