import Verif.Spec.Chart

/-!
# Copying a text

A chart, in the language of `Spec/Chart`, that copies a text with a zero at its end from one array to another.
Its loop is entered in the middle and left at two places. Nothing here refers to either CPU. `C146` runs it
on both.
-/

namespace Verif.Spec.CopyText

open Verif.Spec.Flow Verif.Spec.Structured

/-- The variables of the chart. -/
inductive Var
  | i | v
  deriving DecidableEq

/-- Its arrays. -/
inductive Arr
  | src | dst
  deriving DecidableEq

/-- Block 0: `i := 0; goto 2`. Block 1: `i := i + 1; if i = 0 goto 3 else goto 2`. Block 2:
`v := src[i]; dst[i] := v; if v = 0 goto 3 else goto 1`. There is no block 3. -/
def copyText : Chart (Action Var Arr) (Guard Var) :=
  [⟨[.base (.set .i 0)], .goto 2⟩,
   ⟨[.base (.add .i 1)], .branch (.eqK .i 0) 3 2⟩,
   ⟨[.read .v .src .i, .write .dst .i .v], .branch (.eqK .v 0) 3 1⟩]

/-- The array `dst` has the bytes of `src` up to the first zero, and from there on those of `dst₀`; if there
is no zero, it has all the bytes of `src`. -/
structure Copied (src dst₀ dst : BitVec 8 → BitVec 8) : Prop where
  text : ∀ j, (∀ i : BitVec 8, i.toNat < j.toNat → src i ≠ 0) → dst j = src j
  rest : ∀ i j : BitVec 8, i.toNat < j.toNat → src i = 0 → dst j = dst₀ j

/-- The text ends at `z`: there is the first zero. -/
def EndsAt (src : BitVec 8 → BitVec 8) (z : BitVec 8) : Prop :=
  src z = 0 ∧ ∀ i : BitVec 8, i.toNat < z.toNat → src i ≠ 0

end Verif.Spec.CopyText
