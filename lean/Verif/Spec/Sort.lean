import Verif.Spec.Flow

/-!
# Counting sort

A program with arrays, in the language of `Spec/Flow`, that sorts the first `n` bytes of an array in
place. Nothing here refers to either CPU. `C135` runs it on both.
-/

namespace Verif.Spec.Sort

open Verif.Spec.Flow Verif.Spec.Structured

/-- The variables of the program. -/
inductive Var
  | i | v | c | n | z
  deriving DecidableEq

/-- Its arrays. -/
inductive Arr
  | data | count
  deriving DecidableEq

/-- Actions one after the other. -/
def block {A G : Type} : List A → Flow A G
  | [] => .skip
  | a :: as => .seq (.act a) (block as)

/-- `count[u] := 0` for all `u`. -/
def clear : Program Var Arr :=
  .seq (block [.base (.set .z 0), .base (.set .v 0), .write .count .v .z, .base (.add .v 1)])
    (.loop (.neK .v 0) (block [.write .count .v .z, .base (.add .v 1)]))

/-- `for i in 0..n { count[data[i]] += 1 }` -/
def tally : Program Var Arr :=
  .seq (block [.base (.set .i 0)])
    (.loop (.ne .i .n) (block [.read .v .data .i, .read .c .count .v, .base (.add .c 1), .write .count .v .c,
      .base (.add .i 1)]))

/-- Writes each value as often as it was counted: `i := 0; v := 0; while i ≠ n { c := count[v];
while c ≠ 0 { data[i] := v; i += 1; c -= 1 }; v += 1 }`. -/
def emit : Program Var Arr :=
  .seq (block [.base (.set .i 0), .base (.set .v 0)])
    (.loop (.ne .i .n) (.seq (block [.read .c .count .v])
      (.seq (.loop (.neK .c 0) (block [.write .data .i .v, .base (.add .i 1), .base (.add .c 255)]))
        (block [.base (.add .v 1)]))))

/-- The sort. -/
def sort : Program Var Arr := .seq clear (.seq tally emit)

/-- The first `k` bytes of an array. -/
def first (a : BitVec 8 → BitVec 8) (k : Nat) : List (BitVec 8) := (List.range k).map fun j => a (BitVec.ofNat 8 j)

/-- The first `k` bytes of `a` are those of `a₀` in ascending order, each as often as there; the rest is
as in `a₀`. -/
structure Sorted (k : Nat) (a₀ a : BitVec 8 → BitVec 8) : Prop where
  perm : (first a k).Perm (first a₀ k)
  ascending : (first a k).Pairwise (·.toNat ≤ ·.toNat)
  rest : ∀ j : BitVec 8, k ≤ j.toNat → a j = a₀ j

end Verif.Spec.Sort
