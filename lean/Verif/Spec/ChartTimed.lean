import Verif.Spec.Chart
import Verif.Spec.FlowTimed
import Verif.Spec.CopyText
import Verif.Spec.SortTimed

/-!
# The running time of flow charts

Nothing here refers to a CPU. `C147` gives the times for the 6502.
-/

namespace Verif.Spec.Flow

section
variable {A G S W M : Type} [Zero M] [Add M]

/-- The time of a list of actions. -/
def Times.acts (k : Times A G S M) (D : Meaning A G S) : List A → S → M
  | [], _ => 0
  | a :: as, s => k.act a s + k.acts D as (D.eval a s)

/-- An exit whose code lies at `q` leads to the block `l` in the time `n`. -/
inductive ExitTakes (D : Meaning A G S) (k : Times A G S M) (q : Nat) : Exit G → S → M → Nat → Prop
  | goto {l s} : ExitTakes D k q (.goto l) s k.jump l
  | yes {g l l' s} (h : D.holds g s) : ExitTakes D k q (.branch g l l') s (k.testTrue q g + k.jump) l
  | no {g l l' s} (h : ¬ D.holds g s) : ExitTakes D k q (.branch g l l') s (k.testFalse q g + k.jump) l'

/-- The chart whose code lies at `p` gets from the block `l` with the state `s` to the block `l'` with the
state `s'` in the time `n`. -/
inductive ChartTakes (D : Meaning A G S) (T : Target A G W) (k : Times A G S M) (p : Nat) (ch : Chart A G) :
    Nat → S → M → Nat → S → Prop
  | here {l s} : ChartTakes D T k p ch l s 0 l s
  | block {l s b e l' n l'' s''} (hb : ch[l]? = some b)
      (hg : ExitTakes D k (T.entry p ch l + T.bytes (b.acts.flatMap T.act)) b.exit (D.after b.acts s) e l')
      (h : ChartTakes D T k p ch l' (D.after b.acts s) n l'' s'') :
      ChartTakes D T k p ch l s (k.acts D b.acts s + e + n) l'' s''

end

end Verif.Spec.Flow

namespace Verif.Spec.CopyText

open Verif.Spec.Sort (total indexPenalty branchPenalty)

/-- The cycles the text copy at `p` takes for a text with its zero at `z` in the array at `src`: 40 and for
each byte before the zero 51, one more for each byte read from the next page, and one if the last branch
goes to another page. -/
def copyCycles (p src z : Nat) : Nat :=
  40 + 51 * z + total (indexPenalty src) (z + 1) + branchPenalty (p + 40)

/-- The cycles without a zero. -/
def copyAllCycles (p src : Nat) : Nat := 9 + 51 * 256 + total (indexPenalty src) 256 + branchPenalty (p + 14)

end Verif.Spec.CopyText
