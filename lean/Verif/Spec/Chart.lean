import Verif.Spec.Flow

/-!
# Flow charts

Programs with gotos: numbered blocks of actions, each of which ends by going to a block. Unlike the programs
of `Spec/Flow` their loops may be entered and left anywhere. Nothing here refers to either CPU. `C145`
assembles these programs for the two machines.
-/

namespace Verif.Spec.Flow

/-- How a block ends: with a jump, or with a jump to one of two blocks depending on a condition. -/
inductive Exit (G : Type)
  | goto (l : Nat)
  | branch (g : G) (yes no : Nat)

/-- Actions, and where to go then. -/
structure Block (A G : Type) where
  acts : List A
  exit : Exit G

/-- A flow chart. It starts with the block 0, and ends when it goes to a block that there is not. -/
abbrev Chart (A G : Type) : Type := List (Block A G)

section
variable {A G S W : Type}

/-- In the state `s` the exit leads to the block `l`. -/
inductive Goes (M : Meaning A G S) : Exit G → S → Nat → Prop
  | goto {l s} : Goes M (.goto l) s l
  | yes {g l l' s} (h : M.holds g s) : Goes M (.branch g l l') s l
  | no {g l l' s} (h : ¬ M.holds g s) : Goes M (.branch g l l') s l'

/-- The instructions of an exit: a test and a jump, or a jump. -/
def Costs.exit (k : Costs A G) : Exit G → Nat
  | .goto _ => 1
  | .branch g _ _ => k.test g + 1

/-- The instructions of a block. -/
def Costs.block (k : Costs A G) (b : Block A G) : Nat := (b.acts.map k.act).sum + k.exit b.exit

/-- The state after a list of actions. -/
def Meaning.after (M : Meaning A G S) (as : List A) (s : S) : S := as.foldl (fun s a => M.eval a s) s

/-- From the block `l` with the state `s` the chart gets to the block `l'` with the state `s'`, by `n`
instructions. -/
inductive Follows (M : Meaning A G S) (k : Costs A G) (ch : Chart A G) : Nat → S → Nat → Nat → S → Prop
  | here {l s} : Follows M k ch l s 0 l s
  | block {l s b l' n l'' s''} (hb : ch[l]? = some b) (hg : Goes M b.exit (M.after b.acts s) l')
      (h : Follows M k ch l' (M.after b.acts s) n l'' s'') : Follows M k ch l s (k.block b + n) l'' s''

/-- The chart ends when started in the state `s`. -/
def ChartEnds (M : Meaning A G S) (k : Costs A G) (ch : Chart A G) (s : S) : Prop :=
  ∃ n l s', Follows M k ch 0 s n l s' ∧ ch.length ≤ l

/-- The length of the code of a block, in bytes. -/
def Target.blockSize (T : Target A G W) (b : Block A G) : Nat :=
  T.bytes (b.acts.flatMap T.act) + match b.exit with
    | .goto _ => T.jumpSize
    | .branch g _ _ => T.bytes (T.test g) + T.jumpSize + T.jumpSize

/-- The length of the code of a chart, in bytes. -/
def Target.chartSize (T : Target A G W) (ch : Chart A G) : Nat := (ch.map T.blockSize).sum

/-- Where the block `l` of a chart at `p` begins; a block that there is not, behind the code. -/
def Target.entry (T : Target A G W) (p : Nat) (ch : Chart A G) (l : Nat) : Nat := p + T.chartSize (ch.take l)

/-- The code of a block, given where the blocks begin. -/
def Target.blockCode (T : Target A G W) (entry : Nat → Nat) (b : Block A G) : List W :=
  b.acts.flatMap T.act ++ match b.exit with
    | .goto l => T.jump (entry l)
    | .branch g yes no => T.test g ++ (T.jump (entry no) ++ T.jump (entry yes))

/-- The code of a chart that is to lie at `p`: one block after the other. -/
def Target.assemble (T : Target A G W) (p : Nat) (ch : Chart A G) : List W :=
  ch.flatMap (T.blockCode (T.entry p ch))

end

end Verif.Spec.Flow
