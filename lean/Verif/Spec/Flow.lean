import Verif.Spec.Structured

/-!
# Structured programs with arrays

`Flow` is the structured programs of `Spec/Structured` over any actions and conditions. With the
actions here they have byte variables and arrays of 256 bytes. Nothing here refers to either CPU.
`C134` compiles these programs for the two machines.
-/

namespace Verif.Spec.Flow

open Verif.Spec.Structured (Act Guard put)

/-- Programs over the actions `A` and the conditions `G`. -/
inductive Flow (A G : Type)
  | skip
  | act (a : A)
  | seq (c d : Flow A G)
  | ite (g : G) (c d : Flow A G)
  | loop (g : G) (c : Flow A G)

/-- What actions do and when conditions hold. -/
structure Meaning (A G S : Type) where
  eval : A → S → S
  holds : G → S → Prop

/-- What the parts of a program cost, in instructions; a jump costs one. -/
structure Costs (A G : Type) where
  act : A → Nat
  test : G → Nat

/-- From the state `s` the program ends in the state `s'`, after `n` instructions. A conditional
tests, and jumps once: past the other branch, or to it. A loop tests; it jumps back after the body
and out at the end. -/
inductive Exec {A G S : Type} (M : Meaning A G S) (k : Costs A G) : Flow A G → S → Nat → S → Prop
  | skip {s} : Exec M k .skip s 0 s
  | act {a s} : Exec M k (.act a) s (k.act a) (M.eval a s)
  | seq {c d s s' s'' n m} (h : Exec M k c s n s') (h' : Exec M k d s' m s'') :
      Exec M k (.seq c d) s (n + m) s''
  | iteTrue {g c d s s' n} (hg : M.holds g s) (h : Exec M k c s n s') :
      Exec M k (.ite g c d) s (k.test g + n + 1) s'
  | iteFalse {g c d s s' n} (hg : ¬ M.holds g s) (h : Exec M k d s n s') :
      Exec M k (.ite g c d) s (k.test g + 1 + n) s'
  | loopTrue {g c s s' s'' n m} (hg : M.holds g s) (h : Exec M k c s n s')
      (h' : Exec M k (.loop g c) s' m s'') : Exec M k (.loop g c) s (k.test g + n + 1 + m) s''
  | loopFalse {g c s} (hg : ¬ M.holds g s) : Exec M k (.loop g c) s (k.test g + 1) s

/-- The program ends when started in the state `s`. -/
def Ends {A G S : Type} (M : Meaning A G S) (k : Costs A G) (c : Flow A G) (s : S) : Prop :=
  ∃ n s', Exec M k c s n s'

/-- A target machine: the words for an action, for a test that skips the jump behind it when the
condition holds, and for a jump; the bytes per word and per jump. -/
structure Target (A G W : Type) where
  width : Nat
  act : A → List W
  test : G → List W
  jump : Nat → List W
  jumpSize : Nat

section
variable {A G W : Type}

/-- The length of a list of words, in bytes. -/
def Target.bytes (T : Target A G W) (ws : List W) : Nat := T.width * ws.length

/-- The length of the code of a program, in bytes. -/
def Target.size (T : Target A G W) : Flow A G → Nat
  | .skip => 0
  | .act a => T.bytes (T.act a)
  | .seq c d => T.size c + T.size d
  | .ite g c d => T.bytes (T.test g) + T.jumpSize + T.size c + T.jumpSize + T.size d
  | .loop g c => T.bytes (T.test g) + T.jumpSize + T.size c + T.jumpSize

/-- The code of a program that is to lie at the address `p`: a conditional is `test; jump else; c;
jump end; else: d; end:`, a loop is `start: test; jump end; c; jump start; end:`. -/
def Target.compile (T : Target A G W) (p : Nat) : Flow A G → List W
  | .skip => []
  | .act a => T.act a
  | .seq c d => T.compile p c ++ T.compile (p + T.size c) d
  | .ite g c d =>
    let body := p + T.bytes (T.test g) + T.jumpSize
    let other := body + T.size c + T.jumpSize
    T.test g ++ (T.jump other ++ (T.compile body c ++ (T.jump (other + T.size d) ++ T.compile other d)))
  | .loop g c =>
    let body := p + T.bytes (T.test g) + T.jumpSize
    T.test g ++ (T.jump (body + T.size c + T.jumpSize) ++ (T.compile body c ++ T.jump p))

end

/-! ### Variables and arrays -/

/-- The values of the variables and the contents of the arrays. -/
structure State (ι κ : Type) where
  var : ι → BitVec 8
  arr : κ → BitVec 8 → BitVec 8

/-- An assignment between variables, `x := t[i]`, or `t[i] := x`. -/
inductive Action (ι κ : Type)
  | base (a : Act ι)
  | read (x : ι) (t : κ) (i : ι)
  | write (t : κ) (i x : ι)

section
variable {ι κ : Type} [DecidableEq ι] [DecidableEq κ]

/-- What an action does. -/
def Action.eval : Action ι κ → State ι κ → State ι κ
  | .base a, s => { s with var := a.eval s.var }
  | .read x t i, s => { s with var := put s.var x (s.arr t (s.var i)) }
  | .write t i x, s =>
    { s with arr := fun t' j => if t' = t ∧ j = s.var i then s.var x else s.arr t' j }

/-- The meaning of programs with arrays. -/
def arrays (ι κ : Type) [DecidableEq ι] [DecidableEq κ] : Meaning (Action ι κ) (Guard ι) (State ι κ) where
  eval := Action.eval
  holds g s := g.Holds s.var

end

/-- A program with variables `ι` and arrays `κ`. -/
abbrev Program (ι κ : Type) : Type := Flow (Action ι κ) (Guard ι)

/-- Where the arrays lie: each has 256 bytes below `top`, and no two share an address. -/
structure Placed {κ : Type} (base : κ → Nat) (bottom top : Nat) : Prop where
  bottom : ∀ t, bottom ≤ base t
  top : ∀ t, base t + 256 ≤ top
  apart : ∀ t u, t ≠ u → base t + 256 ≤ base u ∨ base u + 256 ≤ base t

/-- The address `a` is in one of the arrays. -/
def InArray {κ : Type} (base : κ → Nat) (a : Nat) : Prop := ∃ t, base t ≤ a ∧ a < base t + 256

end Verif.Spec.Flow
