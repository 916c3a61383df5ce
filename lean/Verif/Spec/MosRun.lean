import Verif.Spec.Mos6502

/-!
# Executions as sequences of whole instructions
-/

namespace Verif.Spec.Mos

open Verif Verif.Mos

/-- `Instructions b c l c'`: starting in `c`, the instructions that generate the operations `l`
execute one after the other and lead to `c'`. -/
inductive Instructions {B : Type} [Addressable B] (b : Build) :
    Mos6502 B → List Operations → Mos6502 B → Prop
  | nil (c : Mos6502 B) : Instructions b c [] c
  | cons {c c' c'' : Mos6502 B} {ops : Operations} {l : List Operations} :
      next b c = .ok (ops, c') → Instructions b c' l c'' → Instructions b c (ops :: l) c''

/-- Cycles of a sequence of instructions. -/
def totalCycles (l : List Operations) : Nat := (l.map Operations.cycles).sum

/-- The microcode an instruction consists of: its own, then the advance of `pc`. -/
def microcodeOf (ops : Operations) : List Microcode :=
  ops.microcode ++ [.Inc16bitRegister .Pc (word ops.offset)]

/-- A bus that accepts every write, now and ever after. -/
def AcceptsWrites {B : Type} [Addressable B] (b : Build) (P : B → Prop) : Prop :=
  ∀ bus, P bus → ∀ a v, ∃ r bus', Addressable.write b bus a v = .ok (.ok r, bus') ∧ P bus'

/-- `bus` refuses a write to `a`: with an error value (which the CPU unwraps) or a panic. -/
def RefusesWrite {B : Type} [Addressable B] (b : Build) (bus : B) (a : Word) : Prop :=
  ∃ v, ¬∃ r bus', Addressable.write b bus a v = .ok (.ok r, bus')

end Verif.Spec.Mos
