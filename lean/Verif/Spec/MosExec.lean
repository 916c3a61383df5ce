import Verif.Spec.MosRun
import Verif.Spec.MosStack

/-!
# Executions with the states they pass through
-/

namespace Verif.Spec.Mos

open Verif Verif.Mos

/-- `Executes b c tr c'`: from `c` to `c'` the machine executes the instructions in `tr`, each given
with the state before it. -/
inductive Executes {B : Type} [Addressable B] (b : Build) :
    Mos6502 B → List (Mos6502 B × InstructionVariant) → Mos6502 B → Prop
  | nil (c : Mos6502 B) : Executes b c [] c
  | cons {c c' c'' : Mos6502 B} {i : InstructionVariant}
      {tr : List (Mos6502 B × InstructionVariant)} :
      Step b c i c' → Executes b c' tr c'' → Executes b c ((c, i) :: tr) c''

end Verif.Spec.Mos
