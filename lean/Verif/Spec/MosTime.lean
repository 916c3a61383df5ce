import Verif.Spec.MosStack

/-!
# Executions of the 6502 with the time they take, and what an observer of addresses sees of them
-/

namespace Verif.Spec.Mos

open Verif Verif.Mos

/-- The byte a bus shows at an address. (0 if the read panics.) -/
def shown {B : Type} [Addressable B] (b : Build) (bus : B) : Mem :=
  fun a => match Addressable.read b bus a with
    | .ok v => v
    | .error _ => 0

/-- No read of the bus panics. -/
def Readable {B : Type} [Addressable B] (b : Build) (bus : B) : Prop :=
  ∀ a, ∃ v, Addressable.read b bus a = .ok v

/-- One executed instruction: the state before it, the instruction and the cycles it took. -/
structure Moment (B : Type) where
  cpu : Mos6502 B
  instruction : InstructionVariant
  cycles : Nat

/-- `Passes b c tr c'`: from `c` to `c'` the machine executes the instructions in `tr`. -/
inductive Passes {B : Type} [Addressable B] (b : Build) : Mos6502 B → List (Moment B) → Mos6502 B → Prop
  | nil (c : Mos6502 B) : Passes b c [] c
  | cons {c c' c'' : Mos6502 B} {i : InstructionVariant} {ops : Operations} {tr : List (Moment B)} :
      At b c i → Readable b c.address_map → next b c = .ok (ops, c') → Passes b c' tr c'' →
      Passes b c (⟨c, i, ops.cycles⟩ :: tr) c''

/-- What is seen of an instruction by somebody who sees which instruction is executed where, and the
page of the byte that an instruction with an indexed address reads. -/
structure Seen where
  pc : Word
  instruction : InstructionVariant
  page : Nat
  deriving DecidableEq

/-- Is the instruction one that reads a byte at an address to which an index was added? -/
def indexedRead (i : InstructionVariant) : Bool :=
  canCross (view i).2 && !writesMem (view i).1 (view i).2

/-- What is seen of an executed instruction. -/
def Moment.seen {B : Type} [Addressable B] (b : Build) (m : Moment B) : Seen where
  pc := m.cpu.pc
  instruction := m.instruction
  page := if indexedRead m.instruction then
    (ea (regs m.cpu) (shown b m.cpu.address_map) (view m.instruction).2).toNat / 256 else 0

/-- Is the instruction a branch? -/
def isBranch (i : InstructionVariant) : Bool :=
  match (view i).2 with
  | .relative _ => true
  | _ => false

/-- The branch over nothing: taken or not, the instruction after it is executed next. (The code adds the
displacement to the address of the branch itself.) -/
def branchToNext (i : InstructionVariant) : Bool := (view i).2 == .relative 2

end Verif.Spec.Mos
