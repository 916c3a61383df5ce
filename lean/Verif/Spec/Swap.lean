import Verif.Spec.MosUses
import Verif.Spec.MosExec

/-!
# Exchanging a piece of a program

A piece of code occupies some addresses. Two pieces do the same work if, entered at the same place in states
that differ in nothing but the piece, both are left again, in states that differ in nothing but the piece.
-/

namespace Verif.Spec.Mos

open Verif Verif.Mos

/-- The bytes of the piece, as parts of the state. -/
def inPiece (R : Word → Prop) (q : Part) : Prop := ∃ a, R a ∧ q = .mem a

/-- The piece in memory. -/
def HoldsPiece (R : Word → Prop) (code mem : Mem) : Prop := ∀ a, R a → mem a = code a

/-- Entered at `p`, both pieces are executed up to an instruction outside, without a panic, with the same
result, and are still there. -/
def SameWork {B B' : Type} [Addressable B] [Addressable B'] (b : Build) (I : B → Mem → Prop)
    (I' : B' → Mem → Prop) (R : Word → Prop) (code code' : Mem) (p : Word) : Prop :=
  ∀ (c : Mos6502 B) (e : Mos6502 B') (mem mem' : Mem), I c.address_map mem → I' e.address_map mem' → c.pc = p →
    Agree (inPiece R) (regs c) (regs e) mem mem' → HoldsPiece R code mem → HoldsPiece R code' mem' →
    ∃ tr c1 tr' e1 m m', Executes b c tr c1 ∧ Executes b e tr' e1 ∧ (∀ x ∈ tr, R x.1.pc) ∧
      (∀ x ∈ tr', R x.1.pc) ∧ ¬R c1.pc ∧ I c1.address_map m ∧ I' e1.address_map m' ∧
      Agree (inPiece R) (regs c1) (regs e1) m m' ∧ HoldsPiece R code m ∧ HoldsPiece R code' m'

/-- What the other instructions of an execution may do: look at nothing in the piece, store nothing into it,
store only where `W` allows, and go to the piece at `p` only. -/
def Respects {B : Type} [Addressable B] (b : Build) (I : B → Mem → Prop) (W R : Word → Prop) (p : Word)
    (tr : List (Mos6502 B × InstructionVariant)) : Prop :=
  ∀ x ∈ tr, ¬R x.1.pc → ∀ m, I x.1.address_map m →
    (∀ q ∈ uses (regs x.1) m x.2, ¬inPiece R q) ∧
    (∀ a ∈ writable (regs x.1) m (view x.2).1 (view x.2).2, ¬R a ∧ W a) ∧
    ∀ c', Step b x.1 x.2 c' → R c'.pc → c'.pc = p

/-- The instructions executed outside the piece. -/
def outsidePiece {B : Type} (R : Word → Prop) [DecidablePred R] (tr : List (Mos6502 B × InstructionVariant)) :
    List InstructionVariant :=
  (tr.filter fun x => !decide (R x.1.pc)).map Prod.snd

/-- The `n` addresses from `p` on (addresses count modulo 65536). -/
def span (p : Word) (n : Nat) (a : Word) : Prop := (a - p).toNat < n

instance (p : Word) (n : Nat) : DecidablePred (span p n) := fun a => inferInstanceAs (Decidable ((a - p).toNat < n))

end Verif.Spec.Mos
