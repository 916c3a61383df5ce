import Verif.Spec.LiveBus

/-!
# The calls of a computation that panics
-/

namespace Verif.Spec.Live

open Verif Verif.Live Verif.Mos Verif.Spec.Mos

/-- The first reads of an instruction: one or more of the three at `pc`, or all three, which are the
instruction `i`, and then the first of the reads `i` asks for. -/
def FirstReads (r : Regs) (reads : List (Word × Byte)) : Prop :=
  (reads ≠ [] ∧ reads.map Prod.fst <+: [r.pc, word (r.pc.toNat + 1), word (r.pc.toNat + 2)]) ∨
  ∃ i b0 b1 b2 rs, Isa.parseInstruction b0 b1 b2 = some i ∧
    (∀ k (h : k < rs.length), nextRead r (view i).1 (view i).2 ((rs.take k).map Prod.snd) = some rs[k].1) ∧
    reads = (r.pc, b0) :: (word (r.pc.toNat + 1), b1) :: (word (r.pc.toNat + 2), b2) :: rs

/-- The operations of the instruction `i` are `ops` on every bus that holds the bytes it read for itself. -/
def GeneratedFrom (b : Build) (r : Regs) (i : InstructionVariant) (reads : List (Word × Byte))
    (ops : Operations) : Prop :=
  ∀ (B : Type) [Addressable B] (bus : B), (∀ p ∈ reads.drop 3, Addressable.read b bus p.1 = .ok p.2) →
    i.generate b (withRegs r bus) = .ok ops

/-- `Refused who ws l p`: the calls `l` are stores of `ws`, in order, up to one that is refused; the panic is
the refusal. -/
def Refused (who : Copy) (ws : List (Word × Byte)) (l : List Call) (p : Panic) : Prop :=
  ∃ before a v rest answers e, ws = before ++ (a, v) :: rest ∧ answers.length = before.length ∧
    l = putCalls who before answers ++ [.write who a v (.error e)] ∧ p = .unwrapErr e

/-- An instruction that panics, from the registers `r`: it stops while reading, as it does on every memory
that holds the bytes it has read, or the bus refuses one of its stores. -/
def Panicked (b : Build) (who : Copy) (r : Regs) (l : List Call) (p : Panic) : Prop :=
  ∃ reads, (FirstReads r reads ∧ l = readCalls who reads ∧
      ∀ (B : Type) [Addressable B] (bus : B), (∀ q ∈ reads, Addressable.read b bus q.1 = .ok q.2) →
        next b (withRegs r bus) = .error p) ∨
    ∃ i ops l', InstructionReads r i reads ∧ GeneratedFrom b r i reads ops ∧
      Refused who (storesOf ops) l' p ∧ l = readCalls who reads ++ l'

/-- `run` for `n` cycles, from the registers `r`, makes the calls `l` and panics: after some whole
instructions (as in `Ran`) the next one panics on the clone, or the bus of the CPU refuses a store that the
clone has accepted. -/
inductive RanInto (b : Build) : Nat → Regs → List Call → Panic → Prop
  | clone {n : Nat} {r : Regs} {l : List Call} {p : Panic} :
      0 < n → Panicked b .iterator r l p → RanInto b n r l p
  | own {n : Nat} {r r' : Regs} {reads : List (Word × Byte)} {ops : Operations} {vs : List Byte}
      {l : List Call} {p : Panic} :
      OneInstruction b r reads ops r' → ops.cycles ≤ n → vs.length = (storesOf ops).length →
      Refused .own (storesOf ops) l p →
      RanInto b n r (readCalls .iterator reads ++ (putCalls .iterator (storesOf ops) vs ++ l)) p
  | whole {n : Nat} {r r' : Regs} {reads : List (Word × Byte)} {ops : Operations}
      {vs vs' : List Byte} {l : List Call} {p : Panic} :
      OneInstruction b r reads ops r' → ops.cycles ≤ n →
      vs.length = (storesOf ops).length → vs'.length = (storesOf ops).length →
      RanInto b (n - ops.cycles) r' l p →
      RanInto b n r (readCalls .iterator reads ++ (putCalls .iterator (storesOf ops) vs ++
        (putCalls .own (storesOf ops) vs' ++ l))) p

end Verif.Spec.Live
