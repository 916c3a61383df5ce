import Verif.Spec.LiveChip8
import Verif.Spec.LivePanic

/-!
# The calls of a CHIP-8 that panics
-/

namespace Verif.Spec.Live

open Verif Verif.Live Verif.Chip8 Verif.Spec.Chip8

variable {R : Type}

/-- The first reads of an instruction: one or both of its bytes, or both and the first of the bytes at I it
asks for. -/
def FirstOpcodeReads (c : Chip8 Unit R) (reads : List (Word × Byte)) : Prop :=
  (reads ≠ [] ∧ reads.map Prod.fst <+: [c.pc, BitVec.ofNat 16 (c.pc.toNat + 1)]) ∨
  ∃ op b0 b1 rs, Valid op ∧ encode op = b0.toNat * 256 + b1.toNat ∧
    rs.map Prod.fst <+: cellsFrom c.i (readCount op) ∧
    reads = (c.pc, b0) :: (BitVec.ofNat 16 (c.pc.toNat + 1), b1) :: rs

/-- An instruction that panics, on the bus `who`: without a store, as it does on every memory that holds the
bytes it has read; or the bus refuses one of its stores at I. -/
def OpcodePanicked (b : Build) (e : Env) (who : Copy) (c : Chip8 Unit R) (l : List Call) (p : Panic) : Prop :=
  ∃ reads, (FirstOpcodeReads c reads ∧ l = readCalls who reads ∧
      ∀ (B : Type) [Addressable B] (bus : B), (∀ q ∈ reads, Addressable.read b bus q.1 = .ok q.2) →
        next b e (onBus c bus) = .error p) ∨
    ∃ op b0 b1 ws l', Valid op ∧ encode op = b0.toNat * 256 + b1.toNat ∧
      reads = [(c.pc, b0), (BitVec.ofNat 16 (c.pc.toNat + 1), b1)] ∧
      ws.map Prod.fst = cellsFrom c.i (storeCount op) ∧
      (∀ (B : Type) [Addressable B] (bus : B),
        generate b e (onBus c bus) op = .ok (ws.map fun w => .WriteMemory w.1 w.2)) ∧
      Refused who ws l' p ∧ l = readCalls who reads ++ l'

/-- `run` for `n` instructions, the first being number `k`, makes the calls `l` and panics: after some
instructions (as in `RanOpcodes`) the next one panics on the clone, or the bus of the machine refuses a store
that the clone has accepted. -/
inductive RanIntoOpcode (b : Build) (env : Nat → Env) :
    Nat → Nat → Chip8 Unit R → Chip8 Unit R → List Call → Panic → Prop
  | clone {n k : Nat} {it c : Chip8 Unit R} {l : List Call} {p : Panic} :
      OpcodePanicked b (env k) .iterator it l p → RanIntoOpcode b env (n + 1) k it c l p
  | own {n k : Nat} {it it' c : Chip8 Unit R} {reads : List (Word × Byte)} {mcs : List Microcode}
      {vs : List Byte} {l : List Call} {p : Panic} :
      OneOpcode b (env k) it reads mcs it' → vs.length = (byteStores mcs).length →
      Refused .own (byteStores mcs) l p →
      RanIntoOpcode b env (n + 1) k it c (readCalls .iterator reads ++
        (putCalls .iterator (byteStores mcs) vs ++ l)) p
  | step {n k : Nat} {it it' c c' : Chip8 Unit R} {reads : List (Word × Byte)} {mcs : List Microcode}
      {vs vs' : List Byte} {l : List Call} {p : Panic} :
      OneOpcode b (env k) it reads mcs it' → Folds b (env k).foldAt c mcs c' →
      vs.length = (byteStores mcs).length → vs'.length = (byteStores mcs).length →
      RanIntoOpcode b env n (k + 1) it' c' l p →
      RanIntoOpcode b env (n + 1) k it c (readCalls .iterator reads ++ (putCalls .iterator (byteStores mcs) vs ++
        (putCalls .own (byteStores mcs) vs' ++ l))) p

end Verif.Spec.Live
