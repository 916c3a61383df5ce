import Verif.Spec.MosRun

/-!
# What a program stores
-/

namespace Verif.Spec.Mos

open Verif Verif.Mos

/-- The stores in a list of microcode: address and byte, in order. -/
def stores : List Microcode → List (Word × Byte)
  | [] => []
  | .WriteMemory a v :: mcs => (a, v) :: stores mcs
  | _ :: mcs => stores mcs

/-- The stores of one instruction. -/
def storesOf (ops : Operations) : List (Word × Byte) := stores (microcodeOf ops)

/-- The stores of a sequence of instructions. -/
def programStores (l : List Operations) : List (Word × Byte) := l.flatMap storesOf

/-- The stores whose address lies in a range, and the others. -/
def inside (r : AddrRange) (ws : List (Word × Byte)) : List (Word × Byte) :=
  ws.filter fun w => decide (r.start.toNat ≤ w.1.toNat ∧ w.1.toNat ≤ r.stop.toNat)

/-- The stores whose address lies outside a range. -/
def outside (r : AddrRange) (ws : List (Word × Byte)) : List (Word × Byte) :=
  ws.filter fun w => !decide (r.start.toNat ≤ w.1.toNat ∧ w.1.toNat ≤ r.stop.toNat)

/-- What a device that answers stores with a new state becomes. -/
def told {V : Type} (hook : V → Word → Byte → V) (v : V) (ws : List (Word × Byte)) : V :=
  ws.foldl (fun v w => hook v w.1 w.2) v

/-- The stores of a sequence of instructions, those of each instruction made twice in a row. -/
def twice (l : List Operations) : List (Word × Byte) := l.flatMap fun o => storesOf o ++ storesOf o

end Verif.Spec.Mos
