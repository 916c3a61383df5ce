import Verif.Spec.MosProgram

/-!
# Specification of a program that prints a text ended by a zero

The branch is written for the emulator, whose taken branches count from the branch itself and not from
the instruction after it (C26).
-/

namespace Verif.Spec.Mos

open Verif Verif.Mos

/-- `p: LDX #0; q: LDA t,X; BEQ end; STA port; INX; JMP q; end:`, at address `p`. -/
def printer (p t port : Nat) : List Byte :=
  [0xa2, 0x00] ++ (op16 0xbd t ++ ([0xf0, 0x09] ++ (op16 0x8d port ++ ([0xe8] ++ op16 0x4c (p + 2)))))

/-- Cycles of printing the first `n` bytes of a text at `t`: fifteen for each, and one more if the byte
lies in another page than the first. -/
def printingCycles (t : Nat) : Nat → Nat
  | 0 => 0
  | n + 1 => printingCycles t n + 15 + crosses t (word (t + n % 256)).toNat

/-- Cycles of the whole program for a text of `n` bytes: the first instruction, the bytes, and at the
zero a load and a taken branch, each with its page. -/
def printerCycles (p t n : Nat) : Nat :=
  2 + printingCycles t n + (7 + crosses t (word (t + n)).toNat + crosses (p + 14) (p + 5))

end Verif.Spec.Mos
