import Verif.Spec.Chip8Uses
import Verif.Spec.MosExec
import Verif.Spec.MosRef

/-!
# Listings

A listing is a list of instructions. It is assembled by writing the bytes of its instructions one after the
other. The bytes of a 6502 instruction are described by the opcode matrix (`documented`), the two bytes of a
CHIP-8 instruction by its documented encoding (`encode`).
-/

namespace Verif.Spec.Mos

open Verif Verif.Mos

/-- An instruction of a listing. -/
abbrev Line := Mnemonic × AddrMode

/-- `bs` are the bytes of the instruction. -/
def Encodes (bs : List Byte) (i : Line) : Prop :=
  bs.length = size i.2 ∧
    documented (bs[0]?.getD 0).toNat (bs[1]?.getD 0) (bs[2]?.getD 0) = some i

/-- `bs` are the bytes of the listing. -/
inductive Assembles : List Line → List Byte → Prop
  | nil : Assembles [] []
  | cons {i : Line} {is : List Line} {bs cs : List Byte} : Encodes bs i → Assembles is cs →
      Assembles (i :: is) (bs ++ cs)

/-- The bytes are in memory from `pc` on (addresses count modulo 65536). -/
def HoldsAt (mem : Mem) (pc : Word) (bs : List Byte) : Prop :=
  ∀ k v, bs[k]? = some v → mem (word (pc.toNat + k)) = v

/-- Where instruction `k` of a listing begins. -/
def offset (is : List Line) (k : Nat) : Nat := ((is.take k).map fun i => size i.2).sum

/-- Jumps, branches, calls, returns and break. -/
def transfersControl : Mnemonic → Bool
  | .Jmp | .Jsr | .Rts | .Rti | .Brk | .Bcc | .Bcs | .Beq | .Bmi | .Bne | .Bpl | .Bvc | .Bvs => true
  | _ => false

/-- No instruction of an execution of a listing of `n` bytes at `pc` stores into the instructions that
follow it. -/
def Spares {B : Type} (I : B → Mem → Prop) (pc : Word) (is : List Line) (n : Nat)
    (tr : List (Mos6502 B × InstructionVariant)) : Prop :=
  ∀ k x mem, tr[k]? = some x → I x.1.address_map mem →
    ∀ j, offset is (k + 1) ≤ j → j < n →
      word (pc.toNat + j) ∉ writable (regs x.1) mem (view x.2).1 (view x.2).2

end Verif.Spec.Mos

namespace Verif.Spec.Chip8

open Verif Verif.Chip8
open Verif.Spec.Mos (Mem)

/-- The instructions are in memory from `pc` on. -/
def Listed (mem : Mem) (pc : Word) (ops : List Opcode) : Prop :=
  ∀ k op, ops[k]? = some op → wordAt mem (pc + BitVec.ofNat 16 (2 * k)) = encode op

/-- Jumps, calls, returns and skips. -/
def transfersControl : Opcode → Bool
  | .JpNonV0Indexed _ | .JpV0Indexed _ | .Call _ | .Ret => true
  | .SeImmediate _ _ | .SneImmediate _ _ | .SeVxVy _ _ | .SneVxVy _ _ | .Skp _ | .Sknp _ => true
  | _ => false

end Verif.Spec.Chip8
