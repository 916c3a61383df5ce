import Verif.Spec.Listing
import Verif.Spec.MosUses

/-!
# A 6502 program linked at another place

Jumps and calls of the 6502 have absolute addresses. A program is moved by moving its instructions and adding
the distance to the addresses of its jumps and calls, and to the code addresses it keeps in memory: the return
addresses on the stack, the targets of indirect jumps, the interrupt vector.
-/

namespace Verif.Spec.Mos

open Verif Verif.Mos

/-- The instruction for a program moved by `d`. -/
def patch (d : Word) : Line → Line
  | (.Jmp, .absolute w) => (.Jmp, .absolute (w + d))
  | (.Jsr, .absolute w) => (.Jsr, .absolute (w + d))
  | l => l

/-- A program: which instruction is at which address. -/
abbrev Program := Word → Option Line

/-- The bytes of the instructions of a program. -/
def CodeOf (P : Program) (a : Word) : Prop :=
  ∃ p l k, P p = some l ∧ k < size l.2 ∧ a = word (p.toNat + k)

/-- The address with its low byte at `lo` and its high byte at `hi`. -/
def addressIn (mem : Mem) (lo hi : Word) : Word := word ((mem lo).toNat + 256 * (mem hi).toNat)

/-- The second memory holds the program moved by `d`. The pairs of bytes in `S` are code addresses, in the
second memory moved by `d` as well. The memories agree outside `D`. -/
structure LinkedMem (d : Word) (P : Program) (S : Word → Word → Prop) (D : Word → Prop) (mem mem' : Mem) :
    Prop where
  code : ∀ p l, P p = some l → ∃ bs, Encodes bs (patch d l) ∧ HoldsAt mem' (p + d) bs
  address : ∀ lo hi, S lo hi → addressIn mem' lo hi = addressIn mem lo hi + d
  data : ∀ a, ¬D a → mem' a = mem a

/-- The bytes from which an instruction takes the address of the next one. -/
def jumpsBy (r : Regs) : Line → Option (Word × Word)
  | (.Jmp, .indirect w) => some (w, word (w.toNat + 1))
  | (.Rts, _) => some (stack (r.sp.toNat + 1), stack (r.sp.toNat + 2))
  | (.Rti, _) => some (stack (r.sp.toNat + 2), stack (r.sp.toNat + 3))
  | (.Brk, _) => some (0xfffe, 0xffff)
  | _ => none

/-- The bytes to which an instruction writes an address of the program. (`BRK` of the emulator pushes the low
byte first.) -/
def pushesTo (r : Regs) : Line → Option (Word × Word)
  | (.Jsr, _) => some (stack (r.sp.toNat + 255), stack r.sp.toNat)
  | (.Brk, _) => some (stack r.sp.toNat, stack (r.sp.toNat + 255))
  | _ => none

/-- An instruction a moved program may execute: it is one of the program; the data it looks at are not in `D`,
unless they are the address of the next instruction, which is to be in `S`; and it does not store into the
moved program. -/
structure Movable (d : Word) (P : Program) (S : Word → Word → Prop) (D : Word → Prop) (r : Regs) (mem : Mem)
    (i : InstructionVariant) : Prop where
  own : P r.pc = some (view i)
  reads : ∀ a, .mem a ∈ dataUses r mem i → D a → ∃ lo hi, jumpsBy r (view i) = some (lo, hi) ∧ (a = lo ∨ a = hi)
  jumps : ∀ lo hi, jumpsBy r (view i) = some (lo, hi) → S lo hi
  writes : ∀ a ∈ writable r mem (view i).1 (view i).2, ¬CodeOf P (a - d)

/-- The pairs of bytes that are code addresses after an instruction. -/
def addressesAfter (S : Word → Word → Prop) (r : Regs) (mem : Mem) (i : InstructionVariant) (lo hi : Word) :
    Prop :=
  (S lo hi ∧ lo ∉ writable r mem (view i).1 (view i).2 ∧ hi ∉ writable r mem (view i).1 (view i).2) ∨
  pushesTo r (view i) = some (lo, hi)

/-- The bytes that may differ after an instruction. -/
def differAfter (D : Word → Prop) (r : Regs) (mem : Mem) (i : InstructionVariant) (a : Word) : Prop :=
  (D a ∧ a ∉ writable r mem (view i).1 (view i).2) ∨
  ∃ lo hi, pushesTo r (view i) = some (lo, hi) ∧ (a = lo ∨ a = hi)

/-- An execution of movable instructions. At its end `S'` are code addresses and `D'` may differ. (In between,
pairs of bytes may be left out of `S` and bytes added to `D`.) -/
inductive Moves {B : Type} [Addressable B] (b : Build) (I : B → Mem → Prop) (d : Word) (P : Program) :
    (Word → Word → Prop) → (Word → Prop) → Mos6502 B → List InstructionVariant → Mos6502 B →
    (Word → Word → Prop) → (Word → Prop) → Prop
  | nil {S D} (c : Mos6502 B) : Moves b I d P S D c [] c S D
  | cons {S S₁ S' : Word → Word → Prop} {D D₁ D' : Word → Prop} {c c' c'' : Mos6502 B} {mem : Mem}
      {i : InstructionVariant} {l : List InstructionVariant} : Step b c i c' → I c.address_map mem →
      Movable d P S D (regs c) mem i → FetchOk b (c.pc + d) →
      (∀ lo hi, S₁ lo hi → addressesAfter S (regs c) mem i lo hi) →
      (∀ a, differAfter D (regs c) mem i a → D₁ a) →
      Moves b I d P S₁ D₁ c' l c'' S' D' → Moves b I d P S D c (i :: l) c'' S' D'

end Verif.Spec.Mos
