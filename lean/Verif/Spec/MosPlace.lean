import Verif.Spec.MosLink
import Verif.Spec.MosStackMove

/-!
# The same program with its variables elsewhere
-/

namespace Verif.Spec.Mos

open Verif Verif.Mos

/-- A new place `f a` for every byte: different bytes have different places, and the stack page and the interrupt
vector stay where they are. -/
structure Placement (f : Word → Word) : Prop where
  inj : ∀ a a', f a = f a' → a = a'
  stack : ∀ a, InStack a → f a = a
  vector : f 0xfffe = 0xfffe ∧ f 0xffff = 0xffff

/-- The second memory holds the program `Q`, and all the bytes of the first one but the program `P` at their
new places. -/
structure Placed (f : Word → Word) (P Q : Program) (mem mem' : Mem) : Prop where
  code : ∀ p l, Q p = some l → ∃ bs, Encodes bs l ∧ HoldsAt mem' p bs
  data : ∀ a, ¬CodeOf P a → mem' (f a) = mem a

/-- The second operand finds at the new place what the first one finds at the old place. Where a pointer is may
change, but not the place it points to. -/
def Replaced (f : Word → Word) (r : Regs) (mem : Mem) (am am' : AddrMode) : Prop :=
  match am with
  | .zeroPage z => ∃ z', am' = .zeroPage z' ∧ ea r mem (.zeroPage z') = f (ea r mem (.zeroPage z))
  | .zeroPageX z => ∃ z', am' = .zeroPageX z' ∧ ea r mem (.zeroPageX z') = f (ea r mem (.zeroPageX z))
  | .zeroPageY z => ∃ z', am' = .zeroPageY z' ∧ ea r mem (.zeroPageY z') = f (ea r mem (.zeroPageY z))
  | .absolute w => am' = .absolute (f w)
  | .absoluteX w => ∃ w', am' = .absoluteX w' ∧ ea r mem (.absoluteX w') = f (ea r mem (.absoluteX w))
  | .absoluteY w => ∃ w', am' = .absoluteY w' ∧ ea r mem (.absoluteY w') = f (ea r mem (.absoluteY w))
  | .indexedIndirect z => ∃ z', am' = .indexedIndirect z' ∧
    word ((z'.toNat + r.x.toNat) % 256) = f (word ((z.toNat + r.x.toNat) % 256)) ∧
    word ((z'.toNat + r.x.toNat + 1) % 256) = f (word ((z.toNat + r.x.toNat + 1) % 256)) ∧
    f (ea r mem (.indexedIndirect z)) = ea r mem (.indexedIndirect z)
  | .indirectIndexed z => ∃ z', am' = .indirectIndexed z' ∧
    word z'.toNat = f (word z.toNat) ∧ word ((z'.toNat + 1) % 256) = f (word ((z.toNat + 1) % 256)) ∧
    f (ea r mem (.indirectIndexed z)) = ea r mem (.indirectIndexed z)
  | .indirect w => ∃ w', am' = .indirect w' ∧
    w'.toNat ≠ 65535 ∧ w' = f w ∧ word (w'.toNat + 1) = f (word (w.toNat + 1))
  | .implied | .accumulator | .immediate _ | .relative _ => am' = am

/-- The second instruction for the first one: jumps and calls stay, data are accessed at their new places. -/
def ReplacedLine (f : Word → Word) (r : Regs) (mem : Mem) (l l' : Line) : Prop :=
  l'.1 = l.1 ∧ match l with
    | (.Jmp, .absolute w) | (.Jsr, .absolute w) => l'.2 = .absolute w
    | (_, am) => Replaced f r mem am l'.2

/-- An instruction of the program whose counterpart is `l'`. It does not look at the program as data, and its
counterpart does not store into the program. -/
structure Rewritten (f : Word → Word) (P Q : Program) (r : Regs) (mem : Mem) (i : InstructionVariant)
    (l' : Line) : Prop where
  other : Q r.pc = some l'
  line : ReplacedLine f r mem (view i) l'
  reads : ∀ a, .mem a ∈ dataUses r mem i → ¬CodeOf P a
  writes : ∀ a ∈ writable r mem (view i).1 (view i).2, ¬CodeOf Q (f a)

/-- Operands with the same place in a page. (All but those with an absolute address and an index take the
same time anyway.) -/
def SameOffset : AddrMode → AddrMode → Prop
  | .absoluteX w, .absoluteX w' | .absoluteY w, .absoluteY w' => w'.toNat % 256 = w.toNat % 256
  | _, _ => True

end Verif.Spec.Mos
