import Verif.Spec.MosUses

/-!
# The same program with its stack elsewhere in the stack page
-/

namespace Verif.Spec.Mos

open Verif Verif.Mos

/-- The stack page. -/
def InStack (a : Word) : Prop := 256 ≤ a.toNat ∧ a.toNat < 512

/-- Where a byte is if everything in the stack page is `k` further on (round the page). -/
def turned (k : Byte) (a : Word) : Word :=
  if 256 ≤ a.toNat ∧ a.toNat < 512 then stack (a.toNat + k.toNat) else a

/-- The second memory is the first one with the stack page turned by `k`. -/
def StackMoved (k : Byte) (mem mem' : Mem) : Prop := ∀ a, mem' (turned k a) = mem a

/-- The same registers with the stack pointer moved. -/
def spMoved (k : Byte) (r : Regs) : Regs := { r with sp := r.sp + k }

/-- The addresses an instruction reads or writes by its operand: the bytes of the pointer, if any, and the byte
it works on. Jumps and calls go to their operand, without looking at what is there. -/
def addressed (r : Regs) (mem : Mem) (mn : Mnemonic) (am : AddrMode) : List Word :=
  match mn, am with
  | _, .implied | _, .accumulator | _, .immediate _ | _, .relative _ => []
  | .Jmp, .absolute _ | .Jsr, _ => []
  | _, .indirect w => [w, word (w.toNat + 1)]
  | _, .indexedIndirect z =>
    [word ((z.toNat + r.x.toNat) % 256), word ((z.toNat + r.x.toNat + 1) % 256), ea r mem am]
  | _, .indirectIndexed z => [word z.toNat, word ((z.toNat + 1) % 256), ea r mem am]
  | _, _ => [ea r mem am]

/-- An instruction to which it does not matter where the stack is: it lies outside the stack page, does not
transfer the stack pointer from or to X, and reaches the stack page by pushing and pulling only. -/
structure StackFree (r : Regs) (mem : Mem) (i : InstructionVariant) : Prop where
  own : ∀ k, k < size (view i).2 → ¬InStack (word (r.pc.toNat + k))
  transfer : (view i).1 ≠ .Tsx ∧ (view i).1 ≠ .Txs
  data : ∀ a ∈ addressed r mem (view i).1 (view i).2, ¬InStack a

end Verif.Spec.Mos
