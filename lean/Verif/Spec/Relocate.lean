import Verif.Spec.MosExec
import Verif.Spec.MosProgram

/-!
# Code moved to another place

What it means that a machine holds the same program as another one at another place, and which 6502
instructions do not depend on where they are.
-/

namespace Verif.Spec.Mos

open Verif Verif.Mos

/-- The same registers with the program counter moved. -/
def movedRegs (d : Word) (r : Regs) : Regs := { r with pc := r.pc + d }

/-- The second memory holds the code of the first one `d` bytes further on, and agrees with it outside
both places. (What it holds where the code of the first memory is does not matter, unless the moved
code is there.) -/
structure Relocated (d : Word) (code : Word → Prop) (mem mem' : Mem) : Prop where
  moved : ∀ a, code a → mem' (a + d) = mem a
  rest : ∀ a, ¬code a → ¬code (a - d) → mem' a = mem a

/-- The instructions that do not work with absolute code addresses: all but the jumps, calls, returns
and the software interrupt. Branches are relative. -/
def positionFree : Mnemonic → Bool
  | .Jmp | .Jsr | .Rts | .Rti | .Brk => false
  | _ => true

/-- The addresses an instruction reads or writes besides its own bytes: the stack byte of a push or
pull; else the bytes of the pointer, if any, and the effective address. -/
def dataAddresses (r : Regs) (mem : Mem) (mn : Mnemonic) (am : AddrMode) : List Word :=
  match mn, am with
  | .Pha, _ | .Php, _ => [stack r.sp.toNat]
  | .Pla, _ | .Plp, _ => [stack (r.sp.toNat + 1)]
  | _, .implied | _, .accumulator | _, .immediate _ | _, .relative _ => []
  | _, .indirect w => [w, word (w.toNat + 1)]
  | _, .indexedIndirect z =>
    [word ((z.toNat + r.x.toNat) % 256), word ((z.toNat + r.x.toNat + 1) % 256), ea r mem am]
  | _, .indirectIndexed z => [word z.toNat, word ((z.toNat + 1) % 256), ea r mem am]
  | _, _ => [ea r mem am]

/-- An instruction, executed with registers `r` and memory `mem`, that does the same `d` bytes further
on: it lies in the code, is not a jump, and its data lie outside the code and outside the place the code
is moved to. -/
structure Independent (d : Word) (code : Word → Prop) (r : Regs) (mem : Mem) (i : InstructionVariant) :
    Prop where
  own : ∀ k, k < size (view i).2 → code (word (r.pc.toNat + k))
  free : positionFree (view i).1 = true
  data : ∀ a ∈ dataAddresses r mem (view i).1 (view i).2, ¬code a ∧ ¬code (a - d)

/-- The fetch at the moved address does not overflow: it reads three bytes at `pc`, whatever the length
of the instruction. -/
def FetchOk (b : Build) (pc : Word) : Prop := b.overflowChecks = false ∨ pc.toNat + 2 < 65536

end Verif.Spec.Mos
