import Verif.Spec.Mos6502

/-!
# Memory over several steps, and the stack as a list
-/

namespace Verif.Spec.Mos

open Verif Verif.Mos

/-- The addresses an instruction may write. -/
def writable (r : Regs) (mem : Mem) (mn : Mnemonic) (am : AddrMode) : List Word :=
  match mn with
  | .Pha | .Php => [stack r.sp.toNat]
  | .Jsr => [stack r.sp.toNat, stack (r.sp.toNat + 255)]
  | .Brk => [stack r.sp.toNat, stack (r.sp.toNat + 255), stack (r.sp.toNat + 254)]
  | _ => if writesMem mn am then [ea r mem am] else []

/-- Memory with one byte replaced. -/
def upd (mem : Mem) (a : Word) (v : Byte) : Mem := fun x => if x = a then v else mem x

/-- `I` says which memory a bus shows: reads show it, and an accepted write replaces exactly the
addressed byte. (Refused writes end the program with a panic.) -/
def Coherent {B : Type} [Addressable B] (b : Build) (I : B → Mem → Prop) : Prop :=
  ∀ bus mem, I bus mem → BusView b bus mem ∧
    ∀ a v r bus', Addressable.write b bus a v = .ok (.ok r, bus') → I bus' (upd mem a v)

/-- The bytes on the stack above `sp`, top first, are `l`. -/
def StackHolds (mem : Mem) (sp : Byte) (l : List Byte) : Prop :=
  l.length ≤ 256 ∧ ∀ (k : Nat) (h : k < l.length), mem (stack (sp.toNat + 1 + k)) = l[k]

/-- The bytes an instruction pushes, in order; `none` if it is not a push or a call. -/
def pushed (r : Regs) : Mnemonic → Option (List Byte)
  | .Pha => some [r.a]
  | .Php => some [r.p.read]
  | .Jsr => some [byte ((r.pc.toNat + 2) % 65536 / 256), byte (r.pc.toNat + 2)]
  | _ => none

/-- How many bytes an instruction pulls; `none` if it is not a pull or a return. -/
def pulls : Mnemonic → Option Nat
  | .Pla | .Plp => some 1
  | .Rts => some 2
  | .Rti => some 3
  | _ => none

/-- Does the instruction leave the stack pointer alone? -/
def keepsStack : Mnemonic → Bool
  | .Pha | .Php | .Pla | .Plp | .Jsr | .Rts | .Rti | .Brk | .Txs => false
  | _ => true

/-- One executed instruction. -/
def Step {B : Type} [Addressable B] (b : Build) (cpu : Mos6502 B) (i : InstructionVariant)
    (cpu' : Mos6502 B) : Prop :=
  At b cpu i ∧ ∃ ops, next b cpu = .ok (ops, cpu')

/-- Executions that use the stack as a stack: any interleaving of pushes, calls, pulls, returns and
other instructions, with at most 256 bytes outstanding, never pulling more than was pushed, and
never storing over a byte on the stack. The lists are the bytes on the stack, top first, as
computed from the pushes alone. -/
inductive StackRun {B : Type} [Addressable B] (b : Build) :
    Mos6502 B → List Byte → Mos6502 B → List Byte → Prop
  | done {c : Mos6502 B} {l : List Byte} : StackRun b c l c l
  | push {c c' c'' : Mos6502 B} {l l'' : List Byte} {i : InstructionVariant} {bs : List Byte} :
      Step b c i c' → pushed (regs c) (view i).1 = some bs → bs.length + l.length ≤ 256 →
      StackRun b c' (bs.reverse ++ l) c'' l'' → StackRun b c l c'' l''
  | pull {c c' c'' : Mos6502 B} {bs l l'' : List Byte} {i : InstructionVariant} :
      Step b c i c' → pulls (view i).1 = some bs.length →
      StackRun b c' l c'' l'' → StackRun b c (bs ++ l) c'' l''
  | other {c c' c'' : Mos6502 B} {l l'' : List Byte} {i : InstructionVariant} :
      Step b c i c' → keepsStack (view i).1 = true →
      (∀ mem, BusView b c.address_map mem → ∀ a ∈ writable (regs c) mem (view i).1 (view i).2,
        ∀ k < l.length, a ≠ stack (c.sp.toNat + 1 + k)) →
      StackRun b c' l c'' l'' → StackRun b c l c'' l''

end Verif.Spec.Mos
