import Verif.Spec.Chip8

/-!
# What each CHIP-8 instruction is documented to change

One table per component of the machine. An instruction may change a component only where the table
says so.
-/

namespace Verif.Spec.Chip8

open Verif Verif.Chip8

/-- The registers an instruction may change. -/
def ChangesV : Opcode → GpRegisters → Prop
  | .LdImmediate x _, r | .LdVxVy x _, r | .AddImmediate x _, r | .Or x _, r | .And x _, r
  | .Xor x _, r | .Rnd x _, r | .LdDelayTimerSrcTx x, r | .LdK x, r => r = x
  | .AddVxVy x _, r | .Sub x _, r | .Subn x _, r | .Shr x _, r | .Shl x _, r => r = x ∨ r = .Vf
  | .Drw _ _ _, r => r = .Vf
  | .ReadRegistersFromMemory x, r => num r ≤ num x
  | _, _ => False

/-- The instructions that may change I. -/
def ChangesI : Opcode → Prop
  | .LdAbsolute _ | .AddIRegisterIndexed _ | .LdSpriteLocation _ => True
  | _ => False

/-- The instructions that set the delay timer. -/
def ChangesDelay : Opcode → Prop
  | .LdDelayTimerDestTx _ => True
  | _ => False

/-- The instructions that set the sound timer. -/
def ChangesSound : Opcode → Prop
  | .LdSoundTimerDestTx _ => True
  | _ => False

/-- The instructions that write a stack cell. -/
def ChangesStack : Opcode → Prop
  | .Call _ => True
  | _ => False

/-- The instructions that may move the stack pointer. -/
def MovesSp : Opcode → Prop
  | .Call _ | .Ret => True
  | _ => False

/-- The instructions that may change pixels. -/
def ChangesDisplay : Opcode → Prop
  | .Cls | .Drw _ _ _ => True
  | _ => False

/-- How an instruction may move the program counter: to the next instruction or, if it is a skip,
to the one after it; jumps, calls and returns are not restricted. -/
def PcMoves (pc pc' : Word) : Opcode → Prop
  | .JpNonV0Indexed _ | .JpV0Indexed _ | .Call _ | .Ret => True
  | .SeVxVy _ _ | .SneVxVy _ _ | .SeImmediate _ _ | .SneImmediate _ _ | .Skp _ | .Sknp _ =>
    pc'.toNat = (pc.toNat + 2) % 65536 ∨ pc'.toNat = (pc.toNat + 4) % 65536
  | _ => pc'.toNat = (pc.toNat + 2) % 65536

end Verif.Spec.Chip8
