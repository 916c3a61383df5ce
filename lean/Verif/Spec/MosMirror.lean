import Verif.Spec.MosUses

/-!
# The two index registers of the 6502

The instruction set is largely symmetric in X and Y. Here: which opcode is the counterpart of which,
and what it means that a machine is another one with X and Y exchanged.
-/

namespace Verif.Spec.Mos

open Verif Verif.Mos

/-- The documented opcodes that come in pairs, one for X and one for Y: `LDX`/`LDY`, `STX`/`STY`,
`CPX`/`CPY`, `INX`/`INY`, `DEX`/`DEY`, `TAX`/`TAY`, `TXA`/`TYA`, and `abs,X`/`abs,Y` for `ORA`, `AND`,
`EOR`, `ADC`, `STA`, `LDA`, `CMP` and `SBC`. -/
def indexPairs : List (Byte × Byte) :=
  [(0xa2, 0xa0), (0xa6, 0xa4), (0xb6, 0xb4), (0xae, 0xac), (0xbe, 0xbc),
   (0x86, 0x84), (0x96, 0x94), (0x8e, 0x8c),
   (0xe0, 0xc0), (0xe4, 0xc4), (0xec, 0xcc),
   (0xe8, 0xc8), (0xca, 0x88), (0xaa, 0xa8), (0x8a, 0x98),
   (0x1d, 0x19), (0x3d, 0x39), (0x5d, 0x59), (0x7d, 0x79), (0x9d, 0x99), (0xbd, 0xb9), (0xdd, 0xd9),
   (0xfd, 0xf9)]

/-- The opcodes that involve an index register and have no counterpart: `(zp,X)`, `(zp),Y`, `zp,X` of the
accumulator and read-modify-write instructions, `abs,X` of the latter, `TSX` and `TXS`. -/
def unpaired : List Byte :=
  [0x01, 0x21, 0x41, 0x61, 0x81, 0xa1, 0xc1, 0xe1,
   0x11, 0x31, 0x51, 0x71, 0x91, 0xb1, 0xd1, 0xf1,
   0x15, 0x35, 0x55, 0x75, 0x95, 0xb5, 0xd5, 0xf5,
   0x16, 0x36, 0x56, 0x76, 0xd6, 0xf6,
   0x1e, 0x3e, 0x5e, 0x7e, 0xde, 0xfe, 0xba, 0x9a]

/-- The opcode for the other index register, if there is one. An instruction without an index register is its
own counterpart. -/
def counterpart (o : Byte) : Option Byte :=
  match indexPairs.find? (fun p => p.1 = o || p.2 = o) with
  | some p => some (if p.1 = o then p.2 else p.1)
  | none => if o ∈ unpaired then none else some o

/-- X and Y exchanged. -/
def exchanged (r : Regs) : Regs := { r with x := r.y, y := r.x }

/-- The second memory holds, at the places of opcodes, the counterparts of the opcodes of the first, and the
same bytes elsewhere. -/
structure Mirrored (opcodes : Word → Prop) (mem mem' : Mem) : Prop where
  code : ∀ a, opcodes a → counterpart (mem a) = some (mem' a)
  rest : ∀ a, ¬opcodes a → mem' a = mem a

/-- An instruction, executed with registers `r` and memory `mem`, that lies at a place of an opcode, has its
operand elsewhere, and neither looks at nor writes an opcode as data. -/
structure OwnCode (opcodes : Word → Prop) (r : Regs) (mem : Mem) (i : InstructionVariant) : Prop where
  first : opcodes r.pc
  operand : ∀ k, 1 ≤ k → k < size (view i).2 → ¬opcodes (word (r.pc.toNat + k))
  data : ∀ a, .mem a ∈ dataUses r mem i → ¬opcodes a
  written : ∀ a ∈ writable r mem (view i).1 (view i).2, ¬opcodes a

/-- The condition under which the emulator's `DEY` and `DEX` are counterparts: it sets the flags of both from
X - 1, so X - 1 and Y - 1 must have the same sign and be zero together. -/
def DecrementsAlike (r : Regs) (mn : Mnemonic) : Prop :=
  mn = .Dex ∨ mn = .Dey → setNZ r.p (r.x - 1) = setNZ r.p (r.y - 1)

end Verif.Spec.Mos
