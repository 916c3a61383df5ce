import Verif.Spec.Mos6502

/-!
# The opcode matrix of the 6502, by its bit fields

A documented opcode has the form `aaabbbcc`: `cc` selects a group, `aaa` the operation in the group
and `bbb` the addressing mode. This description shares nothing with the table in the decoder.
-/

namespace Verif.Spec.Mos

open Verif Verif.Mos

/-- The 16-bit operand, low byte first. -/
def operand16 (lo hi : Byte) : Word := BitVec.ofNat 16 (lo.toNat + 256 * hi.toNat)

/-- Group 01: the eight accumulator operations in the eight addressing modes; only STA immediate
does not exist. -/
def group01 (aaa bbb : Nat) (b1 b2 : Byte) : Option (Mnemonic × AddrMode) :=
  let mn := [Mnemonic.Ora, .And, .Eor, .Adc, .Sta, .Lda, .Cmp, .Sbc][aaa]?
  let am := [AddrMode.indexedIndirect b1, .zeroPage b1, .immediate b1, .absolute (operand16 b1 b2),
    .indirectIndexed b1, .zeroPageX b1, .absoluteY (operand16 b1 b2), .absoluteX (operand16 b1 b2)][bbb]?
  match mn, am with
  | some .Sta, some (.immediate _) => none
  | some mn, some am => some (mn, am)
  | _, _ => none

/-- Group 10: shifts, X transfers, INC and DEC. Indexing is by Y where X is the operand. -/
def group10 (aaa bbb : Nat) (b1 b2 : Byte) : Option (Mnemonic × AddrMode) :=
  let mn := ([Mnemonic.Asl, .Rol, .Lsr, .Ror, .Stx, .Ldx, .Dec, .Inc][aaa]?).getD .Nop
  let usesX := aaa = 4 ∨ aaa = 5
  match bbb with
  | 0 => if aaa = 5 then some (.Ldx, .immediate b1) else none
  | 1 => some (mn, .zeroPage b1)
  | 2 => if aaa < 4 then some (mn, .accumulator)
    else some (([Mnemonic.Txa, .Tax, .Dex, .Nop][aaa - 4]?).getD .Nop, .implied)
  | 3 => some (mn, .absolute (operand16 b1 b2))
  | 5 => some (mn, if usesX then .zeroPageY b1 else .zeroPageX b1)
  | 6 => if aaa = 4 then some (.Txs, .implied) else if aaa = 5 then some (.Tsx, .implied) else none
  | 7 => if aaa = 4 then none
    else some (mn, if usesX then .absoluteY (operand16 b1 b2) else .absoluteX (operand16 b1 b2))
  | _ => none

/-- Group 00: the rest, row by row of `bbb`. -/
def group00 (aaa bbb : Nat) (b1 b2 : Byte) : Option (Mnemonic × AddrMode) :=
  match bbb with
  | 0 => ([some (Mnemonic.Brk, AddrMode.implied), some (.Jsr, .absolute (operand16 b1 b2)),
      some (.Rti, .implied), some (.Rts, .implied), none, some (.Ldy, .immediate b1),
      some (.Cpy, .immediate b1), some (.Cpx, .immediate b1)][aaa]?).getD none
  | 1 => ([none, some Mnemonic.Bit, none, none, some .Sty, some .Ldy, some .Cpy, some .Cpx][aaa]?.getD
      none).map fun mn => (mn, .zeroPage b1)
  | 2 => ([Mnemonic.Php, .Plp, .Pha, .Pla, .Dey, .Tay, .Iny, .Inx][aaa]?).map fun mn => (mn, .implied)
  | 3 => ([none, some (Mnemonic.Bit, AddrMode.absolute (operand16 b1 b2)),
      some (.Jmp, .absolute (operand16 b1 b2)), some (.Jmp, .indirect (operand16 b1 b2)),
      some (.Sty, .absolute (operand16 b1 b2)), some (.Ldy, .absolute (operand16 b1 b2)),
      some (.Cpy, .absolute (operand16 b1 b2)), some (.Cpx, .absolute (operand16 b1 b2))][aaa]?).getD none
  | 4 => ([Mnemonic.Bpl, .Bmi, .Bvc, .Bvs, .Bcc, .Bcs, .Bne, .Beq][aaa]?).map fun mn =>
      (mn, .relative b1)
  | 5 => if aaa = 4 then some (.Sty, .zeroPageX b1) else if aaa = 5 then some (.Ldy, .zeroPageX b1)
    else none
  | 6 => ([Mnemonic.Clc, .Sec, .Cli, .Sei, .Tya, .Clv, .Cld, .Sed][aaa]?).map fun mn => (mn, .implied)
  | 7 => if aaa = 5 then some (.Ldy, .absoluteX (operand16 b1 b2)) else none
  | _ => none

/-- The documented instruction with first byte `op` and operand bytes `b1`, `b2`. -/
def documented (op : Nat) (b1 b2 : Byte) : Option (Mnemonic × AddrMode) :=
  match op % 4 with
  | 0 => group00 (op / 32) (op / 4 % 8) b1 b2
  | 1 => group01 (op / 32) (op / 4 % 8) b1 b2
  | 2 => group10 (op / 32) (op / 4 % 8) b1 b2
  | _ => none

end Verif.Spec.Mos
