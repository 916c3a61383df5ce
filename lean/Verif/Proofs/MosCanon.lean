import Verif.Proofs.Mos6502

/-!
# What the 151 `generate` implementations have in common

`code` is a compact description, by mnemonic and addressing mode, of the operations the code
produces when its bus reads succeed. It is an intermediate step of the proofs (not a
specification): it repeats the deviations of the code.
-/

namespace Verif.Mos

open Verif Verif.Spec.Mos

/-- The microcode of `SetProgramStatusFlagState` for N and Z. -/
def nzCode (o : Operand) : List Microcode :=
  [.SetProgramStatusFlagState .Negative o.negative, .SetProgramStatusFlagState .Zero o.zero]

/-- Microcode of ADC and SBC. -/
def arithCode (p : Operand × Bool) : List Microcode :=
  [.SetProgramStatusFlagState .Carry p.1.carry,
   .SetProgramStatusFlagState .Negative p.1.negative,
   .SetProgramStatusFlagState .Overflow p.2,
   .SetProgramStatusFlagState .Zero p.1.zero,
   .Write8bitRegister .Acc p.1.unwrap]

/-- Microcode of CMP, CPX and CPY. -/
def compareCode (l r : Operand) : List Microcode :=
  [.SetProgramStatusFlagState .Carry (l.ge r),
   .SetProgramStatusFlagState .Negative (l.sub r).negative,
   .SetProgramStatusFlagState .Zero (l.sub r).zero]

/-- Microcode of the shifts and rotates, on the accumulator or on memory. -/
def shiftCode (am : AddrMode) (e : Word) (o : Operand) : List Microcode :=
  [.SetProgramStatusFlagState .Carry o.carry,
   .SetProgramStatusFlagState .Negative o.negative,
   .SetProgramStatusFlagState .Zero o.zero,
   match am with
   | .accumulator => .Write8bitRegister .Acc o.unwrap
   | _ => .WriteMemory e o.unwrap]

/-- Where the code sends a taken branch. -/
def codeTarget (pc : Word) (d : Byte) : Word := pc + d.signExtend 16

/-- Microcode of the branches. -/
def branchCode (r : Regs) (am : AddrMode) (t : Bool) : List Microcode :=
  match am with
  | .relative d =>
    if t then [.Write16bitRegister .Pc (codeTarget r.pc d)] else [.Write16bitRegister .Pc (r.pc + 2)]
  | _ => []

/-- The operand shifted by the code. -/
def shifted (r : Regs) (v : Byte) : Mnemonic → Operand
  | .Asl => Operand.withFlags (byte (2 * v.toNat)) (bitIsSet v 7)
      (Operand.new (byte (2 * v.toNat))).negative (Operand.new (byte (2 * v.toNat))).zero
  | .Lsr => Operand.withFlags (byte (v.toNat / 2)) (bitIsSet v 0)
      (Operand.new (byte (v.toNat / 2))).negative (Operand.new (byte (v.toNat / 2))).zero
  | .Rol => Operand.withFlags (byte (2 * v.toNat + bit r.p.carry)) (bitIsSet v 7)
      (Operand.new (byte (2 * v.toNat + bit r.p.carry))).negative
      (Operand.new (byte (2 * v.toNat + bit r.p.carry))).zero
  | _ => Operand.withFlags (byte (v.toNat / 2 + 128 * bit r.p.carry)) (bitIsSet v 0)
      (Operand.new (byte (v.toNat / 2 + 128 * bit r.p.carry))).negative
      (Operand.new (byte (v.toNat / 2 + 128 * bit r.p.carry))).zero

/-- The microcode produced for each mnemonic. -/
def codeMcs (r : Regs) (mem : Mem) (mn : Mnemonic) (am : AddrMode) : List Microcode :=
  let v := operand r mem am
  let e := ea r mem am
  match mn with
  | .Adc => arithCode ((Operand.new r.a).twosComplementAdd (Operand.new v) r.p.carry)
  | .Sbc => arithCode ((Operand.new r.a).twosComplementAdd
      ((Operand.new (255 - v)).add (Operand.new (boolAsU8 r.p.carry))) r.p.carry)
  | .And => nzCode (Operand.new (r.a &&& v)) ++ [.Write8bitRegister .Acc (r.a &&& v)]
  | .Ora => nzCode (Operand.new (r.a ||| v)) ++ [.Write8bitRegister .Acc (r.a ||| v)]
  | .Eor => nzCode (Operand.new (r.a ^^^ v)) ++ [.Write8bitRegister .Acc (r.a ^^^ v)]
  | .Bit => [.SetProgramStatusFlagState .Negative (bitIsSet v 7),
      .SetProgramStatusFlagState .Overflow (bitIsSet v 6),
      .SetProgramStatusFlagState .Zero (Operand.new (r.a &&& v)).zero]
  | .Asl => shiftCode am e (shifted r v .Asl)
  | .Lsr => shiftCode am e (shifted r v .Lsr)
  | .Rol => shiftCode am e (shifted r v .Rol)
  | .Ror => shiftCode am e (shifted r v .Ror)
  | .Bcc => branchCode r am (!r.p.carry)
  | .Bcs => branchCode r am r.p.carry
  | .Bne => branchCode r am (!r.p.zero)
  | .Beq => branchCode r am r.p.zero
  | .Bpl => branchCode r am (!r.p.negative)
  | .Bmi => branchCode r am r.p.negative
  | .Bvc => branchCode r am (!r.p.overflow)
  | .Bvs => branchCode r am r.p.overflow
  | .Clc => [.SetProgramStatusFlagState .Carry false]
  | .Cld => [.SetProgramStatusFlagState .Decimal false]
  | .Cli => [.SetProgramStatusFlagState .Interrupt false]
  | .Clv => [.SetProgramStatusFlagState .Overflow false]
  | .Sec => [.SetProgramStatusFlagState .Carry true]
  | .Sed => [.SetProgramStatusFlagState .Decimal true]
  | .Sei => [.SetProgramStatusFlagState .Interrupt true]
  | .Cmp => compareCode (Operand.new r.a) (Operand.new v)
  | .Cpx => compareCode (Operand.new r.x) (Operand.new v)
  | .Cpy => compareCode (Operand.new r.y) (Operand.new v)
  | .Dec => nzCode (Operand.new (v - 1)) ++ [.WriteMemory e (v - 1)]
  | .Inc => nzCode (Operand.new (v + 1)) ++ [.WriteMemory e (v + 1)]
  | .Dex => nzCode (Operand.new (r.x - 1)) ++ [.Dec8bitRegister .X 1]
  | .Dey => nzCode (Operand.new (r.x - 1)) ++ [.Dec8bitRegister .Y 1]
  | .Inx => nzCode (Operand.new (r.x + 1)) ++ [.Write8bitRegister .X (r.x + 1)]
  | .Iny => nzCode (Operand.new (r.y + 1)) ++ [.Write8bitRegister .Y (r.y + 1)]
  | .Jmp => [.Write16bitRegister .Pc e]
  | .Jsr => [.WriteMemory (stackPointerFromByteValue r.sp) (u16ToLeBytes (r.pc + 2)).2,
      .Dec8bitRegister .Sp 1,
      .WriteMemory (stackPointerFromByteValue (r.sp - 1)) (u16ToLeBytes (r.pc + 2)).1,
      .Dec8bitRegister .Sp 1, .Write16bitRegister .Pc e]
  | .Lda => nzCode (Operand.new v) ++ [.Write8bitRegister .Acc v]
  | .Ldx => nzCode (Operand.new v) ++ [.Write8bitRegister .X v]
  | .Ldy => nzCode (Operand.new v) ++ [.Write8bitRegister .Y v]
  | .Nop => []
  | .Pha => [.WriteMemory (stackPointerFromByteValue r.sp) r.a, .Dec8bitRegister .Sp 1]
  | .Php => [.WriteMemory (stackPointerFromByteValue r.sp) r.p.read, .Dec8bitRegister .Sp 1]
  | .Pla => .Inc8bitRegister .Sp 1 ::
      (nzCode (Operand.new (mem (stackPointerFromByteValue (r.sp + 1)))) ++
        [.Write8bitRegister .Acc (mem (stackPointerFromByteValue (r.sp + 1)))])
  | .Plp => [.Inc8bitRegister .Sp 1,
      .Write8bitRegister .Ps (mem (stackPointerFromByteValue (r.sp + 1)))]
  | .Rts => [.Inc8bitRegister .Sp 2, .Write16bitRegister .Pc
      (u16FromLeBytes (mem (stackPointerFromByteValue (r.sp + 1)))
        (mem (stackPointerFromByteValue (r.sp + 2))))]
  | .Rti => [.Inc8bitRegister .Sp 1,
      .Write8bitRegister .Ps (mem (stackPointerFromByteValue (r.sp + 1))),
      .Inc8bitRegister .Sp 2, .Write16bitRegister .Pc
      (u16FromLeBytes (mem (stackPointerFromByteValue (r.sp + 2)))
        (mem (stackPointerFromByteValue (r.sp + 3))))]
  | .Brk => [.SetProgramStatusFlagState .Break true,
      .SetProgramStatusFlagState .Interrupt true,
      .WriteMemory (stackPointerFromByteValue r.sp) (u16ToLeBytes (r.pc + 1)).1,
      .Dec8bitRegister .Sp 1,
      .WriteMemory (stackPointerFromByteValue (r.sp - 1)) (u16ToLeBytes (r.pc + 1)).2,
      .Dec8bitRegister .Sp 1,
      .WriteMemory (stackPointerFromByteValue (r.sp - 2)) r.p.read,
      .Dec8bitRegister .Sp 1,
      .Write16bitRegister .Pc (u16FromLeBytes (mem 0xfffe) (mem 0xffff))]
  | .Sta => [.WriteMemory e r.a]
  | .Stx => [.WriteMemory e r.x]
  | .Sty => [.WriteMemory e r.y]
  | .Tax => nzCode (Operand.new r.a) ++ [.Write8bitRegister .X r.a]
  | .Tay => nzCode (Operand.new r.a) ++ [.Write8bitRegister .Y r.a]
  | .Tsx => nzCode (Operand.new r.sp) ++ [.Write8bitRegister .X r.sp]
  | .Txa => nzCode (Operand.new r.x) ++ [.Write8bitRegister .Acc r.x]
  | .Txs => [.Write8bitRegister .Sp r.x]
  | .Tya => nzCode (Operand.new r.y) ++ [.Write8bitRegister .Acc r.y]

/-- The `offset` field produced for each mnemonic. -/
def codeOffset (mn : Mnemonic) (am : AddrMode) : Nat :=
  match mn with
  | .Bcc | .Bcs | .Bne | .Beq | .Bpl | .Bmi | .Bvc | .Bvs | .Jmp | .Jsr | .Brk => 0
  | _ => size am

/-- The penalty cycles produced for each mnemonic. -/
def codePenalty (r : Regs) (mem : Mem) (mn : Mnemonic) (am : AddrMode) : Nat :=
  match am with
  | .relative d =>
    if taken mn r.p = some true then 1 + crosses (codeTarget r.pc d).toNat r.pc.toNat else 0
  | .indirectIndexed z => if mn = .Sta then 0 else crosses (ea r mem (.indirectIndexed z)).toNat 0
  | am => if canCross am && !writesMem mn am then crosses (baseAddr mem am) (ea r mem am).toNat else 0

/-- The operations produced for each mnemonic. -/
def code (r : Regs) (mem : Mem) (mn : Mnemonic) (am : AddrMode) : Operations where
  offset := codeOffset mn am
  cycles := baseCycles mn am + codePenalty r mem mn am
  microcode := codeMcs r mem mn am

end Verif.Mos
