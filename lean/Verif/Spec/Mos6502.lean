import Verif.Model.Mos.Cpu

/-!
# A textbook NMOS 6502

A specification of the documented instruction set that is independent of the emulator's code: it
uses plain arithmetic on numbers, a flat memory `Word → Byte` for reads, and describes an
instruction by the new registers, the ordered list of memory writes and the number of cycles.
Only the data types of the emulator (`Mos6502`, `ProcessorStatus`, the instruction names) are
shared.
-/

namespace Verif.Spec.Mos

open Verif Verif.Mos

/-- The 13 addressing modes with their operands. -/
inductive AddrMode where
  | implied
  | accumulator
  | immediate (v : Byte)
  | zeroPage (z : Byte)
  | zeroPageX (z : Byte)
  | zeroPageY (z : Byte)
  | absolute (w : Word)
  | absoluteX (w : Word)
  | absoluteY (w : Word)
  /-- `JMP (w)` -/
  | indirect (w : Word)
  /-- `(z,X)` -/
  | indexedIndirect (z : Byte)
  /-- `(z),Y` -/
  | indirectIndexed (z : Byte)
  /-- a signed displacement, as its bits -/
  | relative (d : Byte)
  deriving DecidableEq, Repr

/-- Mnemonic and addressing mode of an instruction. -/
def view : InstructionVariant → Mnemonic × AddrMode
  | .AdcAbsolute o => (.Adc, .absolute o)
  | .AdcAbsoluteIndexedWithX o => (.Adc, .absoluteX o)
  | .AdcAbsoluteIndexedWithY o => (.Adc, .absoluteY o)
  | .AdcIndirectYIndexed o => (.Adc, .indirectIndexed o)
  | .AdcImmediate o => (.Adc, .immediate o)
  | .AdcXIndexedIndirect o => (.Adc, .indexedIndirect o)
  | .AdcZeroPage o => (.Adc, .zeroPage o)
  | .AdcZeroPageIndexedWithX o => (.Adc, .zeroPageX o)
  | .SbcAbsolute o => (.Sbc, .absolute o)
  | .SbcAbsoluteIndexedWithX o => (.Sbc, .absoluteX o)
  | .SbcAbsoluteIndexedWithY o => (.Sbc, .absoluteY o)
  | .SbcIndirectYIndexed o => (.Sbc, .indirectIndexed o)
  | .SbcImmediate o => (.Sbc, .immediate o)
  | .SbcXIndexedIndirect o => (.Sbc, .indexedIndirect o)
  | .SbcZeroPage o => (.Sbc, .zeroPage o)
  | .SbcZeroPageIndexedWithX o => (.Sbc, .zeroPageX o)
  | .AndAbsolute o => (.And, .absolute o)
  | .AndAbsoluteIndexedWithX o => (.And, .absoluteX o)
  | .AndAbsoluteIndexedWithY o => (.And, .absoluteY o)
  | .AndIndirectYIndexed o => (.And, .indirectIndexed o)
  | .AndImmediate o => (.And, .immediate o)
  | .AndXIndexedIndirect o => (.And, .indexedIndirect o)
  | .AndZeroPage o => (.And, .zeroPage o)
  | .AndZeroPageIndexedWithX o => (.And, .zeroPageX o)
  | .AslAbsolute o => (.Asl, .absolute o)
  | .AslAbsoluteIndexedWithX o => (.Asl, .absoluteX o)
  | .AslAccumulator => (.Asl, .accumulator)
  | .AslZeroPage o => (.Asl, .zeroPage o)
  | .AslZeroPageIndexedWithX o => (.Asl, .zeroPageX o)
  | .BitAbsolute o => (.Bit, .absolute o)
  | .BitZeroPage o => (.Bit, .zeroPage o)
  | .EorAbsolute o => (.Eor, .absolute o)
  | .EorAbsoluteIndexedWithX o => (.Eor, .absoluteX o)
  | .EorAbsoluteIndexedWithY o => (.Eor, .absoluteY o)
  | .EorIndirectYIndexed o => (.Eor, .indirectIndexed o)
  | .EorImmediate o => (.Eor, .immediate o)
  | .EorXIndexedIndirect o => (.Eor, .indexedIndirect o)
  | .EorZeroPage o => (.Eor, .zeroPage o)
  | .EorZeroPageIndexedWithX o => (.Eor, .zeroPageX o)
  | .LsrAbsolute o => (.Lsr, .absolute o)
  | .LsrAbsoluteIndexedWithX o => (.Lsr, .absoluteX o)
  | .LsrAccumulator => (.Lsr, .accumulator)
  | .LsrZeroPage o => (.Lsr, .zeroPage o)
  | .LsrZeroPageIndexedWithX o => (.Lsr, .zeroPageX o)
  | .OraAbsolute o => (.Ora, .absolute o)
  | .OraAbsoluteIndexedWithX o => (.Ora, .absoluteX o)
  | .OraAbsoluteIndexedWithY o => (.Ora, .absoluteY o)
  | .OraIndirectYIndexed o => (.Ora, .indirectIndexed o)
  | .OraImmediate o => (.Ora, .immediate o)
  | .OraXIndexedIndirect o => (.Ora, .indexedIndirect o)
  | .OraZeroPage o => (.Ora, .zeroPage o)
  | .OraZeroPageIndexedWithX o => (.Ora, .zeroPageX o)
  | .RolAbsolute o => (.Rol, .absolute o)
  | .RolAbsoluteIndexedWithX o => (.Rol, .absoluteX o)
  | .RolAccumulator => (.Rol, .accumulator)
  | .RolZeroPage o => (.Rol, .zeroPage o)
  | .RolZeroPageIndexedWithX o => (.Rol, .zeroPageX o)
  | .RorAbsolute o => (.Ror, .absolute o)
  | .RorAbsoluteIndexedWithX o => (.Ror, .absoluteX o)
  | .RorAccumulator => (.Ror, .accumulator)
  | .RorZeroPage o => (.Ror, .zeroPage o)
  | .RorZeroPageIndexedWithX o => (.Ror, .zeroPageX o)
  | .BccRelative o => (.Bcc, .relative o)
  | .BcsRelative o => (.Bcs, .relative o)
  | .BeqRelative o => (.Beq, .relative o)
  | .BmiRelative o => (.Bmi, .relative o)
  | .BneRelative o => (.Bne, .relative o)
  | .BplRelative o => (.Bpl, .relative o)
  | .BvcRelative o => (.Bvc, .relative o)
  | .BvsRelative o => (.Bvs, .relative o)
  | .ClcImplied => (.Clc, .implied)
  | .CldImplied => (.Cld, .implied)
  | .CliImplied => (.Cli, .implied)
  | .ClvImplied => (.Clv, .implied)
  | .CmpAbsolute o => (.Cmp, .absolute o)
  | .CmpAbsoluteIndexedWithX o => (.Cmp, .absoluteX o)
  | .CmpAbsoluteIndexedWithY o => (.Cmp, .absoluteY o)
  | .CmpIndirectYIndexed o => (.Cmp, .indirectIndexed o)
  | .CmpImmediate o => (.Cmp, .immediate o)
  | .CmpXIndexedIndirect o => (.Cmp, .indexedIndirect o)
  | .CmpZeroPage o => (.Cmp, .zeroPage o)
  | .CmpZeroPageIndexedWithX o => (.Cmp, .zeroPageX o)
  | .CpxAbsolute o => (.Cpx, .absolute o)
  | .CpxImmediate o => (.Cpx, .immediate o)
  | .CpxZeroPage o => (.Cpx, .zeroPage o)
  | .CpyAbsolute o => (.Cpy, .absolute o)
  | .CpyImmediate o => (.Cpy, .immediate o)
  | .CpyZeroPage o => (.Cpy, .zeroPage o)
  | .DecAbsolute o => (.Dec, .absolute o)
  | .DecAbsoluteIndexedWithX o => (.Dec, .absoluteX o)
  | .DecZeroPage o => (.Dec, .zeroPage o)
  | .DecZeroPageIndexedWithX o => (.Dec, .zeroPageX o)
  | .DexImplied => (.Dex, .implied)
  | .DeyImplied => (.Dey, .implied)
  | .IncAbsolute o => (.Inc, .absolute o)
  | .IncAbsoluteIndexedWithX o => (.Inc, .absoluteX o)
  | .IncZeroPage o => (.Inc, .zeroPage o)
  | .IncZeroPageIndexedWithX o => (.Inc, .zeroPageX o)
  | .InxImplied => (.Inx, .implied)
  | .InyImplied => (.Iny, .implied)
  | .JmpAbsolute o => (.Jmp, .absolute o)
  | .JmpIndirect o => (.Jmp, .indirect o)
  | .JsrAbsolute o => (.Jsr, .absolute o)
  | .LdaImmediate o => (.Lda, .immediate o)
  | .LdaZeroPage o => (.Lda, .zeroPage o)
  | .LdaZeroPageIndexedWithX o => (.Lda, .zeroPageX o)
  | .LdaAbsolute o => (.Lda, .absolute o)
  | .LdaAbsoluteIndexedWithX o => (.Lda, .absoluteX o)
  | .LdaAbsoluteIndexedWithY o => (.Lda, .absoluteY o)
  | .LdaIndirectYIndexed o => (.Lda, .indirectIndexed o)
  | .LdaXIndexedIndirect o => (.Lda, .indexedIndirect o)
  | .LdxAbsolute o => (.Ldx, .absolute o)
  | .LdxAbsoluteIndexedWithY o => (.Ldx, .absoluteY o)
  | .LdxImmediate o => (.Ldx, .immediate o)
  | .LdxZeroPage o => (.Ldx, .zeroPage o)
  | .LdxZeroPageIndexedWithY o => (.Ldx, .zeroPageY o)
  | .LdyAbsolute o => (.Ldy, .absolute o)
  | .LdyAbsoluteIndexedWithX o => (.Ldy, .absoluteX o)
  | .LdyImmediate o => (.Ldy, .immediate o)
  | .LdyZeroPage o => (.Ldy, .zeroPage o)
  | .LdyZeroPageIndexedWithX o => (.Ldy, .zeroPageX o)
  | .PhaImplied => (.Pha, .implied)
  | .PhpImplied => (.Php, .implied)
  | .PlaImplied => (.Pla, .implied)
  | .PlpImplied => (.Plp, .implied)
  | .RtiImplied => (.Rti, .implied)
  | .RtsImplied => (.Rts, .implied)
  | .SecImplied => (.Sec, .implied)
  | .SedImplied => (.Sed, .implied)
  | .SeiImplied => (.Sei, .implied)
  | .StaAbsolute o => (.Sta, .absolute o)
  | .StaAbsoluteIndexedWithX o => (.Sta, .absoluteX o)
  | .StaAbsoluteIndexedWithY o => (.Sta, .absoluteY o)
  | .StaIndirectYIndexed o => (.Sta, .indirectIndexed o)
  | .StaXIndexedIndirect o => (.Sta, .indexedIndirect o)
  | .StaZeroPage o => (.Sta, .zeroPage o)
  | .StaZeroPageIndexedWithX o => (.Sta, .zeroPageX o)
  | .StxAbsolute o => (.Stx, .absolute o)
  | .StxZeroPage o => (.Stx, .zeroPage o)
  | .StxZeroPageIndexedWithY o => (.Stx, .zeroPageY o)
  | .StyAbsolute o => (.Sty, .absolute o)
  | .StyZeroPage o => (.Sty, .zeroPage o)
  | .StyZeroPageIndexedWithX o => (.Sty, .zeroPageX o)
  | .TaxImplied => (.Tax, .implied)
  | .TayImplied => (.Tay, .implied)
  | .TsxImplied => (.Tsx, .implied)
  | .TxaImplied => (.Txa, .implied)
  | .TxsImplied => (.Txs, .implied)
  | .TyaImplied => (.Tya, .implied)
  | .BrkImplied => (.Brk, .implied)
  | .NopImplied => (.Nop, .implied)

/-- A number as a byte, modulo 256. -/
def byte (n : Nat) : Byte := BitVec.ofNat 8 n

/-- A number as an address, modulo 65536. -/
def word (n : Nat) : Word := BitVec.ofNat 16 n

/-- Number of bytes of an instruction. -/
def size : AddrMode → Nat
  | .implied | .accumulator => 1
  | .absolute _ | .absoluteX _ | .absoluteY _ | .indirect _ => 3
  | _ => 2

/-- The registers. -/
structure Regs where
  a : Byte
  x : Byte
  y : Byte
  sp : Byte
  pc : Word
  p : ProcessorStatus
  deriving DecidableEq

/-- The registers of a CPU. -/
def regs {B : Type} (cpu : Mos6502 B) : Regs := ⟨cpu.acc, cpu.x, cpu.y, cpu.sp, cpu.pc, cpu.ps⟩

/-- A CPU with given registers and bus. -/
def withRegs {B : Type} (r : Regs) (bus : B) : Mos6502 B := ⟨bus, r.a, r.x, r.y, r.sp, r.pc, r.p⟩

/-- Memory as seen by reads. -/
abbrev Mem := Word → Byte

/-- Little-endian word at two addresses. -/
def le (mem : Mem) (lo hi : Nat) : Nat := (mem (word lo)).toNat + 256 * (mem (word hi)).toNat

/-- The address before indexing by `Y`, for the modes that can cross a page. -/
def baseAddr (mem : Mem) : AddrMode → Nat
  | .absoluteX w => w.toNat
  | .absoluteY w => w.toNat
  | .indirectIndexed z => le mem z.toNat ((z.toNat + 1) % 256)
  | _ => 0

/-- The effective address. (0 for the modes without one.) -/
def ea (r : Regs) (mem : Mem) : AddrMode → Word
  | .zeroPage z => word z.toNat
  | .zeroPageX z => word ((z.toNat + r.x.toNat) % 256)
  | .zeroPageY z => word ((z.toNat + r.y.toNat) % 256)
  | .absolute w => w
  | .absoluteX w => word (w.toNat + r.x.toNat)
  | .absoluteY w => word (w.toNat + r.y.toNat)
  | .indexedIndirect z =>
    word (le mem ((z.toNat + r.x.toNat) % 256) ((z.toNat + r.x.toNat + 1) % 256))
  | .indirectIndexed z => word (le mem z.toNat ((z.toNat + 1) % 256) + r.y.toNat)
  | .indirect w => word (le mem w.toNat (w.toNat + 1))
  | .implied | .accumulator | .immediate _ | .relative _ => 0

/-- The operand byte. -/
def operand (r : Regs) (mem : Mem) : AddrMode → Byte
  | .immediate v => v
  | .accumulator => r.a
  | am => mem (ea r mem am)

/-- N and Z from a result. -/
def setNZ (p : ProcessorStatus) (v : Byte) : ProcessorStatus :=
  { p with negative := decide (128 ≤ v.toNat), zero := decide (v.toNat = 0) }

/-- A flag as a number. -/
def bit (c : Bool) : Nat := if c then 1 else 0

/-- The address of a stack byte. -/
def stack (sp : Nat) : Word := word (256 + sp % 256)

/-- Textbook binary addition with carry: result, carry, signed overflow. -/
def addWithCarry (x y : Byte) (c : Bool) : Byte × Bool × Bool :=
  (byte (x.toNat + y.toNat + bit c),
   decide (256 ≤ x.toNat + y.toNat + bit c),
   decide (x.toInt + y.toInt + bit c < -128 ∨ 127 < x.toInt + y.toInt + bit c))

/-- Textbook binary subtraction with borrow: result, carry (no borrow), signed overflow. -/
def subWithBorrow (x y : Byte) (c : Bool) : Byte × Bool × Bool :=
  (byte (x.toNat + 512 - y.toNat - (1 - bit c)),
   decide (y.toNat + (1 - bit c) ≤ x.toNat),
   decide (x.toInt - y.toInt - (1 - bit c : Nat) < -128 ∨ 127 < x.toInt - y.toInt - (1 - bit c : Nat)))

/-- What the emulator sets V to in ADC and SBC (used only in the `_partial` statements): both operands
non-negative and carry in, or both negative and no carry in. -/
def codeOverflow (x y : Byte) (c : Bool) : Bool :=
  (!decide (128 ≤ x.toNat) && !decide (128 ≤ y.toNat) && c) ||
    (decide (128 ≤ x.toNat) && decide (128 ≤ y.toNat) && !c)

/-- Textbook compare: carry, zero, negative. -/
def compare (p : ProcessorStatus) (x y : Byte) : ProcessorStatus :=
  { p with
    carry := decide (y.toNat ≤ x.toNat)
    zero := decide (x = y)
    negative := decide (128 ≤ (x.toNat + 256 - y.toNat) % 256) }

/-- Result and carry of the four shifts; `none` for other instructions. -/
def shift : Mnemonic → Byte → Bool → Option (Byte × Bool)
  | .Asl, v, _ => some (byte (2 * v.toNat), decide (128 ≤ v.toNat))
  | .Lsr, v, _ => some (byte (v.toNat / 2), decide (v.toNat % 2 = 1))
  | .Rol, v, c => some (byte (2 * v.toNat + bit c), decide (128 ≤ v.toNat))
  | .Ror, v, c => some (byte (v.toNat / 2 + 128 * bit c), decide (v.toNat % 2 = 1))
  | _, _, _ => none

/-- Whether a conditional branch is taken; `none` for other instructions. -/
def taken : Mnemonic → ProcessorStatus → Option Bool
  | .Bcc, p => some (!p.carry)
  | .Bcs, p => some p.carry
  | .Bne, p => some (!p.zero)
  | .Beq, p => some p.zero
  | .Bpl, p => some (!p.negative)
  | .Bmi, p => some p.negative
  | .Bvc, p => some (!p.overflow)
  | .Bvs, p => some p.overflow
  | _, _ => none

/-- The documented target of a branch at `pc`: the address of the next instruction plus the signed
displacement. -/
def branchTarget (pc : Word) (d : Byte) : Word := BitVec.ofInt 16 ((pc.toNat : Int) + 2 + d.toInt)

/-- Instructions that read, modify and write a memory byte. -/
def isRmw : Mnemonic → Bool
  | .Asl | .Lsr | .Rol | .Ror | .Inc | .Dec => true
  | _ => false

/-- Instructions that store a register. -/
def isStore : Mnemonic → Bool
  | .Sta | .Stx | .Sty => true
  | _ => false

/-- Cycles of an instruction that reads its operand, without page crossing. -/
def readCycles : AddrMode → Nat
  | .implied | .accumulator | .immediate _ | .relative _ => 2
  | .zeroPage _ => 3
  | .zeroPageX _ | .zeroPageY _ | .absolute _ | .absoluteX _ | .absoluteY _ => 4
  | .indirectIndexed _ | .indirect _ => 5
  | .indexedIndirect _ => 6

/-- Modes in which the index can carry into the high byte of the address. -/
def canCross : AddrMode → Bool
  | .absoluteX _ | .absoluteY _ | .indirectIndexed _ => true
  | _ => false

/-- Does the instruction write to its effective address? (In accumulator mode there is none.) -/
def writesMem (mn : Mnemonic) (am : AddrMode) : Bool :=
  isStore mn || (isRmw mn && am != .accumulator)

/-- The documented cycle count without penalties. -/
def baseCycles (mn : Mnemonic) (am : AddrMode) : Nat :=
  match mn with
  | .Brk => 7
  | .Jsr | .Rts | .Rti => 6
  | .Pla | .Plp => 4
  | .Pha | .Php => 3
  | .Jmp => match am with
    | .indirect _ => 5
    | _ => 3
  | _ => readCycles am + (if isRmw mn && am != .accumulator then 2 else 0) +
      (if writesMem mn am && canCross am then 1 else 0)

/-- Two addresses in different pages. -/
def crosses (x y : Nat) : Nat := if x / 256 = y / 256 then 0 else 1

/-- The documented penalty: one cycle for an indexed read that crosses a page; for branches one if
taken and one more if the target is in another page than the next instruction. -/
def penalty (r : Regs) (mem : Mem) (mn : Mnemonic) (am : AddrMode) : Nat :=
  match am with
  | .relative d =>
    if taken mn r.p = some true then
      1 + crosses (branchTarget r.pc d).toNat ((r.pc.toNat + 2) % 65536)
    else 0
  | am => if canCross am && !writesMem mn am then crosses (baseAddr mem am) (ea r mem am).toNat else 0

/-- The documented number of cycles. -/
def cycles (r : Regs) (mem : Mem) (mn : Mnemonic) (am : AddrMode) : Nat :=
  baseCycles mn am + penalty r mem mn am

/-- `pc` after an instruction that just continues. -/
def nextPc (r : Regs) (am : AddrMode) : Word := word (r.pc.toNat + size am)

/-- The documented registers after ADC in binary mode. -/
def adcRegs (r : Regs) (v : Byte) (am : AddrMode) : Regs :=
  { r with
    a := (addWithCarry r.a v r.p.carry).1
    p := { setNZ r.p (addWithCarry r.a v r.p.carry).1 with
      carry := (addWithCarry r.a v r.p.carry).2.1
      overflow := (addWithCarry r.a v r.p.carry).2.2 }
    pc := nextPc r am }

/-- The documented registers after SBC in binary mode. -/
def sbcRegs (r : Regs) (v : Byte) (am : AddrMode) : Regs :=
  { r with
    a := (subWithBorrow r.a v r.p.carry).1
    p := { setNZ r.p (subWithBorrow r.a v r.p.carry).1 with
      carry := (subWithBorrow r.a v r.p.carry).2.1
      overflow := (subWithBorrow r.a v r.p.carry).2.2 }
    pc := nextPc r am }

/-- The bus reads that happen succeed and show `mem`. -/
def BusView {B : Type} [Addressable B] (b : Build) (bus : B) (mem : Mem) : Prop :=
  ∀ a, Addressable.read b bus a = .ok (mem a)

/-- The address computation does not overflow a machine integer (or the build does not check). -/
def AddrOk (b : Build) (r : Regs) (mem : Mem) : AddrMode → Prop
  | .indexedIndirect _ => b.overflowChecks = false ∨ r.x.toNat ≠ 255
  | .indirectIndexed z => b.overflowChecks = false ∨ baseAddr mem (.indirectIndexed z) + r.y.toNat < 65536
  | .indirect w => b.overflowChecks = false ∨ w.toNat ≠ 65535
  | _ => True

/-- Writing a list of bytes to a bus in order; a refused write stops with the panic of
`Result::unwrap`. -/
def writeAll {B : Type} [Addressable B] (b : Build) : B → List (Word × Byte) → Res B
  | bus, [] => .ok bus
  | bus, (a, v) :: ws =>
    match Addressable.write b bus a v with
    | .error p => .error p
    | .ok (.error e, _) => .error (.unwrapErr e)
    | .ok (.ok _, bus') => writeAll b bus' ws

/-- The instruction at `pc` is `i`: this is what the fetch of the emulator finds. -/
def At {B : Type} [Addressable B] (b : Build) (cpu : Mos6502 B) (i : InstructionVariant) : Prop :=
  fetch b cpu = .ok i

/-- The effect of one instruction: the new registers and the memory writes in order. -/
structure Effect where
  regs : Regs
  writes : List (Word × Byte) := []

/-- One step of the emulator at instruction `i` has exactly the effect `e` on registers and bus,
or panics because the bus refuses one of the writes. -/
def StepHas {B : Type} [Addressable B] (b : Build) (cpu : Mos6502 B) (e : Effect) : Prop :=
  (next b cpu).map Prod.snd = (writeAll b cpu.address_map e.writes).map (withRegs e.regs)

end Verif.Spec.Mos
