import Verif.Model.Rust

/-!
# The external crate `isa-mos6502`

The crate (dependency `isa-mos6502` in `/repo/Cargo.toml`) is not vendored in /repo. The model
contains the part the emulator calls: `parse_instruction`, `ByteSized::byte_size` and
`CycleCost::cycles`. Its contents are the documented NMOS 6502 opcode matrix, as exercised by
`src/cpu/mos6502/tests/` and `src/cpu/mos6502/operations/tests/`; that the crate agrees with it is
part of the trusted base (DESIGN.md).
-/

namespace Verif.Mos

open Verif

/-- The mnemonic types `isa_mos6502::mnemonic::*` used in `src/cpu/mos6502/operations/mod.rs`. -/
inductive Mnemonic where
  | Adc | And | Asl | Bcc | Bcs | Beq | Bit | Bmi | Bne | Bpl
  | Brk | Bvc | Bvs | Clc | Cld | Cli | Clv | Cmp | Cpx | Cpy
  | Dec | Dex | Dey | Eor | Inc | Inx | Iny | Jmp | Jsr | Lda
  | Ldx | Ldy | Lsr | Nop | Ora | Pha | Php | Pla | Plp | Rol
  | Ror | Rti | Rts | Sbc | Sec | Sed | Sei | Sta | Stx | Sty
  | Tax | Tay | Tsx | Txa | Txs | Tya
  deriving DecidableEq, Repr

/-- The addressing-mode types `isa_mos6502::addressing_mode::*` used in
`src/cpu/mos6502/operations/mod.rs`. -/
inductive Mode where
  | Absolute
  | AbsoluteIndexedWithX
  | AbsoluteIndexedWithY
  | Indirect
  | Immediate
  | ZeroPage
  | ZeroPageIndexedWithX
  | ZeroPageIndexedWithY
  | IndirectYIndexed
  | XIndexedIndirect
  | Relative
  | Implied
  | Accumulator
  deriving DecidableEq, Repr

/-- `isa_mos6502::InstructionVariant`: one constructor per documented opcode, with its operand
(dispatched on at `src/cpu/mos6502/operations/mod.rs:338-840`). A `Relative` operand is an `i8`,
given by its bits. -/
inductive InstructionVariant where
  | AdcAbsolute (am : Word)
  | AdcAbsoluteIndexedWithX (am : Word)
  | AdcAbsoluteIndexedWithY (am : Word)
  | AdcIndirectYIndexed (am : Byte)
  | AdcImmediate (am : Byte)
  | AdcXIndexedIndirect (am : Byte)
  | AdcZeroPage (am : Byte)
  | AdcZeroPageIndexedWithX (am : Byte)
  | SbcAbsolute (am : Word)
  | SbcAbsoluteIndexedWithX (am : Word)
  | SbcAbsoluteIndexedWithY (am : Word)
  | SbcIndirectYIndexed (am : Byte)
  | SbcImmediate (am : Byte)
  | SbcXIndexedIndirect (am : Byte)
  | SbcZeroPage (am : Byte)
  | SbcZeroPageIndexedWithX (am : Byte)
  | AndAbsolute (am : Word)
  | AndAbsoluteIndexedWithX (am : Word)
  | AndAbsoluteIndexedWithY (am : Word)
  | AndIndirectYIndexed (am : Byte)
  | AndImmediate (am : Byte)
  | AndXIndexedIndirect (am : Byte)
  | AndZeroPage (am : Byte)
  | AndZeroPageIndexedWithX (am : Byte)
  | AslAbsolute (am : Word)
  | AslAbsoluteIndexedWithX (am : Word)
  | AslAccumulator
  | AslZeroPage (am : Byte)
  | AslZeroPageIndexedWithX (am : Byte)
  | BitAbsolute (am : Word)
  | BitZeroPage (am : Byte)
  | EorAbsolute (am : Word)
  | EorAbsoluteIndexedWithX (am : Word)
  | EorAbsoluteIndexedWithY (am : Word)
  | EorIndirectYIndexed (am : Byte)
  | EorImmediate (am : Byte)
  | EorXIndexedIndirect (am : Byte)
  | EorZeroPage (am : Byte)
  | EorZeroPageIndexedWithX (am : Byte)
  | LsrAbsolute (am : Word)
  | LsrAbsoluteIndexedWithX (am : Word)
  | LsrAccumulator
  | LsrZeroPage (am : Byte)
  | LsrZeroPageIndexedWithX (am : Byte)
  | OraAbsolute (am : Word)
  | OraAbsoluteIndexedWithX (am : Word)
  | OraAbsoluteIndexedWithY (am : Word)
  | OraIndirectYIndexed (am : Byte)
  | OraImmediate (am : Byte)
  | OraXIndexedIndirect (am : Byte)
  | OraZeroPage (am : Byte)
  | OraZeroPageIndexedWithX (am : Byte)
  | RolAbsolute (am : Word)
  | RolAbsoluteIndexedWithX (am : Word)
  | RolAccumulator
  | RolZeroPage (am : Byte)
  | RolZeroPageIndexedWithX (am : Byte)
  | RorAbsolute (am : Word)
  | RorAbsoluteIndexedWithX (am : Word)
  | RorAccumulator
  | RorZeroPage (am : Byte)
  | RorZeroPageIndexedWithX (am : Byte)
  | BccRelative (am : Byte)
  | BcsRelative (am : Byte)
  | BeqRelative (am : Byte)
  | BmiRelative (am : Byte)
  | BneRelative (am : Byte)
  | BplRelative (am : Byte)
  | BvcRelative (am : Byte)
  | BvsRelative (am : Byte)
  | ClcImplied
  | CldImplied
  | CliImplied
  | ClvImplied
  | CmpAbsolute (am : Word)
  | CmpAbsoluteIndexedWithX (am : Word)
  | CmpAbsoluteIndexedWithY (am : Word)
  | CmpIndirectYIndexed (am : Byte)
  | CmpImmediate (am : Byte)
  | CmpXIndexedIndirect (am : Byte)
  | CmpZeroPage (am : Byte)
  | CmpZeroPageIndexedWithX (am : Byte)
  | CpxAbsolute (am : Word)
  | CpxImmediate (am : Byte)
  | CpxZeroPage (am : Byte)
  | CpyAbsolute (am : Word)
  | CpyImmediate (am : Byte)
  | CpyZeroPage (am : Byte)
  | DecAbsolute (am : Word)
  | DecAbsoluteIndexedWithX (am : Word)
  | DecZeroPage (am : Byte)
  | DecZeroPageIndexedWithX (am : Byte)
  | DexImplied
  | DeyImplied
  | IncAbsolute (am : Word)
  | IncAbsoluteIndexedWithX (am : Word)
  | IncZeroPage (am : Byte)
  | IncZeroPageIndexedWithX (am : Byte)
  | InxImplied
  | InyImplied
  | JmpAbsolute (am : Word)
  | JmpIndirect (am : Word)
  | JsrAbsolute (am : Word)
  | LdaImmediate (am : Byte)
  | LdaZeroPage (am : Byte)
  | LdaZeroPageIndexedWithX (am : Byte)
  | LdaAbsolute (am : Word)
  | LdaAbsoluteIndexedWithX (am : Word)
  | LdaAbsoluteIndexedWithY (am : Word)
  | LdaIndirectYIndexed (am : Byte)
  | LdaXIndexedIndirect (am : Byte)
  | LdxAbsolute (am : Word)
  | LdxAbsoluteIndexedWithY (am : Word)
  | LdxImmediate (am : Byte)
  | LdxZeroPage (am : Byte)
  | LdxZeroPageIndexedWithY (am : Byte)
  | LdyAbsolute (am : Word)
  | LdyAbsoluteIndexedWithX (am : Word)
  | LdyImmediate (am : Byte)
  | LdyZeroPage (am : Byte)
  | LdyZeroPageIndexedWithX (am : Byte)
  | PhaImplied
  | PhpImplied
  | PlaImplied
  | PlpImplied
  | RtiImplied
  | RtsImplied
  | SecImplied
  | SedImplied
  | SeiImplied
  | StaAbsolute (am : Word)
  | StaAbsoluteIndexedWithX (am : Word)
  | StaAbsoluteIndexedWithY (am : Word)
  | StaIndirectYIndexed (am : Byte)
  | StaXIndexedIndirect (am : Byte)
  | StaZeroPage (am : Byte)
  | StaZeroPageIndexedWithX (am : Byte)
  | StxAbsolute (am : Word)
  | StxZeroPage (am : Byte)
  | StxZeroPageIndexedWithY (am : Byte)
  | StyAbsolute (am : Word)
  | StyZeroPage (am : Byte)
  | StyZeroPageIndexedWithX (am : Byte)
  | TaxImplied
  | TayImplied
  | TsxImplied
  | TxaImplied
  | TxsImplied
  | TyaImplied
  | BrkImplied
  | NopImplied
  deriving DecidableEq, Repr

namespace Isa

/-- `Offset for Instruction<M, A>`, `src/cpu/mos6502/operations/mod.rs:854-863`: the byte size of the
mnemonic (1) plus that of the addressing mode. -/
def offset (_ : Mnemonic) : Mode → Nat
  | .Implied => 1
  | .Accumulator => 1
  | .Immediate => 2
  | .ZeroPage => 2
  | .ZeroPageIndexedWithX => 2
  | .ZeroPageIndexedWithY => 2
  | .IndirectYIndexed => 2
  | .XIndexedIndirect => 2
  | .Relative => 2
  | .Absolute => 3
  | .AbsoluteIndexedWithX => 3
  | .AbsoluteIndexedWithY => 3
  | .Indirect => 3

/-- `Cyclable for Instruction<M, A>`, `src/cpu/mos6502/operations/mod.rs:865-874`, that is the
crate's `CycleCost::cycles`: the documented base cycle count. Combinations that are not
instructions get the count of their class. -/
def cycles : Mnemonic → Mode → Nat
  | .Brk, _ => 7
  | .Jsr, _ => 6
  | .Rts, _ => 6
  | .Rti, _ => 6
  | .Pha, _ => 3
  | .Php, _ => 3
  | .Pla, _ => 4
  | .Plp, _ => 4
  | .Jmp, .Indirect => 5
  | .Jmp, _ => 3
  | .Sta, .AbsoluteIndexedWithX => 5
  | .Sta, .AbsoluteIndexedWithY => 5
  | .Sta, .IndirectYIndexed => 6
  | .Asl, .ZeroPage => 5
  | .Asl, .ZeroPageIndexedWithX => 6
  | .Asl, .Absolute => 6
  | .Asl, .AbsoluteIndexedWithX => 7
  | .Lsr, .ZeroPage => 5
  | .Lsr, .ZeroPageIndexedWithX => 6
  | .Lsr, .Absolute => 6
  | .Lsr, .AbsoluteIndexedWithX => 7
  | .Rol, .ZeroPage => 5
  | .Rol, .ZeroPageIndexedWithX => 6
  | .Rol, .Absolute => 6
  | .Rol, .AbsoluteIndexedWithX => 7
  | .Ror, .ZeroPage => 5
  | .Ror, .ZeroPageIndexedWithX => 6
  | .Ror, .Absolute => 6
  | .Ror, .AbsoluteIndexedWithX => 7
  | .Inc, .ZeroPage => 5
  | .Inc, .ZeroPageIndexedWithX => 6
  | .Inc, .Absolute => 6
  | .Inc, .AbsoluteIndexedWithX => 7
  | .Dec, .ZeroPage => 5
  | .Dec, .ZeroPageIndexedWithX => 6
  | .Dec, .Absolute => 6
  | .Dec, .AbsoluteIndexedWithX => 7
  | _, .Implied => 2
  | _, .Accumulator => 2
  | _, .Immediate => 2
  | _, .Relative => 2
  | _, .ZeroPage => 3
  | _, .ZeroPageIndexedWithX => 4
  | _, .ZeroPageIndexedWithY => 4
  | _, .Absolute => 4
  | _, .AbsoluteIndexedWithX => 4
  | _, .AbsoluteIndexedWithY => 4
  | _, .IndirectYIndexed => 5
  | _, .XIndexedIndirect => 6
  | _, .Indirect => 5

/-- `isa_mos6502::parse_instruction`, called at `src/cpu/mos6502/mod.rs:266`: the documented opcode
matrix; 16-bit operands are little-endian; `None` on the 105 undocumented opcodes. -/
def parseInstruction (b0 b1 b2 : Byte) : Option InstructionVariant :=
  match b0.toNat with
  | 0x00 => some .BrkImplied
  | 0x01 => some (.OraXIndexedIndirect b1)
  | 0x05 => some (.OraZeroPage b1)
  | 0x06 => some (.AslZeroPage b1)
  | 0x08 => some .PhpImplied
  | 0x09 => some (.OraImmediate b1)
  | 0x0a => some .AslAccumulator
  | 0x0d => some (.OraAbsolute (u16FromLeBytes b1 b2))
  | 0x0e => some (.AslAbsolute (u16FromLeBytes b1 b2))
  | 0x10 => some (.BplRelative b1)
  | 0x11 => some (.OraIndirectYIndexed b1)
  | 0x15 => some (.OraZeroPageIndexedWithX b1)
  | 0x16 => some (.AslZeroPageIndexedWithX b1)
  | 0x18 => some .ClcImplied
  | 0x19 => some (.OraAbsoluteIndexedWithY (u16FromLeBytes b1 b2))
  | 0x1d => some (.OraAbsoluteIndexedWithX (u16FromLeBytes b1 b2))
  | 0x1e => some (.AslAbsoluteIndexedWithX (u16FromLeBytes b1 b2))
  | 0x20 => some (.JsrAbsolute (u16FromLeBytes b1 b2))
  | 0x21 => some (.AndXIndexedIndirect b1)
  | 0x24 => some (.BitZeroPage b1)
  | 0x25 => some (.AndZeroPage b1)
  | 0x26 => some (.RolZeroPage b1)
  | 0x28 => some .PlpImplied
  | 0x29 => some (.AndImmediate b1)
  | 0x2a => some .RolAccumulator
  | 0x2c => some (.BitAbsolute (u16FromLeBytes b1 b2))
  | 0x2d => some (.AndAbsolute (u16FromLeBytes b1 b2))
  | 0x2e => some (.RolAbsolute (u16FromLeBytes b1 b2))
  | 0x30 => some (.BmiRelative b1)
  | 0x31 => some (.AndIndirectYIndexed b1)
  | 0x35 => some (.AndZeroPageIndexedWithX b1)
  | 0x36 => some (.RolZeroPageIndexedWithX b1)
  | 0x38 => some .SecImplied
  | 0x39 => some (.AndAbsoluteIndexedWithY (u16FromLeBytes b1 b2))
  | 0x3d => some (.AndAbsoluteIndexedWithX (u16FromLeBytes b1 b2))
  | 0x3e => some (.RolAbsoluteIndexedWithX (u16FromLeBytes b1 b2))
  | 0x40 => some .RtiImplied
  | 0x41 => some (.EorXIndexedIndirect b1)
  | 0x45 => some (.EorZeroPage b1)
  | 0x46 => some (.LsrZeroPage b1)
  | 0x48 => some .PhaImplied
  | 0x49 => some (.EorImmediate b1)
  | 0x4a => some .LsrAccumulator
  | 0x4c => some (.JmpAbsolute (u16FromLeBytes b1 b2))
  | 0x4d => some (.EorAbsolute (u16FromLeBytes b1 b2))
  | 0x4e => some (.LsrAbsolute (u16FromLeBytes b1 b2))
  | 0x50 => some (.BvcRelative b1)
  | 0x51 => some (.EorIndirectYIndexed b1)
  | 0x55 => some (.EorZeroPageIndexedWithX b1)
  | 0x56 => some (.LsrZeroPageIndexedWithX b1)
  | 0x58 => some .CliImplied
  | 0x59 => some (.EorAbsoluteIndexedWithY (u16FromLeBytes b1 b2))
  | 0x5d => some (.EorAbsoluteIndexedWithX (u16FromLeBytes b1 b2))
  | 0x5e => some (.LsrAbsoluteIndexedWithX (u16FromLeBytes b1 b2))
  | 0x60 => some .RtsImplied
  | 0x61 => some (.AdcXIndexedIndirect b1)
  | 0x65 => some (.AdcZeroPage b1)
  | 0x66 => some (.RorZeroPage b1)
  | 0x68 => some .PlaImplied
  | 0x69 => some (.AdcImmediate b1)
  | 0x6a => some .RorAccumulator
  | 0x6c => some (.JmpIndirect (u16FromLeBytes b1 b2))
  | 0x6d => some (.AdcAbsolute (u16FromLeBytes b1 b2))
  | 0x6e => some (.RorAbsolute (u16FromLeBytes b1 b2))
  | 0x70 => some (.BvsRelative b1)
  | 0x71 => some (.AdcIndirectYIndexed b1)
  | 0x75 => some (.AdcZeroPageIndexedWithX b1)
  | 0x76 => some (.RorZeroPageIndexedWithX b1)
  | 0x78 => some .SeiImplied
  | 0x79 => some (.AdcAbsoluteIndexedWithY (u16FromLeBytes b1 b2))
  | 0x7d => some (.AdcAbsoluteIndexedWithX (u16FromLeBytes b1 b2))
  | 0x7e => some (.RorAbsoluteIndexedWithX (u16FromLeBytes b1 b2))
  | 0x81 => some (.StaXIndexedIndirect b1)
  | 0x84 => some (.StyZeroPage b1)
  | 0x85 => some (.StaZeroPage b1)
  | 0x86 => some (.StxZeroPage b1)
  | 0x88 => some .DeyImplied
  | 0x8a => some .TxaImplied
  | 0x8c => some (.StyAbsolute (u16FromLeBytes b1 b2))
  | 0x8d => some (.StaAbsolute (u16FromLeBytes b1 b2))
  | 0x8e => some (.StxAbsolute (u16FromLeBytes b1 b2))
  | 0x90 => some (.BccRelative b1)
  | 0x91 => some (.StaIndirectYIndexed b1)
  | 0x94 => some (.StyZeroPageIndexedWithX b1)
  | 0x95 => some (.StaZeroPageIndexedWithX b1)
  | 0x96 => some (.StxZeroPageIndexedWithY b1)
  | 0x98 => some .TyaImplied
  | 0x99 => some (.StaAbsoluteIndexedWithY (u16FromLeBytes b1 b2))
  | 0x9a => some .TxsImplied
  | 0x9d => some (.StaAbsoluteIndexedWithX (u16FromLeBytes b1 b2))
  | 0xa0 => some (.LdyImmediate b1)
  | 0xa1 => some (.LdaXIndexedIndirect b1)
  | 0xa2 => some (.LdxImmediate b1)
  | 0xa4 => some (.LdyZeroPage b1)
  | 0xa5 => some (.LdaZeroPage b1)
  | 0xa6 => some (.LdxZeroPage b1)
  | 0xa8 => some .TayImplied
  | 0xa9 => some (.LdaImmediate b1)
  | 0xaa => some .TaxImplied
  | 0xac => some (.LdyAbsolute (u16FromLeBytes b1 b2))
  | 0xad => some (.LdaAbsolute (u16FromLeBytes b1 b2))
  | 0xae => some (.LdxAbsolute (u16FromLeBytes b1 b2))
  | 0xb0 => some (.BcsRelative b1)
  | 0xb1 => some (.LdaIndirectYIndexed b1)
  | 0xb4 => some (.LdyZeroPageIndexedWithX b1)
  | 0xb5 => some (.LdaZeroPageIndexedWithX b1)
  | 0xb6 => some (.LdxZeroPageIndexedWithY b1)
  | 0xb8 => some .ClvImplied
  | 0xb9 => some (.LdaAbsoluteIndexedWithY (u16FromLeBytes b1 b2))
  | 0xba => some .TsxImplied
  | 0xbc => some (.LdyAbsoluteIndexedWithX (u16FromLeBytes b1 b2))
  | 0xbd => some (.LdaAbsoluteIndexedWithX (u16FromLeBytes b1 b2))
  | 0xbe => some (.LdxAbsoluteIndexedWithY (u16FromLeBytes b1 b2))
  | 0xc0 => some (.CpyImmediate b1)
  | 0xc1 => some (.CmpXIndexedIndirect b1)
  | 0xc4 => some (.CpyZeroPage b1)
  | 0xc5 => some (.CmpZeroPage b1)
  | 0xc6 => some (.DecZeroPage b1)
  | 0xc8 => some .InyImplied
  | 0xc9 => some (.CmpImmediate b1)
  | 0xca => some .DexImplied
  | 0xcc => some (.CpyAbsolute (u16FromLeBytes b1 b2))
  | 0xcd => some (.CmpAbsolute (u16FromLeBytes b1 b2))
  | 0xce => some (.DecAbsolute (u16FromLeBytes b1 b2))
  | 0xd0 => some (.BneRelative b1)
  | 0xd1 => some (.CmpIndirectYIndexed b1)
  | 0xd5 => some (.CmpZeroPageIndexedWithX b1)
  | 0xd6 => some (.DecZeroPageIndexedWithX b1)
  | 0xd8 => some .CldImplied
  | 0xd9 => some (.CmpAbsoluteIndexedWithY (u16FromLeBytes b1 b2))
  | 0xdd => some (.CmpAbsoluteIndexedWithX (u16FromLeBytes b1 b2))
  | 0xde => some (.DecAbsoluteIndexedWithX (u16FromLeBytes b1 b2))
  | 0xe0 => some (.CpxImmediate b1)
  | 0xe1 => some (.SbcXIndexedIndirect b1)
  | 0xe4 => some (.CpxZeroPage b1)
  | 0xe5 => some (.SbcZeroPage b1)
  | 0xe6 => some (.IncZeroPage b1)
  | 0xe8 => some .InxImplied
  | 0xe9 => some (.SbcImmediate b1)
  | 0xea => some .NopImplied
  | 0xec => some (.CpxAbsolute (u16FromLeBytes b1 b2))
  | 0xed => some (.SbcAbsolute (u16FromLeBytes b1 b2))
  | 0xee => some (.IncAbsolute (u16FromLeBytes b1 b2))
  | 0xf0 => some (.BeqRelative b1)
  | 0xf1 => some (.SbcIndirectYIndexed b1)
  | 0xf5 => some (.SbcZeroPageIndexedWithX b1)
  | 0xf6 => some (.IncZeroPageIndexedWithX b1)
  | 0xf8 => some .SedImplied
  | 0xf9 => some (.SbcAbsoluteIndexedWithY (u16FromLeBytes b1 b2))
  | 0xfd => some (.SbcAbsoluteIndexedWithX (u16FromLeBytes b1 b2))
  | 0xfe => some (.IncAbsoluteIndexedWithX (u16FromLeBytes b1 b2))
  | _ => none

end Isa

end Verif.Mos
