import Verif.Spec.Relocate

/-!
# What a 6502 instruction uses and what it sets

The state of a machine as a family of bytes, the parts of it an instruction looks at, and the parts it
gives a new value. Used for the question which parts of the state can influence an execution.
-/

namespace Verif.Spec.Mos

open Verif Verif.Mos

/-- The parts of the state besides the program counter. -/
inductive Part where
  | a
  | x
  | y
  | sp
  | flag (f : ProgramStatusFlags)
  /-- bit 5 of the status -/
  | unused
  | mem (address : Word)
  deriving DecidableEq

/-- A bit as a byte. -/
def bitByte (v : Bool) : Byte := if v then 1 else 0

/-- The value of a part. -/
def value (r : Regs) (mem : Mem) : Part → Byte
  | .a => r.a
  | .x => r.x
  | .y => r.y
  | .sp => r.sp
  | .flag .Negative => bitByte r.p.negative
  | .flag .Overflow => bitByte r.p.overflow
  | .flag .Break => bitByte r.p.brk
  | .flag .Decimal => bitByte r.p.decimal
  | .flag .Interrupt => bitByte r.p.interrupt_disable
  | .flag .Zero => bitByte r.p.zero
  | .flag .Carry => bitByte r.p.carry
  | .unused => bitByte r.p.unused
  | .mem a => mem a

/-- The same program counter, and the same values of all parts outside `D`. -/
structure Agree (D : Part → Prop) (r r' : Regs) (mem mem' : Mem) : Prop where
  pc : r'.pc = r.pc
  value : ∀ p, ¬D p → value r' mem' p = value r mem p

/-- The whole status. -/
def statusParts : List Part :=
  [.flag .Negative, .flag .Overflow, .unused, .flag .Break, .flag .Decimal, .flag .Interrupt, .flag .Zero,
    .flag .Carry]

/-- What the addressing mode looks at. -/
def modeUses : AddrMode → List Part
  | .accumulator => [.a]
  | .zeroPageX _ | .absoluteX _ => [.x]
  | .zeroPageY _ | .absoluteY _ => [.y]
  | .indirect w => [.mem w, .mem (word (w.toNat + 1))]
  | _ => []

/-- The pointer of an indirect mode. -/
def pointerUses (r : Regs) : AddrMode → List Part
  | .indexedIndirect z =>
    [.x, .mem (word ((z.toNat + r.x.toNat) % 256)), .mem (word ((z.toNat + r.x.toNat + 1) % 256))]
  | .indirectIndexed z => [.y, .mem (word z.toNat), .mem (word ((z.toNat + 1) % 256))]
  | _ => []

/-- The byte an instruction works on, if it is in memory. -/
def operandUses (r : Regs) (mem : Mem) (mn : Mnemonic) (am : AddrMode) : List Part :=
  match mn, am with
  | _, .implied | _, .accumulator | _, .immediate _ | _, .relative _ => []
  | .Adc, _ | .Sbc, _ | .And, _ | .Ora, _ | .Eor, _ | .Bit, _ | .Asl, _ | .Lsr, _ | .Rol, _ | .Ror, _
  | .Cmp, _ | .Cpx, _ | .Cpy, _ | .Dec, _ | .Inc, _ | .Lda, _ | .Ldx, _ | .Ldy, _ => [.mem (ea r mem am)]
  | _, _ => []

/-- What the mnemonic stands for looks at. The decimal flag is not used by `ADC` and `SBC`; `DEY` looks at
X as well (it sets the flags from X - 1). -/
def mnemonicUses (r : Regs) : Mnemonic → List Part
  | .Adc | .Sbc => [.a, .flag .Carry]
  | .And | .Ora | .Eor | .Bit | .Cmp | .Sta | .Tax | .Tay => [.a]
  | .Rol | .Ror | .Bcc | .Bcs => [.flag .Carry]
  | .Beq | .Bne => [.flag .Zero]
  | .Bmi | .Bpl => [.flag .Negative]
  | .Bvc | .Bvs => [.flag .Overflow]
  | .Cpx | .Stx | .Txa | .Txs | .Inx | .Dex => [.x]
  | .Cpy | .Sty | .Tya | .Iny => [.y]
  | .Dey => [.x, .y]
  | .Tsx | .Jsr => [.sp]
  | .Pha => [.a, .sp]
  | .Php => .sp :: statusParts
  | .Pla | .Plp => [.sp, .mem (stack (r.sp.toNat + 1))]
  | .Rts => [.sp, .mem (stack (r.sp.toNat + 1)), .mem (stack (r.sp.toNat + 2))]
  | .Rti =>
    [.sp, .mem (stack (r.sp.toNat + 1)), .mem (stack (r.sp.toNat + 2)), .mem (stack (r.sp.toNat + 3))]
  | .Brk => .sp :: .mem 0xfffe :: .mem 0xffff :: statusParts
  | _ => []

/-- The instruction itself. -/
def ownBytes (r : Regs) (am : AddrMode) : List Part :=
  (List.range (size am)).map fun k => .mem (word (r.pc.toNat + k))

/-- What an instruction looks at besides the program counter and its own bytes. -/
def dataUses (r : Regs) (mem : Mem) (i : InstructionVariant) : List Part :=
  modeUses (view i).2 ++ pointerUses r (view i).2 ++ operandUses r mem (view i).1 (view i).2 ++
    mnemonicUses r (view i).1

/-- All that an instruction looks at besides the program counter. -/
def uses (r : Regs) (mem : Mem) (i : InstructionVariant) : List Part :=
  ownBytes r (view i).2 ++ modeUses (view i).2 ++ pointerUses r (view i).2 ++
    operandUses r mem (view i).1 (view i).2 ++ mnemonicUses r (view i).1

/-- The registers and flags an instruction gives a value. -/
def registersSet (am : AddrMode) : Mnemonic → List Part
  | .Adc | .Sbc => [.a, .flag .Negative, .flag .Overflow, .flag .Zero, .flag .Carry]
  | .And | .Ora | .Eor | .Lda | .Txa | .Tya => [.a, .flag .Negative, .flag .Zero]
  | .Pla => [.a, .sp, .flag .Negative, .flag .Zero]
  | .Asl | .Lsr | .Rol | .Ror =>
    (if am = .accumulator then [.a] else []) ++ [.flag .Negative, .flag .Zero, .flag .Carry]
  | .Cmp | .Cpx | .Cpy => [.flag .Negative, .flag .Zero, .flag .Carry]
  | .Ldx | .Tax | .Tsx | .Inx | .Dex => [.x, .flag .Negative, .flag .Zero]
  | .Ldy | .Tay | .Iny | .Dey => [.y, .flag .Negative, .flag .Zero]
  | .Inc | .Dec => [.flag .Negative, .flag .Zero]
  | .Bit => [.flag .Negative, .flag .Overflow, .flag .Zero]
  | .Clc | .Sec => [.flag .Carry]
  | .Cld | .Sed => [.flag .Decimal]
  | .Cli | .Sei => [.flag .Interrupt]
  | .Clv => [.flag .Overflow]
  | .Txs | .Pha | .Php | .Jsr | .Rts => [.sp]
  | .Brk => [.sp, .flag .Break, .flag .Interrupt]
  | .Plp | .Rti => .sp :: statusParts
  | _ => []

/-- All that an instruction gives a value besides the program counter. -/
def sets (r : Regs) (mem : Mem) (i : InstructionVariant) : List Part :=
  registersSet (view i).2 (view i).1 ++ (writable r mem (view i).1 (view i).2).map .mem

/-- Along the execution no instruction looks at what may differ, `D` at its start: what an instruction sets
no longer differs. At its end, `D'` may differ. -/
inductive Unseen {B : Type} (I : B → Mem → Prop) :
    (Part → Prop) → List (Mos6502 B × InstructionVariant) → (Part → Prop) → Prop
  | nil {D} : Unseen I D [] D
  | cons {D D' : Part → Prop} {c : Mos6502 B} {i : InstructionVariant} {mem : Mem}
      {tr : List (Mos6502 B × InstructionVariant)} : I c.address_map mem →
      (∀ p ∈ uses (regs c) mem i, ¬D p) →
      Unseen I (fun p => D p ∧ p ∉ sets (regs c) mem i) tr D' → Unseen I D ((c, i) :: tr) D'

end Verif.Spec.Mos
