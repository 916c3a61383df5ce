import Verif.Spec.MosOpcodes
import Verif.Spec.MosStack

/-!
# A complete reference 6502

The textbook machine as one interpreter: decoding by the opcode matrix (`documented`), the effect of
every instruction (`textbook`) and its cycle count (`cycles`). It follows the MOS data sheet:

* bits 4 and 5 of the status register do not exist; they read as 1 when PHP or BRK pushes it, and
  PLP and RTI ignore them;
* `JMP (w)` takes its high byte from `w + 1` (the chip's page-wrap erratum is not part of the data
  sheet);
* ADC and SBC are described in binary mode only: with D set there is no reference (`none`).
-/

namespace Verif.Spec.Mos

open Verif Verif.Mos

/-- The registers as the chip has them: bits 4 and 5 of the status read as 1. -/
def chip (r : Regs) : Regs := { r with p := { r.p with brk := true, unused := true } }

/-- The status register as pushed by PHP and BRK. -/
def statusByte (p : ProcessorStatus) : Byte :=
  byte (128 * bit p.negative + 64 * bit p.overflow + 32 + 16 + 8 * bit p.decimal +
    4 * bit p.interrupt_disable + 2 * bit p.zero + bit p.carry)

/-- The status register as pulled by PLP and RTI. -/
def ofStatusByte (v : Byte) : ProcessorStatus where
  negative := v.getLsbD 7
  overflow := v.getLsbD 6
  unused := true
  brk := true
  decimal := v.getLsbD 3
  interrupt_disable := v.getLsbD 2
  zero := v.getLsbD 1
  carry := v.getLsbD 0

/-- Effect of a shift or rotate. -/
def shiftTo (r : Regs) (mem : Mem) (am : AddrMode) : Option (Byte × Bool) → Option Effect
  | none => none
  | some (v, c) =>
    if am = .accumulator then
      some { regs := { r with a := v, p := { setNZ r.p v with carry := c }, pc := nextPc r am } }
    else
      some { regs := { r with p := { setNZ r.p v with carry := c }, pc := nextPc r am }
             writes := [(ea r mem am, v)] }

/-- Effect of a conditional branch. -/
def branchTo (r : Regs) (am : AddrMode) : Option Bool → Option Effect
  | none => none
  | some t => match am with
    | .relative d => some { regs := { r with pc := if t then branchTarget r.pc d else nextPc r am } }
    | _ => none

/-- The documented effect of every instruction. -/
def textbook (r : Regs) (mem : Mem) (mn : Mnemonic) (am : AddrMode) : Option Effect :=
  let v := operand r mem am
  let e := ea r mem am
  let pc := nextPc r am
  let pulled (k : Nat) : Byte := mem (stack (r.sp.toNat + k))
  match mn with
  | .Adc => if r.p.decimal then none else some { regs := adcRegs r v am }
  | .Sbc => if r.p.decimal then none else some { regs := sbcRegs r v am }
  | .And => some { regs := { r with a := r.a &&& v, p := setNZ r.p (r.a &&& v), pc := pc } }
  | .Ora => some { regs := { r with a := r.a ||| v, p := setNZ r.p (r.a ||| v), pc := pc } }
  | .Eor => some { regs := { r with a := r.a ^^^ v, p := setNZ r.p (r.a ^^^ v), pc := pc } }
  | .Bit => some { regs := { r with
      p := { r.p with
        negative := v.getLsbD 7
        overflow := v.getLsbD 6
        zero := decide ((r.a &&& v).toNat = 0) }
      pc := pc } }
  | .Asl => shiftTo r mem am (shift .Asl v r.p.carry)
  | .Lsr => shiftTo r mem am (shift .Lsr v r.p.carry)
  | .Rol => shiftTo r mem am (shift .Rol v r.p.carry)
  | .Ror => shiftTo r mem am (shift .Ror v r.p.carry)
  | .Bcc => branchTo r am (taken .Bcc r.p)
  | .Bcs => branchTo r am (taken .Bcs r.p)
  | .Bne => branchTo r am (taken .Bne r.p)
  | .Beq => branchTo r am (taken .Beq r.p)
  | .Bpl => branchTo r am (taken .Bpl r.p)
  | .Bmi => branchTo r am (taken .Bmi r.p)
  | .Bvc => branchTo r am (taken .Bvc r.p)
  | .Bvs => branchTo r am (taken .Bvs r.p)
  | .Clc => some { regs := { r with p := { r.p with carry := false }, pc := pc } }
  | .Cld => some { regs := { r with p := { r.p with decimal := false }, pc := pc } }
  | .Cli => some { regs := { r with p := { r.p with interrupt_disable := false }, pc := pc } }
  | .Clv => some { regs := { r with p := { r.p with overflow := false }, pc := pc } }
  | .Sec => some { regs := { r with p := { r.p with carry := true }, pc := pc } }
  | .Sed => some { regs := { r with p := { r.p with decimal := true }, pc := pc } }
  | .Sei => some { regs := { r with p := { r.p with interrupt_disable := true }, pc := pc } }
  | .Cmp => some { regs := { r with p := compare r.p r.a v, pc := pc } }
  | .Cpx => some { regs := { r with p := compare r.p r.x v, pc := pc } }
  | .Cpy => some { regs := { r with p := compare r.p r.y v, pc := pc } }
  | .Dec => some { regs := { r with p := setNZ r.p (byte (v.toNat + 255)), pc := pc }
                   writes := [(e, byte (v.toNat + 255))] }
  | .Inc => some { regs := { r with p := setNZ r.p (byte (v.toNat + 1)), pc := pc }
                   writes := [(e, byte (v.toNat + 1))] }
  | .Dex => some { regs := { r with
      x := byte (r.x.toNat + 255), p := setNZ r.p (byte (r.x.toNat + 255)), pc := pc } }
  | .Dey => some { regs := { r with
      y := byte (r.y.toNat + 255), p := setNZ r.p (byte (r.y.toNat + 255)), pc := pc } }
  | .Inx => some { regs := { r with
      x := byte (r.x.toNat + 1), p := setNZ r.p (byte (r.x.toNat + 1)), pc := pc } }
  | .Iny => some { regs := { r with
      y := byte (r.y.toNat + 1), p := setNZ r.p (byte (r.y.toNat + 1)), pc := pc } }
  | .Jmp => some { regs := { r with pc := e } }
  | .Jsr => some {
      regs := { r with sp := byte (r.sp.toNat + 254), pc := e }
      writes := [(stack r.sp.toNat, byte ((r.pc.toNat + 2) % 65536 / 256)),
        (stack (r.sp.toNat + 255), byte (r.pc.toNat + 2))] }
  | .Lda => some { regs := { r with a := v, p := setNZ r.p v, pc := pc } }
  | .Ldx => some { regs := { r with x := v, p := setNZ r.p v, pc := pc } }
  | .Ldy => some { regs := { r with y := v, p := setNZ r.p v, pc := pc } }
  | .Nop => some { regs := { r with pc := pc } }
  | .Pha => some { regs := { r with sp := byte (r.sp.toNat + 255), pc := pc }
                   writes := [(stack r.sp.toNat, r.a)] }
  | .Php => some { regs := { r with sp := byte (r.sp.toNat + 255), pc := pc }
                   writes := [(stack r.sp.toNat, statusByte r.p)] }
  | .Pla => some { regs := { r with
      a := pulled 1, sp := byte (r.sp.toNat + 1), p := setNZ r.p (pulled 1), pc := pc } }
  | .Plp => some { regs := { r with
      sp := byte (r.sp.toNat + 1), p := ofStatusByte (pulled 1), pc := pc } }
  | .Rts => some { regs := { r with
      sp := byte (r.sp.toNat + 2)
      pc := word ((pulled 1).toNat + 256 * (pulled 2).toNat + 1) } }
  | .Rti => some { regs := { r with
      sp := byte (r.sp.toNat + 3)
      p := ofStatusByte (pulled 1)
      pc := word ((pulled 2).toNat + 256 * (pulled 3).toNat) } }
  | .Brk => some {
      regs := { r with
        sp := byte (r.sp.toNat + 253)
        p := { r.p with interrupt_disable := true }
        pc := word (le mem 0xfffe 0xffff) }
      writes := [(stack r.sp.toNat, byte ((r.pc.toNat + 2) % 65536 / 256)),
        (stack (r.sp.toNat + 255), byte (r.pc.toNat + 2)),
        (stack (r.sp.toNat + 254), statusByte r.p)] }
  | .Sta => some { regs := { r with pc := pc }, writes := [(e, r.a)] }
  | .Stx => some { regs := { r with pc := pc }, writes := [(e, r.x)] }
  | .Sty => some { regs := { r with pc := pc }, writes := [(e, r.y)] }
  | .Tax => some { regs := { r with x := r.a, p := setNZ r.p r.a, pc := pc } }
  | .Tay => some { regs := { r with y := r.a, p := setNZ r.p r.a, pc := pc } }
  | .Tsx => some { regs := { r with x := r.sp, p := setNZ r.p r.sp, pc := pc } }
  | .Txa => some { regs := { r with a := r.x, p := setNZ r.p r.x, pc := pc } }
  | .Txs => some { regs := { r with sp := r.x, pc := pc } }
  | .Tya => some { regs := { r with a := r.y, p := setNZ r.p r.y, pc := pc } }

/-- Memory after a list of writes. -/
def store (mem : Mem) (ws : List (Word × Byte)) : Mem := ws.foldl (fun m w => upd m w.1 w.2) mem

/-- The state of the reference machine. -/
structure Chip where
  regs : Regs
  mem : Mem

/-- The instruction the reference machine is in front of. -/
def Chip.instr (s : Chip) : Option (Mnemonic × AddrMode) :=
  documented (s.mem s.regs.pc).toNat (s.mem (word (s.regs.pc.toNat + 1)))
    (s.mem (word (s.regs.pc.toNat + 2)))

/-- One instruction of the reference machine and its cycles; `none` at an undocumented opcode or ADC
and SBC in decimal mode. -/
def Chip.step (s : Chip) : Option (Chip × Nat) :=
  match s.instr with
  | none => none
  | some (mn, am) => match textbook s.regs s.mem mn am with
    | none => none
    | some e => some (⟨e.regs, store s.mem e.writes⟩, cycles s.regs s.mem mn am)

/-- `k` instructions of the reference machine and their cycles. -/
def Chip.steps : Nat → Chip → Option (Chip × Nat)
  | 0, s => some (s, 0)
  | k + 1, s => match s.step with
    | none => none
    | some (s', n) => match steps k s' with
      | none => none
      | some (s'', m) => some (s'', n + m)

/-- The states in which the emulator's instruction has the effect of the textbook's. -/
def Faithful (r : Regs) (mem : Mem) (mn : Mnemonic) (am : AddrMode) : Prop :=
  let v := operand r mem am
  let wrongCarry (x : Byte) : Prop :=
    (x.toNat = 0 ∧ 1 ≤ v.toNat ∧ v.toNat < 128) ∨ (v.toNat = 0 ∧ 1 ≤ x.toNat ∧ x.toNat < 128)
  match mn with
  | .Adc => r.p.carry = false ∧
      (r.a.toNat < 128 → v.toNat < 128 → r.a.toNat + v.toNat < 128) ∧
      (128 ≤ r.a.toNat → 128 ≤ v.toNat → r.a.toNat + v.toNat < 384)
  | .Sbc => ¬(v.toNat = 0 ∧ r.p.carry = true) ∧
      codeOverflow r.a (byte (255 - v.toNat + bit r.p.carry)) r.p.carry =
        (subWithBorrow r.a v r.p.carry).2.2
  | .Cmp => ¬wrongCarry r.a
  | .Cpx => ¬wrongCarry r.x
  | .Cpy => ¬wrongCarry r.y
  | .Dey => (r.x.toNat = 1 ↔ r.y.toNat = 1) ∧
      (r.x.toNat = 0 ∨ 129 ≤ r.x.toNat ↔ r.y.toNat = 0 ∨ 129 ≤ r.y.toNat)
  | .Bcc | .Bcs | .Bne | .Beq | .Bpl | .Bmi | .Bvc | .Bvs => taken mn r.p = some false
  | .Php => r.p.brk = true ∧ r.p.unused = true
  | .Brk | .Rti => False
  | _ => True

/-- The states in which the emulator counts the textbook's cycles. -/
def CycleFaithful (r : Regs) (mem : Mem) (mn : Mnemonic) (am : AddrMode) : Prop :=
  match am with
  | .indirectIndexed _ => mn = .Sta ∨
      (baseAddr mem am / 256 = (ea r mem am).toNat / 256 ↔ (ea r mem am).toNat < 256)
  | .relative d => taken mn r.p = some true →
      crosses (branchTarget r.pc d - 2).toNat r.pc.toNat =
        crosses (branchTarget r.pc d).toNat ((r.pc.toNat + 2) % 65536)
  | _ => True

/-- The three bytes at `pc` can be addressed without overflow (or the build does not check). -/
def PcOk (b : Build) (r : Regs) : Prop := b.overflowChecks = false ∨ r.pc.toNat < 65534

/-- A bus that accepts every write. -/
def Accepts {B : Type} [Addressable B] (b : Build) (I : B → Mem → Prop) : Prop :=
  ∀ bus mem, I bus mem → ∀ a v, ∃ r bus', Addressable.write b bus a v = .ok (.ok r, bus')

/-- An emulated CPU on a bus that shows memory by `I` is in the state of the reference machine. -/
def Agrees {B : Type} (I : B → Mem → Prop) (cpu : Mos6502 B) (s : Chip) : Prop :=
  chip (regs cpu) = s.regs ∧ I cpu.address_map s.mem

/-- The states of the reference machine in which the emulator follows it, cycles included. PLP must
pull a byte with bits 4 and 5 set, as PHP pushes it, because the emulator stores these bits. -/
def Chip.Followed (b : Build) (s : Chip) : Prop :=
  ∀ mn am, s.instr = some (mn, am) →
    PcOk b s.regs ∧ AddrOk b s.regs s.mem am ∧ Faithful s.regs s.mem mn am ∧
    CycleFaithful s.regs s.mem mn am ∧
    (mn = .Plp → (s.mem (stack (s.regs.sp.toNat + 1))).toNat / 16 % 4 = 3)

/-- Instructions without any deviation, whatever the registers and the memory: not the arithmetic
and compare instructions, DEY, the branches, the pushes and pulls of the status, BRK, and not the
address modes whose cycle count is wrong. -/
def plain (mn : Mnemonic) (am : AddrMode) : Bool :=
  (match mn with
    | .Adc | .Sbc | .Cmp | .Cpx | .Cpy | .Dey | .Bcc | .Bcs | .Bne | .Beq | .Bpl | .Bmi | .Bvc | .Bvs
    | .Php | .Plp | .Brk | .Rti => false
    | _ => true) &&
  (match am with
    | .indirectIndexed _ => decide (mn = .Sta)
    | _ => true)

end Verif.Spec.Mos
