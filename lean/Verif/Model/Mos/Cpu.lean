import Verif.Model.Memory
import Verif.Model.StepState
import Verif.Model.Mos.Generate

/-!
# `src/cpu/mos6502/mod.rs`: construction, reset, microcode execution, the iterator and `run`
-/

namespace Verif.Mos

open Verif

section
variable {B : Type}

/-- `Mos6502::with_addressmap`, `src/cpu/mos6502/mod.rs:60-65`: the registers of
`Mos6502::default()`. Simplification: the default address map that the struct update syntax
builds and drops is not built here (`defaultCpu` below shows that building it cannot panic). -/
def withAddressmap (am : B) : Mos6502 B where
  address_map := am
  acc := defaultGp
  x := defaultGp
  y := defaultGp
  sp := defaultSp
  pc := defaultPc
  ps := ProcessorStatus.default

/-- `Mos6502::with_owned_address_map`, `src/cpu/mos6502/mod.rs:136-147`; the closure may panic. -/
def withOwnedAddressMap (cpu : Mos6502 B) (f : B → Res B) : Res (Mos6502 B) := do
  let modified_am ← f cpu.address_map
  .ok { cpu with address_map := modified_am }

/-- `Mos6502::with_address_map`, `src/cpu/mos6502/mod.rs:150-155`. -/
def withAddressMap {X : Type} (cpu : Mos6502 B) (f : B → Res X) : Res X := f cpu.address_map

/-- `Mos6502::with_address_map_mut`, `src/cpu/mos6502/mod.rs:159-164`: the closure's answer and the
CPU with the map it leaves behind. -/
def withAddressMapMut {X : Type} (cpu : Mos6502 B) (f : B → Res (X × B)) :
    Res (X × Mos6502 B) := do
  let (x, am) ← f cpu.address_map
  .ok (x, { cpu with address_map := am })

/-- `Mos6502::with_gp_register`, `src/cpu/mos6502/mod.rs:168-175`. -/
def withGpRegister (cpu : Mos6502 B) (reg_type : GpRegister) (reg : Byte) : Mos6502 B :=
  match reg_type with
  | .Acc => { cpu with acc := reg }
  | .X => { cpu with x := reg }
  | .Y => { cpu with y := reg }

/-- `Mos6502::with_sp_register`, `src/cpu/mos6502/mod.rs:179-182`. -/
def withSpRegister (cpu : Mos6502 B) (reg : Byte) : Mos6502 B := { cpu with sp := reg }

/-- `Mos6502::with_pc_register`, `src/cpu/mos6502/mod.rs:186-189`. -/
def withPcRegister (cpu : Mos6502 B) (reg : Word) : Mos6502 B := { cpu with pc := reg }

/-- `Mos6502::with_ps_register`, `src/cpu/mos6502/mod.rs:193-196`. -/
def withPsRegister (cpu : Mos6502 B) (reg : ProcessorStatus) : Mos6502 B := { cpu with ps := reg }

end

/-- `Mos6502::register_address_space`, `src/cpu/mos6502/mod.rs:93-102`. -/
def registerAddressSpace {D : Type} (cpu : Mos6502 (AddressMap D)) (space : AddrRange) (dev : D) :
    Except String (Mos6502 (AddressMap D)) := do
  let am ← cpu.address_map.register space dev
  .ok { cpu with address_map := am }

/-- `Mos6502::default`, `src/cpu/mos6502/mod.rs:199-215` (`Mos6502::new`, lines 55-57, is the
same). -/
def defaultCpu (b : Build) : Res (Mos6502 (AddressMap Memory)) := do
  let stack ← Memory.new b .readWrite 0x00 0xff
  let am₁ ← unwrapResult (AddressMap.new.register ⟨0x0000, 0x00ff⟩ stack)
  let ram ← Memory.new b .readWrite 0x0100 0x01ff
  let am₂ ← unwrapResult (am₁.register ⟨0x0100, 0x01ff⟩ ram)
  .ok (withAddressmap am₂)

section
variable {B : Type} [Addressable B]

/-- `ExecuteMut<SetProgramStatusFlagState>`, `src/cpu/mos6502/mod.rs:333-349`. -/
def setFlag (cpu : Mos6502 B) (flag : ProgramStatusFlags) (value : Bool) : Mos6502 B :=
  match flag with
  | .Negative => { cpu with ps := { cpu.ps with negative := value } }
  | .Overflow => { cpu with ps := { cpu.ps with overflow := value } }
  | .Break => { cpu with ps := { cpu.ps with brk := value } }
  | .Decimal => { cpu with ps := { cpu.ps with decimal := value } }
  | .Interrupt => { cpu with ps := { cpu.ps with interrupt_disable := value } }
  | .Zero => { cpu with ps := { cpu.ps with zero := value } }
  | .Carry => { cpu with ps := { cpu.ps with carry := value } }

/-- `ExecuteMut<Write8bitRegister>`, `src/cpu/mos6502/mod.rs:351-370`. -/
def write8 (cpu : Mos6502 B) (reg : ByteRegisters) (value : Byte) : Mos6502 B :=
  match reg with
  | .Acc => { cpu with acc := value }
  | .X => { cpu with x := value }
  | .Y => { cpu with y := value }
  | .Sp => { cpu with sp := value }
  | .Ps => { cpu with ps := ProcessorStatus.withValue value }

/-- `ExecuteMut<Inc8bitRegister>`, `src/cpu/mos6502/mod.rs:372-400`. -/
def inc8 (cpu : Mos6502 B) (reg : ByteRegisters) (value : Byte) : Mos6502 B :=
  match reg with
  | .Acc => { cpu with acc := cpu.acc + value }
  | .X => { cpu with x := cpu.x + value }
  | .Y => { cpu with y := cpu.y + value }
  | .Sp => { cpu with sp := cpu.sp + value }
  | .Ps => { cpu with ps := ProcessorStatus.withValue (cpu.ps.read + value) }

/-- `ExecuteMut<Dec8bitRegister>`, `src/cpu/mos6502/mod.rs:402-430`. -/
def dec8 (cpu : Mos6502 B) (reg : ByteRegisters) (value : Byte) : Mos6502 B :=
  match reg with
  | .Acc => { cpu with acc := cpu.acc - value }
  | .X => { cpu with x := cpu.x - value }
  | .Y => { cpu with y := cpu.y - value }
  | .Sp => { cpu with sp := cpu.sp - value }
  | .Ps => { cpu with ps := ProcessorStatus.withValue (cpu.ps.read - value) }

/-- `ExecuteMut<WriteMemory>`, `src/cpu/mos6502/mod.rs:327-331`: a refused write panics. -/
def writeMemory (b : Build) (cpu : Mos6502 B) (addr : Word) (value : Byte) : Res (Mos6502 B) := do
  let (r, am) ← Addressable.write b cpu.address_map addr value
  let _ ← unwrapResult r
  .ok { cpu with address_map := am }

/-- `ExecuteMut<Microcode>`, `src/cpu/mos6502/mod.rs:294-325`, with the 16-bit register cases of
lines 432-450 (`overflowing_add`/`overflowing_sub`) inlined. -/
def executeMut (b : Build) (cpu : Mos6502 B) : Microcode → Res (Mos6502 B)
  | .WriteMemory addr value => writeMemory b cpu addr value
  | .SetProgramStatusFlagState flag value => .ok (setFlag cpu flag value)
  | .Write8bitRegister reg value => .ok (write8 cpu reg value)
  | .Inc8bitRegister reg value => .ok (inc8 cpu reg value)
  | .Dec8bitRegister reg value => .ok (dec8 cpu reg value)
  | .Write16bitRegister .Pc value => .ok { cpu with pc := value }
  | .Inc16bitRegister .Pc value => .ok { cpu with pc := cpu.pc + value }
  | .Dec16bitRegister .Pc value => .ok { cpu with pc := cpu.pc - value }

/-- Executing a list of microcode in order: the `for` loop at `src/cpu/mos6502/mod.rs:273-275` and
the `fold` at line 225 (`Execute::execute`, lines 284-292, is `execute_mut` on an owned CPU). -/
def executeAll (b : Build) : List Microcode → Mos6502 B → Res (Mos6502 B)
  | [], cpu => .ok cpu
  | mc :: mcs, cpu => do
    let cpu' ← executeMut b cpu mc
    executeAll b mcs cpu'

/-- Instruction fetch, `src/cpu/mos6502/mod.rs:259-268`: three reads (`pc + 1` and `pc + 2` are
checked `u16` additions) and the decode, which panics on an undocumented opcode
with the text of lines 267-268. -/
def fetch (b : Build) (cpu : Mos6502 B) : Res InstructionVariant := do
  let b0 ← Addressable.read b cpu.address_map cpu.pc
  let pc1 ← addU16 b cpu.pc 1
  let b1 ← Addressable.read b cpu.address_map pc1
  let pc2 ← addU16 b cpu.pc 2
  let b2 ← Addressable.read b cpu.address_map pc2
  match Isa.parseInstruction b0 b1 b2 with
  | some i => .ok i
  | none => .error (.unwrapErr s!"No match found for {b0.toNat}")

/-- `<Mos6502IntoIterator as Iterator>::next`, `src/cpu/mos6502/mod.rs:258-278`. The iterator's
only field is the CPU state (lines 239-253). It always returns `Some`. -/
def next (b : Build) (cpu : Mos6502 B) : Res (Operations × Mos6502 B) := do
  let oper ← fetch b cpu
  let mops ← oper.generate b cpu
  let microcode_steps ← mops.intoSteps b
  let cpu' ← executeAll b microcode_steps.flatten cpu
  .ok (mops, cpu')

/-- The iterator chain of `Mos6502::run`, `src/cpu/mos6502/mod.rs:218-226`, after `take` has
`n` items left: `it` is the state of the instruction iterator, `pending` what is left of the item
`flat_map` is in, `cpu` the accumulator of the `fold`. Everything is lazy: an instruction is
decoded (and executed on the iterator's state) only when its first cycle is requested. -/
def runLoop (b : Build) : Nat → Mos6502 B → List (List Microcode) → Mos6502 B → Res (Mos6502 B)
  | 0, _, _, cpu => .ok cpu
  | n + 1, it, step :: rest, cpu => do
    let cpu' ← executeAll b step cpu
    runLoop b n it rest cpu'
  | n + 1, it, [], cpu => do
    let (mops, it') ← next b it
    let steps ← mops.intoSteps b
    match steps with
    | step :: rest => do
      let cpu' ← executeAll b step cpu
      runLoop b n it' rest cpu'
    | [] => .ok cpu -- not reachable: `intoSteps` never yields an empty list

/-- `Mos6502::run`, `src/cpu/mos6502/mod.rs:217-228`. -/
def run (b : Build) (cpu : Mos6502 B) (cycles : Nat) : Res (StepState (Mos6502 B)) := do
  let state ← runLoop b cycles cpu [] cpu
  .ok (StepState.ofState state)

/-- `impl Cpu<Mos6502> for Mos6502`, `src/cpu/mos6502/mod.rs:217-228`. -/
instance : Cpu (Mos6502 B) where
  run := run

/-- `Mos6502::reset`, `src/cpu/mos6502/mod.rs:105-113`. -/
def reset (b : Build) (self : Mos6502 B) : Res (StepState (Mos6502 B)) := do
  let cpu := withAddressmap self.address_map
  let lsb ← Addressable.read b cpu.address_map RESET_VECTOR_LL
  let msb ← Addressable.read b cpu.address_map RESET_VECTOR_HH
  .ok (StepState.new 6 { cpu with pc := u16FromLeBytes lsb msb, sp := defaultSp })

/-- `Mos6502::reset_as_mops`, `src/cpu/mos6502/mod.rs:116-132`. -/
def resetAsMops (b : Build) (self : Mos6502 B) : Res Operations := do
  let lsb ← Addressable.read b self.address_map RESET_VECTOR_LL
  let msb ← Addressable.read b self.address_map RESET_VECTOR_HH
  .ok { offset := 0
        cycles := 6
        microcode := [
          .Write8bitRegister .Ps ProcessorStatus.default.read,
          .Write8bitRegister .Sp defaultSp,
          .Write16bitRegister .Pc (u16FromLeBytes lsb msb)] }

end

end Verif.Mos
