import Verif.Proofs.Builds

/-!
# Builds with and without overflow checks (C110)

A program behaves the same in a build with overflow checks and in one without, up to the moment at which
the former panics with an overflow.
-/

namespace Verif.Props

open Verif Verif.Spec

/-! ## What agreement gives -/

section
variable {α : Type} {x y : Res α}

/-- A result of the checked build is that of the unchecked one. -/
theorem C110_ok (h : Agree x y) {a : α} (hx : x = .ok a) : y = .ok a := by
  rcases h with h | h
  · rw [← h, hx]
  · rw [h] at hx; cases hx

/-- A panic of the checked build other than an overflow is one of the unchecked build, with the same text. -/
theorem C110_panic (h : Agree x y) {p : Panic} (hx : x = .error p) (hp : p ≠ .overflow) : y = .error p := by
  rcases h with h | h
  · rw [← h, hx]
  · rw [h] at hx; cases hx; exact absurd rfl hp

/-- If the unchecked build gives a result, the checked one gives the same or an overflow. -/
theorem C110_back (h : Agree x y) {r : Res α} (hy : y = r) : x = r ∨ x = .error .overflow := hy ▸ h

end

/-! ## The 6502 -/

section
variable {B : Type} [Addressable B] [BuildsAgree B]

/-- A run of any number of cycles, from any state, over devices of which the builds agree. -/
theorem C110_mos_run (cpu : Mos.Mos6502 B) (n : Nat) :
    Agree (Mos.run .debug cpu n) (Mos.run .release cpu n) := agree_run cpu n

/-- A run in which the result of another run is continued. -/
theorem C110_mos_continued (s : StepState (Mos.Mos6502 B)) (n : Nat) :
    Agree (s.run .debug n) (s.run .release n) := agree_stepState (fun cpu n => agree_run cpu n) s n

/-- Reset and the reset as microcode. -/
theorem C110_mos_reset (cpu : Mos.Mos6502 B) :
    Agree (Mos.reset .debug cpu) (Mos.reset .release cpu) ∧
    Agree (Mos.resetAsMops .debug cpu) (Mos.resetAsMops .release cpu) :=
  ⟨agree_reset cpu, agree_resetAsMops cpu⟩

/-- One instruction of the iterator. -/
theorem C110_mos_next (cpu : Mos.Mos6502 B) : Agree (Mos.next .debug cpu) (Mos.next .release cpu) :=
  agree_next cpu

/-- The microcode of any number of cycles, and the execution of any microcode. -/
theorem C110_mos_microcode (cpu : Mos.Mos6502 B) (n : Nat) (mcs : List Mos.Microcode) :
    Agree (Mos.capture .debug cpu n) (Mos.capture .release cpu n) ∧
    Agree (Mos.replay .debug mcs cpu) (Mos.replay .release mcs cpu) :=
  ⟨agree_capture n cpu [], agree_executeAll mcs cpu⟩

end

/-- The default machine. -/
theorem C110_mos_default : Agree (Mos.defaultCpu .debug) (Mos.defaultCpu .release) := agree_mosDefault

/-! ## The CHIP-8 -/

section
variable {B R : Type} [Addressable B] [BuildsAgree B]

/-- A run of any number of instructions, from any state, whatever the clock and the random generator
answer. -/
theorem C110_chip8_run (env : Nat → Chip8.Env) (cpu : Chip8.Chip8 B R) (n : Nat) :
    Agree (Chip8.run .debug env cpu n) (Chip8.run .release env cpu n) := agree_chip8Run env cpu n

/-- One instruction of the iterator. -/
theorem C110_chip8_next (e : Chip8.Env) (cpu : Chip8.Chip8 B R) :
    Agree (Chip8.next .debug e cpu) (Chip8.next .release e cpu) := agree_chip8Next e cpu

/-- The execution of any microcode. -/
theorem C110_chip8_microcode (now : Chip8.Instant) (cpu : Chip8.Chip8 B R) (mcs : List Chip8.Microcode) :
    Agree (Chip8.executeAll .debug now cpu mcs) (Chip8.executeAll .release now cpu mcs) :=
  agree_chip8ExecuteAll now mcs cpu

end

/-- The default machine. -/
theorem C110_chip8_default {R : Type} (now : Chip8.Instant) (rng : R) :
    Agree (Chip8.defaultCpu .debug now rng) (Chip8.defaultCpu .release now rng) :=
  agree_chip8Default now rng

/-- Arithmetic on 12 bits. -/
theorem C110_u12 (x y : Chip8.U12) :
    Agree (x.add .debug y) (x.add .release y) ∧ Agree (x.sub .debug y) (x.sub .release y) ∧
    Agree (x.shl .debug y) (x.shl .release y) ∧ Agree (x.shr .debug y) (x.shr .release y) :=
  ⟨agree_bind (agree_addU16 _ _) fun _ => agree_refl _, agree_bind (agree_subU16 _ _) fun _ => agree_refl _,
    agree_bind agree_if fun _ => agree_refl _, agree_bind agree_if fun _ => agree_refl _⟩

/-! ## Devices -/

/-- Memories, made and used. -/
theorem C110_memory (k : MemKind) (lo hi : Word) (m : Memory) (a : Word) (v : Byte) :
    Agree (Memory.new .debug k lo hi) (Memory.new .release k lo hi) ∧
    Agree (m.read .debug a) (m.read .release a) ∧ Agree (m.write .debug a v) (m.write .release a v) :=
  ⟨agree_memory k lo hi, BuildsAgree.read m a, BuildsAgree.write m a v⟩

/-- Address maps of devices of which the builds agree, nested as deep as one likes. -/
theorem C110_map {D : Type} [Addressable D] [BuildsAgree D] (m : AddressMap (AddressMap D)) (a : Word) (v : Byte) :
    Agree (m.read .debug a) (m.read .release a) ∧ Agree (m.write .debug a v) (m.write .release a v) :=
  ⟨BuildsAgree.read m a, BuildsAgree.write m a v⟩

/-! ## Concrete runs -/

/-- Sixteen NOPs at the top of the address space. -/
def nops : Memory := ⟨.readOnly, 0xfff0, 0xffff, List.replicate 16 0xea⟩

/-- A machine about to execute the NOP at `pc`. -/
def nopCpu (pc : Word) : Mos.Mos6502 (AddressMap Memory) :=
  { Mos.withAddressmap ⟨[(⟨0xfff0, 0xffff⟩, nops)]⟩ with pc := pc }

/-- The program counter that a run leaves. -/
def pcOf (r : Res (StepState (Mos.Mos6502 (AddressMap Memory)))) : Except Panic Word :=
  r.map fun s => s.unwrap.pc

/-- Both builds execute the NOP at 0xfffd. -/
example : pcOf (Mos.run .debug (nopCpu 0xfffd) 2) = .ok 0xfffe ∧
    pcOf (Mos.run .release (nopCpu 0xfffd) 2) = .ok 0xfffe := ⟨rfl, rfl⟩

/-- At 0xfffe only the unchecked build does: the checked one overflows looking for a third byte. -/
example : pcOf (Mos.run .debug (nopCpu 0xfffe) 2) = .error .overflow ∧
    pcOf (Mos.run .release (nopCpu 0xfffe) 2) = .ok 0xffff := ⟨rfl, rfl⟩

/-- Any other panic is the same: here the opcode 0x02, which does not exist. -/
example :
    let cpu : Mos.Mos6502 (AddressMap Memory) :=
      Mos.withAddressmap ⟨[(⟨0, 0xff⟩, ⟨.readOnly, 0, 0xff, List.replicate 256 0x02⟩)]⟩
    pcOf (Mos.run .debug cpu 2) = .error (.unwrapErr "No match found for 2") ∧
    pcOf (Mos.run .release cpu 2) = .error (.unwrapErr "No match found for 2") :=
  ⟨by decide +kernel, by decide +kernel⟩

/-- A machine whose registers all hold `v`, about to execute `Fx29` in the font's place (the font is not
used). -/
def digitCpu (v : Byte) : Chip8.Chip8 (AddressMap Memory) Unit where
  stack := Chip8.Ring.new 16
  address_space := ⟨[(⟨0, 1⟩, ⟨.readOnly, 0, 1, [0xf0, 0x29]⟩)]⟩
  dt := Chip8.ClockDecrementing.default 0
  st := Chip8.ClockDecrementing.default 0
  pc := 0
  sp := Chip8.StackPointer.default
  i := 0
  gp_registers := Vector.replicate 15 v
  display := Chip8.Display.default
  interrupt := none
  rng := ()

/-- The address register that a run leaves. -/
def iOf (r : Res (StepState (Chip8.Chip8 (AddressMap Memory) Unit))) : Except Panic Word :=
  r.map fun s => s.unwrap.i

/-- For the digit 7 both builds give 35. -/
example : iOf (Chip8.run .debug (fun _ => ⟨0, 0, 0, 0⟩) (digitCpu 7) 1) = .ok 35 ∧
    iOf (Chip8.run .release (fun _ => ⟨0, 0, 0, 0⟩) (digitCpu 7) 1) = .ok 35 :=
  ⟨by decide +kernel, by decide +kernel⟩

/-- For 60 the checked build overflows, the unchecked one gives `300 - 256`. -/
example : iOf (Chip8.run .debug (fun _ => ⟨0, 0, 0, 0⟩) (digitCpu 60) 1) = .error .overflow ∧
    iOf (Chip8.run .release (fun _ => ⟨0, 0, 0, 0⟩) (digitCpu 60) 1) = .ok 44 :=
  ⟨by decide +kernel, by decide +kernel⟩

end Verif.Props
