import Verif.Spec.Chip8

/-!
# Spec: what the comments in `src/cpu/chip8/microcode.rs` say about each operation

No code of the repository is modelled here.
-/

namespace Verif.Spec.Chip8

open Verif Verif.Chip8
open Verif.Spec.Mos (writeAll)

variable {B R : Type}

/-- The timer shows `n` at `now` and counts down from there. -/
def Shows (t : ClockDecrementing) (now : Instant) (n : Nat) : Prop :=
  ∀ d : Nat, (timerAt t (now + d)).toNat = n - d / 1000000000

/-- The documented effect on a byte register whose number becomes `f` of its number. -/
def ByteEffect (now : Instant) (cpu cpu' : Chip8 B R) (f : Nat → Nat) : ByteRegisters → Prop
  | .GpRegisters r => cpu' = setV cpu r (BitVec.ofNat 8 (f (V cpu r).toNat))
  | .TimerRegisters .Delay =>
      ∃ t, cpu' = { cpu with dt := t } ∧ Shows t now (f (timerAt cpu.dt now).toNat)
  | .TimerRegisters .Sound =>
      ∃ t, cpu' = { cpu with st := t } ∧ Shows t now (f (timerAt cpu.st now).toNat)

/-- The documented effect on a word register. -/
def WordEffect (cpu cpu' : Chip8 B R) (f : Nat → Nat) : WordRegisters → Prop
  | .I => cpu' = { cpu with i := BitVec.ofNat 16 (f cpu.i.toNat) }
  | .ProgramCounter => cpu' = { cpu with pc := BitVec.ofNat 16 (f cpu.pc.toNat) }

/-- The pixels for which `P` holds get the value `v`, the others stay, and so does all else. -/
def PixelEffect (cpu cpu' : Chip8 B R) (P : Nat → Nat → Prop) (v : Bool) : Prop :=
  ∃ d, cpu' = { cpu with display := d } ∧ ∀ x < 64, ∀ y < 32,
    (P x y → lit d x y = v) ∧ (¬ P x y → lit d x y = lit cpu.display x y)

/-- The documented effect of an operation at the instant `now`. -/
def Documented [Addressable B] (b : Build) (now : Instant) (cpu cpu' : Chip8 B R) :
    Microcode → Prop
  | .WriteMemory a v =>
      ∃ bus, writeAll b cpu.address_space [(a, v)] = .ok bus ∧ cpu' = { cpu with address_space := bus }
  | .Write8bitRegister r v => ByteEffect now cpu cpu' (fun _ => v.toNat) r
  | .Inc8bitRegister r v => ByteEffect now cpu cpu' (fun n => (n + v.toNat) % 256) r
  | .Dec8bitRegister r v => ByteEffect now cpu cpu' (fun n => (n + 256 - v.toNat) % 256) r
  | .Write16bitRegister r v => WordEffect cpu cpu' (fun _ => v.toNat) r
  | .Inc16bitRegister r v => WordEffect cpu cpu' (fun n => (n + v.toNat) % 65536) r
  | .Dec16bitRegister r v => WordEffect cpu cpu' (fun n => (n + 65536 - v.toNat) % 65536) r
  | .PushStack v => cpu'.sp.read.toNat = (cpu.sp.read.toNat + 1) % 16 ∧
      cpu'.stack.inner = cpu.stack.inner.set cpu'.sp.read.toNat v ∧
      { cpu' with sp := cpu.sp, stack := cpu.stack } = cpu
  | .PopStack _ => cpu'.sp.read.toNat = (cpu.sp.read.toNat + 15) % 16 ∧
      { cpu' with sp := cpu.sp } = cpu
  | .KeyPress k => cpu' = { cpu with interrupt := some (.KeyPress k) }
  | .KeyRelease => cpu' = { cpu with interrupt := none }
  | .SetDisplayPixel p v => PixelEffect cpu cpu' (fun x y => (x, y) = p) v
  | .SetDisplayRange p q v =>
      PixelEffect cpu cpu' (fun x y => p.1 ≤ x ∧ x ≤ q.1 ∧ p.2 ≤ y ∧ y ≤ q.2) v

/-- The operation can be carried out: it does not name VF, which the emulator lacks, the bus accepts
the write, and a range has its ends on the screen and in order. -/
def Possible [Addressable B] (b : Build) (cpu : Chip8 B R) : Microcode → Prop
  | .WriteMemory a v => ∃ bus, writeAll b cpu.address_space [(a, v)] = .ok bus
  | .Write8bitRegister r _ | .Inc8bitRegister r _ | .Dec8bitRegister r _ => r ≠ .GpRegisters .Vf
  | .SetDisplayRange p q _ => p.1 ≤ q.1 ∧ q.1 < 64 ∧ p.2 ≤ q.2 ∧ q.2 < 32
  | _ => True

end Verif.Spec.Chip8
