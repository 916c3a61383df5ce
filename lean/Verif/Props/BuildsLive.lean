import Verif.Proofs.BuildsLive
import Verif.Props.Builds

/-!
# C110 on devices with a life of their own

Devices may change when they are read, share state between clones and act on the world: then it matters which
calls the two builds make.
-/

namespace Verif.Props

open Verif Verif.Live Verif.Spec.Live

/-- One instruction of the 6502: the calls of the checked build are those of the unchecked one. -/
theorem C110_live_mos_next (cpu : Mos.Mos6502 Copy) :
    AgreeCalls (Mos.Live.next .debug cpu) (Mos.Live.next .release cpu) := pruned_agree (pruned_next cpu)

/-- A run of the 6502. -/
theorem C110_live_mos_run (cpu : Mos.Mos6502 Copy) (n : Nat) :
    AgreeCalls (Mos.Live.run .debug cpu n) (Mos.Live.run .release cpu n) := pruned_agree (pruned_run cpu n)

/-- One instruction of the CHIP-8. -/
theorem C110_live_chip8_next {R : Type} (e : Chip8.Env) (cpu : Chip8.Chip8 Copy R) :
    AgreeCalls (Chip8.Live.next .debug e cpu) (Chip8.Live.next .release e cpu) :=
  pruned_agree (pruned_chip8Next e cpu)

/-- A run of the CHIP-8. -/
theorem C110_live_chip8_run {R : Type} (env : Nat → Chip8.Env) (cpu : Chip8.Chip8 Copy R) (n : Nat) :
    AgreeCalls (Chip8.Live.run .debug env cpu n) (Chip8.Live.run .release env cpu n) :=
  pruned_agree (pruned_chip8Run env cpu n)

section
variable {W D : Type} [Device W D] [DevicesAgree W D]

/-- On actual devices: unless the checked build overflows, both builds leave the same machine (or panic with
the same text), the same devices and the same world. -/
theorem C110_live_mos_devices (cpu : Mos.Mos6502 Copy) (n : Nat) (s : Site W D) :
    AgreeCall ((Mos.Live.run .debug cpu n).exec .debug s) ((Mos.Live.run .release cpu n).exec .release s) :=
  pruned_exec (pruned_run cpu n) s

/-- The same for the CHIP-8. -/
theorem C110_live_chip8_devices {R : Type} (env : Nat → Chip8.Env) (cpu : Chip8.Chip8 Copy R) (n : Nat)
    (s : Site W D) :
    AgreeCall ((Chip8.Live.run .debug env cpu n).exec .debug s)
      ((Chip8.Live.run .release env cpu n).exec .release s) :=
  pruned_exec (pruned_chip8Run env cpu n) s

end

/-- Devices that the crate and its users have: address maps of memories, some of them shared between clones. -/
example : DevicesAgree Memory (AddressMap (Value Memory ⊕ Shared)) := inferInstance

/-- A NOP at 0xfffe: the checked build reads its first two bytes and overflows, the unchecked one goes on to read
the byte at 0. -/
example (a b : Byte) :
    Asked (Mos.Live.next .debug { Mos.withAddressmap .own with pc := 0xfffe })
      [.read .own 0xfffe a, .read .own 0xffff b] (.error .overflow) ∧
    ∃ ops cpu, Asked (Mos.Live.next .release { Mos.withAddressmap .own with pc := 0xfffe })
      [.read .own 0xfffe 0xea, .read .own 0xffff b, .read .own 0 a] (.ok (ops, cpu)) ∧ cpu.pc = 0xffff :=
  ⟨.read (.read (.done _)), _, _, .read (.read (.read (.done _))), rfl⟩

/-- A NOP at 0x200: both builds make the same three reads. -/
example (b : Build) (x y : Byte) :
    ∃ ops cpu, Asked (Mos.Live.next b { Mos.withAddressmap .own with pc := 0x200 })
      [.read .own 0x200 0xea, .read .own 0x201 x, .read .own 0x202 y] (.ok (ops, cpu)) ∧ cpu.pc = 0x201 := by
  obtain ⟨b⟩ := b
  cases b
  · exact ⟨_, _, .read (.read (.read (.done _))), rfl⟩
  · exact ⟨_, _, .read (.read (.read (.done _))), rfl⟩

end Verif.Props
