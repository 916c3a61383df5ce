import Verif.Model.Mos.Register
import Verif.Spec.Mos6502

/-!
# Property C11: the processor status byte
-/

namespace Verif.Props

open Verif Verif.Mos Verif.Spec.Mos

/-- Reading back the status written as a byte gives the byte. -/
theorem C11_byte_round_trip (v : Byte) : (ProcessorStatus.withValue v).read = v := by
  revert v; decide +kernel

/-- Writing back the status read as a byte gives the status. -/
theorem C11_flags_round_trip (p : ProcessorStatus) : ProcessorStatus.withValue p.read = p := by
  obtain ⟨c, z, i, d, k, u, o, n⟩ := p
  revert c z i d k u o n
  decide +kernel

/-- The byte is N V - B D I Z C from bit 7 down to bit 0. -/
theorem C11_layout (p : ProcessorStatus) :
    p.read.toNat = 128 * bit p.negative + 64 * bit p.overflow + 32 * bit p.unused +
      16 * bit p.brk + 8 * bit p.decimal + 4 * bit p.interrupt_disable + 2 * bit p.zero +
      bit p.carry := by
  obtain ⟨c, z, i, d, k, u, o, n⟩ := p
  revert c z i d k u o n
  decide +kernel

/-- So no two flag combinations share a byte, and every byte is a flag combination. -/
theorem C11_bijection : Function.Injective ProcessorStatus.read ∧
    Function.Surjective ProcessorStatus.read :=
  ⟨fun p q h => by rw [← C11_flags_round_trip p, h, C11_flags_round_trip],
   fun v => ⟨_, C11_byte_round_trip v⟩⟩

/-- The reset status is the byte 0x20. -/
example : ProcessorStatus.default.read = 0x20 := by decide

/-- A mixed status: N, unused, B, I, C. -/
example : (ProcessorStatus.withValue 0xb5) = ⟨true, false, true, false, true, true, false, true⟩ := by
  decide

end Verif.Props
