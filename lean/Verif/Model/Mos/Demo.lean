import Verif.Model.Mos.Cpu

/-!
# `examples/basic.rs`
-/

namespace Verif.Mos

open Verif

/-- The ROM image, `examples/basic.rs:14-17`. -/
def demoRom : List Byte :=
  [0xa9, 0x01, 0x8d, 0x00, 0x02, 0xa9, 0x02, 0x8d, 0x01, 0x02, 0xa9, 0x03, 0x8d, 0x02, 0x02,
   0x4c, 0xea, 0xff, 0xea, 0xff, 0x00, 0x00]

/-- The CPU before the reset, `examples/basic.rs:14-29`. -/
def demoCpu (b : Build) : Res (Mos6502 (AddressMap Memory)) := do
  let rom ← Memory.new b .readOnly 0xffea 0xffff
  let ram ← Memory.new b .readWrite 0x0200 0x7fff
  let cpu ← defaultCpu b
  let cpu₁ ← unwrapResult (registerAddressSpace cpu ⟨0xffea, 0xffff⟩ (rom.load demoRom))
  unwrapResult (registerAddressSpace cpu₁ ⟨0x0200, 0x7fff⟩ ram)

/-- The whole `main`, `examples/basic.rs:14-38`, for any number of cycles (the example uses
1,000,000). -/
def demo (b : Build) (cycles : Nat) : Res (Mos6502 (AddressMap Memory)) := do
  let cpu ← demoCpu b
  let s ← reset b cpu
  let state ← run b s.unwrap cycles
  .ok state.unwrap

end Verif.Mos
