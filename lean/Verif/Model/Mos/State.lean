import Verif.Model.AddressMap
import Verif.Model.Mos.Microcode

/-!
# The `Mos6502` struct
-/

namespace Verif.Mos

open Verif

/-- `Mos6502`, `src/cpu/mos6502/mod.rs:42-52`. The bus is a type parameter `B` (in the code it is
always an `AddressMap<u16, u8>` of arbitrary devices; every theorem that holds for all `B` holds
for `B = AddressMap D` with any devices `D`). -/
structure Mos6502 (B : Type) where
  address_map : B
  acc : Byte
  x : Byte
  y : Byte
  sp : Byte
  pc : Word
  ps : ProcessorStatus
  deriving DecidableEq

end Verif.Mos
