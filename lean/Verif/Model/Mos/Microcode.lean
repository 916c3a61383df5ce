import Verif.Model.Mos.Register

/-!
# `src/cpu/mos6502/microcode.rs`

The enum; the single-purpose structs of lines 37-150 carry the same fields and are not modelled
separately.
-/

namespace Verif.Mos

open Verif

/-- `Microcode`, `src/cpu/mos6502/microcode.rs:9-35`. -/
inductive Microcode where
  | WriteMemory (addr : Word) (value : Byte)
  | SetProgramStatusFlagState (flag : ProgramStatusFlags) (value : Bool)
  | Write8bitRegister (reg : ByteRegisters) (value : Byte)
  | Inc8bitRegister (reg : ByteRegisters) (value : Byte)
  | Dec8bitRegister (reg : ByteRegisters) (value : Byte)
  | Write16bitRegister (reg : WordRegisters) (value : Word)
  | Inc16bitRegister (reg : WordRegisters) (value : Word)
  | Dec16bitRegister (reg : WordRegisters) (value : Word)
  deriving DecidableEq, Repr

end Verif.Mos
