import Verif.Model.Live.Bus
import Verif.Model.Chip8.Operations

/-!
# `src/cpu/chip8/operations/mod.rs` on live devices

The two instructions that read memory, `Drw` and `ReadRegistersFromMemory`, with their reads as
calls of the bus; the others do not touch it while they generate microcode, and are those of
`Verif.Model.Chip8.Operations`.
-/

namespace Verif.Chip8.Live

open Verif Verif.Live

variable {R : Type}

/-- The iterator adaptor `map` with a closure that may call the bus, collected in order:
`src/cpu/chip8/operations/mod.rs:302-308` and `:631-647`. -/
def mapCalls {α β : Type} (f : α → Bus β) : List α → Bus (List β)
  | [] => pure []
  | x :: xs => do
    let y ← f x
    let ys ← mapCalls f xs
    pure (y :: ys)

/-- The bytes of the sprite of `Drw`, `src/cpu/chip8/operations/mod.rs:302-308`. -/
def drwSprite (b : Build) (cpu : Chip8 Copy R) (size : Byte) : Bus (List Byte) := do
  let font_offset := cpu.i
  let stop ← addU16 b font_offset (u16OfU8 size)
  mapCalls (fun addr => Bus.get cpu.address_space (BitVec.ofNat 16 addr))
    (List.range' font_offset.toNat (stop.toNat - font_offset.toNat))

/-- `Drw`, `src/cpu/chip8/operations/mod.rs:278-356`. -/
def genDrw (b : Build) (cpu : Chip8 Copy R) (x_reg y_reg : GpRegisters) (size : Byte) :
    Bus (List Microcode) := do
  let sprite ← drwSprite b cpu size
  let x ← readGpRegister cpu x_reg
  let y ← readGpRegister cpu y_reg
  let (collision, pixels) ← ((Display.offsets size.toNat).foldlM
    (drwStep cpu.display sprite x.toNat y.toNat) (false, []) : Res (Bool × List Microcode))
  pure (pixels ++ [writeGp .Vf (if collision then 1 else 0)])

/-- `ReadRegistersFromMemory`, `src/cpu/chip8/operations/mod.rs:614-648`. -/
def genReadRegisters (b : Build) (cpu : Chip8 Copy R) (src : GpRegisters) : Bus (List Microcode) :=
  mapCalls (fun (r : Res GpRegisters) => do
    let reg ← r
    let i_idx ← addU16 b cpu.i (BitVec.ofNat 16 reg.asUsize)
    let i_indirect_val ← Bus.get cpu.address_space i_idx
    pure (writeGp reg i_indirect_val)) (regRange src)

/-- `impl Generate<Chip8<R>> for Opcode`, `src/cpu/chip8/operations/mod.rs:116-175`. -/
def generate (b : Build) (e : Env) (cpu : Chip8 Copy R) : Opcode → Bus (List Microcode)
  | .Cls => pure genCls
  | .Ret => genRet cpu
  | .Drw x_reg y_reg sprite_size => genDrw b cpu x_reg y_reg sprite_size
  | .Sys _ => pure []
  | .Call abs => pure (genCall cpu abs)
  | .JpNonV0Indexed abs => pure (genJp abs)
  | .JpV0Indexed abs => genJpV0 cpu abs
  | .LdAbsolute abs => pure (genLdAbsolute abs)
  | .LdImmediate dest value => pure (genLdImmediate dest value)
  | .LdVxVy dest src => genLdVxVy cpu src dest
  | .LdSoundTimerDestTx dest => genLdSoundTimer cpu dest
  | .LdDelayTimerDestTx dest => genLdDelayTimer cpu dest
  | .LdDelayTimerSrcTx src => genLdFromDelayTimer b e cpu src
  | .LdBcd reg => genLdBcd b cpu reg
  | .LdK dest => pure (genLdK cpu dest)
  | .LdSpriteLocation src => genLdSpriteLocation b cpu src
  | .AddImmediate dest value => pure (genAddImmediate dest value)
  | .AddIRegisterIndexed reg => genAddI cpu reg
  | .AddVxVy dest src => genAddVxVy cpu src dest
  | .Sub dest src => genSub cpu src dest
  | .Subn dest src => genSubn cpu src dest
  | .And dest src => genAnd cpu src dest
  | .Or dest src => genOr cpu src dest
  | .Shl dest src => genShl cpu src dest
  | .Shr dest src => genShr cpu src dest
  | .Xor dest src => genXor cpu src dest
  | .SeVxVy dest src => genSeVxVy cpu src dest
  | .SeImmediate reg value => genSeImmediate cpu reg value
  | .SneVxVy dest src => genSneVxVy cpu src dest
  | .SneImmediate reg value => genSneImmediate cpu reg value
  | .ReadRegistersFromMemory reg => genReadRegisters b cpu reg
  | .StoreRegistersToMemory reg => genStoreRegisters b cpu reg
  | .Skp reg => genSkp cpu reg
  | .Sknp reg => genSknp cpu reg
  | .Rnd reg value => pure (genRnd e reg value)

end Verif.Chip8.Live
