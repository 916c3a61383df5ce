import Verif.Model.Chip8.Decode
import Verif.Model.Chip8.State

/-!
# `src/cpu/chip8/operations/mod.rs`: the microcode of each instruction

The addressing mode structs (`src/cpu/chip8/operations/addressing_mode.rs`) only carry the operands
and are passed as plain arguments; `VxVy { first, second }` is built by `VxVy::new(src, dest)`
(`addressing_mode.rs:88-95`), so that `first` is the source and `second` the destination.
-/

namespace Verif.Chip8

open Verif

variable {B R : Type}

/-- A write of a general purpose register, as in `src/cpu/chip8/operations/mod.rs:438-441`. -/
def writeGp (reg : GpRegisters) (value : Byte) : Microcode :=
  .Write8bitRegister (.GpRegisters reg) value

/-- The skip: `Inc16bitRegister(ProgramCounter, 2)`, as in
`src/cpu/chip8/operations/mod.rs:1086-1089`. -/
def incPc2 : Microcode := .Inc16bitRegister .ProgramCounter 2

/-- `Cls`, `src/cpu/chip8/operations/mod.rs:240-254`. -/
def genCls : List Microcode := [.SetDisplayRange (0, 0) (Display.xMax, Display.yMax) false]

/-- `Ret`, `src/cpu/chip8/operations/mod.rs:256-276`. -/
def genRet (cpu : Chip8 B R) : Res (List Microcode) := do
  let current_sp := cpu.sp.read
  let ret_pc ← cpu.stack.read current_sp.toNat
  let inc_adjusted_addr := ret_pc - 2
  .ok [.PopStack ret_pc, .Write16bitRegister .ProgramCounter inc_adjusted_addr]

/-- The bytes of the sprite of `Drw`, `src/cpu/chip8/operations/mod.rs:302-308`: reads of the
addresses `font_offset..(font_offset + size)`. -/
def drwSprite [Addressable B] (b : Build) (cpu : Chip8 B R) (size : Byte) : Res (List Byte) := do
  let font_offset := cpu.i
  let stop ← addU16 b font_offset (u16OfU8 size)
  (List.range' font_offset.toNat (stop.toNat - font_offset.toNat)).mapM
    fun addr => Addressable.read b cpu.address_space (BitVec.ofNat 16 addr)

/-- The body of the fold of `Drw`, `src/cpu/chip8/operations/mod.rs:323-345`. -/
def drwStep (display : Display) (sprite : List Byte) (x y : Nat)
    (s : Bool × List Microcode) (o : Nat × Nat) : Res (Bool × List Microcode) := do
  let row ← index sprite o.2
  let bit_is_set := Display.spriteBit row o.1
  let adjusted_x := x + o.1
  let adjusted_y := y + o.2
  let collision := match display.pixel adjusted_x adjusted_y with
    | some true => if bit_is_set then true else s.1
    | _ => s.1
  .ok (collision, s.2 ++ [.SetDisplayPixel (adjusted_x, adjusted_y) bit_is_set])

/-- `Drw`, `src/cpu/chip8/operations/mod.rs:278-356`. -/
def genDrw [Addressable B] (b : Build) (cpu : Chip8 B R) (x_reg y_reg : GpRegisters) (size : Byte) :
    Res (List Microcode) := do
  let sprite ← drwSprite b cpu size
  let x ← readGpRegister cpu x_reg
  let y ← readGpRegister cpu y_reg
  let (collision, pixels) ← (Display.offsets size.toNat).foldlM
    (drwStep cpu.display sprite x.toNat y.toNat) (false, [])
  .ok (pixels ++ [writeGp .Vf (if collision then 1 else 0)])

/-- `Jp<NonV0Indexed>`, `src/cpu/chip8/operations/mod.rs:383-392`. -/
def genJp (address : U12) : List Microcode :=
  [.Write16bitRegister .ProgramCounter (address.toU16 - 2)]

/-- `Jp<V0Indexed>`, `src/cpu/chip8/operations/mod.rs:396-409`. -/
def genJpV0 (cpu : Chip8 B R) (address : U12) : Res (List Microcode) := do
  let v0_val ← readGpRegister cpu .V0
  let v0 ← U12.new (u16OfU8 v0_val)
  let jmp_addr ← address.wrappingAdd v0
  .ok [.Write16bitRegister .ProgramCounter (jmp_addr.toU16 - 2)]

/-- `Ld<Absolute>`, `src/cpu/chip8/operations/mod.rs:423-432`. -/
def genLdAbsolute (addr : U12) : List Microcode := [.Write16bitRegister .I addr.toU16]

/-- `Ld<Immediate>`, `src/cpu/chip8/operations/mod.rs:434-443`. -/
def genLdImmediate (register : GpRegisters) (value : Byte) : List Microcode :=
  [writeGp register value]

/-- `Ld<VxVy>`, `src/cpu/chip8/operations/mod.rs:445-456`. -/
def genLdVxVy (cpu : Chip8 B R) (first second : GpRegisters) : Res (List Microcode) := do
  let src_val ← readGpRegister cpu first
  .ok [writeGp second src_val]

/-- `Ld<SoundTimerDestTx>`, `src/cpu/chip8/operations/mod.rs:458-469`. -/
def genLdSoundTimer (cpu : Chip8 B R) (src : GpRegisters) : Res (List Microcode) := do
  let src_val ← readGpRegister cpu src
  .ok [.Write8bitRegister (.TimerRegisters .Sound) src_val]

/-- `Ld<DelayTimerDestTx>`, `src/cpu/chip8/operations/mod.rs:471-482`. -/
def genLdDelayTimer (cpu : Chip8 B R) (src : GpRegisters) : Res (List Microcode) := do
  let src_val ← readGpRegister cpu src
  .ok [.Write8bitRegister (.TimerRegisters .Delay) src_val]

/-- `Ld<DelayTimerSrcTx>`, `src/cpu/chip8/operations/mod.rs:484-495`. -/
def genLdFromDelayTimer (b : Build) (e : Env) (cpu : Chip8 B R) (dest : GpRegisters) :
    Res (List Microcode) := do
  let src_val ← cpu.dt.read b e.readAt
  .ok [writeGp dest src_val]

/-- `LdSpriteLocation`, `src/cpu/chip8/operations/mod.rs:497-524`. -/
def genLdSpriteLocation (b : Build) (cpu : Chip8 B R) (source : GpRegisters) :
    Res (List Microcode) := do
  let src_val ← readGpRegister cpu source
  let p ← mulU8 b src_val 5
  let sprite_offset := u16OfU8 p
  .ok [.Write16bitRegister .I sprite_offset]

/-- `extract_hundreds_place`, `src/cpu/chip8/operations/mod.rs:532-534`. -/
def extractHundredsPlace (x : Byte) : Byte := x / 100

/-- `extract_tens_place`, `src/cpu/chip8/operations/mod.rs:536-538`. -/
def extractTensPlace (x : Byte) : Byte := (x % 100) / 10

/-- `extract_ones_place`, `src/cpu/chip8/operations/mod.rs:540-542`. -/
def extractOnesPlace (x : Byte) : Byte := (x % 100) % 10

/-- `LdBcd`, `src/cpu/chip8/operations/mod.rs:544-572`. -/
def genLdBcd (b : Build) (cpu : Chip8 B R) (src : GpRegisters) : Res (List Microcode) := do
  let src_val ← readGpRegister cpu src
  let hundreds := extractHundredsPlace src_val
  let tens := extractTensPlace src_val
  let ones := extractOnesPlace src_val
  let i1 ← addU16 b cpu.i 1
  let i2 ← addU16 b cpu.i 2
  .ok [.WriteMemory cpu.i hundreds, .WriteMemory i1 tens, .WriteMemory i2 ones]

/-- `LdK`, `src/cpu/chip8/operations/mod.rs:574-612`. -/
def genLdK (cpu : Chip8 B R) (dest : GpRegisters) : List Microcode :=
  match cpu.interrupt with
  | some (.KeyPress key_input) => [writeGp dest key_input.asU8]
  | none => [.Dec16bitRegister .ProgramCounter 2]

/-- The registers `(0..=end).filter(|idx| *idx <= 0x0f).map(|idx| GpRegisters::try_from(idx)
.unwrap())` of
`src/cpu/chip8/operations/mod.rs:631-635` and `:667-671`; each element is produced on demand. -/
def regRange (reg : GpRegisters) : List (Res GpRegisters) :=
  ((List.range (reg.toU8.toNat + 1)).filter (fun idx => decide (idx ≤ 0x0f))).map
    fun idx => unwrapResult (GpRegisters.tryFrom (BitVec.ofNat 8 idx))

/-- `ReadRegistersFromMemory`, `src/cpu/chip8/operations/mod.rs:614-648`. -/
def genReadRegisters [Addressable B] (b : Build) (cpu : Chip8 B R) (src : GpRegisters) : Res (List Microcode) :=
  (regRange src).mapM fun r => do
    let reg ← r
    let i_idx ← addU16 b cpu.i (BitVec.ofNat 16 reg.asUsize)
    let i_indirect_val ← Addressable.read b cpu.address_space i_idx
    .ok (writeGp reg i_indirect_val)

/-- `StoreRegistersToMemory`, `src/cpu/chip8/operations/mod.rs:650-679`. -/
def genStoreRegisters (b : Build) (cpu : Chip8 B R) (src : GpRegisters) : Res (List Microcode) :=
  (regRange src).mapM fun r => do
    let reg ← r
    let src_val ← readGpRegister cpu reg
    let i_idx ← addU16 b cpu.i (BitVec.ofNat 16 reg.asUsize)
    .ok (.WriteMemory i_idx src_val)

/-- `Call`, `src/cpu/chip8/operations/mod.rs:681-710`. -/
def genCall (cpu : Chip8 B R) (address : U12) : List Microcode :=
  let current_pc := cpu.pc
  let inc_adjusted_addr := address.toU16 - 2
  [.PushStack current_pc, .Write16bitRegister .ProgramCounter inc_adjusted_addr]

/-- `Add<Immediate>`, `src/cpu/chip8/operations/mod.rs:725-734`. -/
def genAddImmediate (register : GpRegisters) (value : Byte) : List Microcode :=
  [.Inc8bitRegister (.GpRegisters register) value]

/-- `Add<IRegisterIndexed>`, `src/cpu/chip8/operations/mod.rs:736-746`. -/
def genAddI (cpu : Chip8 B R) (register : GpRegisters) : Res (List Microcode) := do
  let gp_val ← readGpRegister cpu register
  .ok [.Inc16bitRegister .I (u16OfU8 gp_val)]

/-- Rust `u8::from(flag)`, as in `src/cpu/chip8/operations/mod.rs:755`. -/
def flagU8 (f : Bool) : Byte := if f then 1 else 0

/-- `Add<VxVy>`, `src/cpu/chip8/operations/mod.rs:748-768`. -/
def genAddVxVy (cpu : Chip8 B R) (first second : GpRegisters) : Res (List Microcode) := do
  let src_val ← readGpRegister cpu first
  let dest_val ← readGpRegister cpu second
  let result := dest_val + src_val
  let overflows := decide (256 ≤ dest_val.toNat + src_val.toNat)
  .ok [writeGp second result, writeGp .Vf (flagU8 overflows)]

/-- `Sub`, `src/cpu/chip8/operations/mod.rs:770-804`. -/
def genSub (cpu : Chip8 B R) (first second : GpRegisters) : Res (List Microcode) := do
  let src_val ← readGpRegister cpu first
  let dest_val ← readGpRegister cpu second
  let result := dest_val - src_val
  let underflows := decide (dest_val.toNat < src_val.toNat)
  .ok [writeGp second result, writeGp .Vf (flagU8 (!underflows))]

/-- `Subn`, `src/cpu/chip8/operations/mod.rs:806-840`. -/
def genSubn (cpu : Chip8 B R) (first second : GpRegisters) : Res (List Microcode) := do
  let src_val ← readGpRegister cpu first
  let dest_val ← readGpRegister cpu second
  let result := src_val - dest_val
  let underflows := decide (src_val.toNat < dest_val.toNat)
  .ok [writeGp second result, writeGp .Vf (flagU8 (!underflows))]

/-- `And`, `src/cpu/chip8/operations/mod.rs:842-867`. -/
def genAnd (cpu : Chip8 B R) (first second : GpRegisters) : Res (List Microcode) := do
  let src_val ← readGpRegister cpu first
  let dest_val ← readGpRegister cpu second
  .ok [writeGp second (dest_val &&& src_val)]

/-- `Or`, `src/cpu/chip8/operations/mod.rs:869-894`. -/
def genOr (cpu : Chip8 B R) (first second : GpRegisters) : Res (List Microcode) := do
  let src_val ← readGpRegister cpu first
  let dest_val ← readGpRegister cpu second
  .ok [writeGp second (dest_val ||| src_val)]

/-- `Skp`, `src/cpu/chip8/operations/mod.rs:896-925`. -/
def genSkp (cpu : Chip8 B R) (register : GpRegisters) : Res (List Microcode) := do
  let reg_val ← readGpRegister cpu register
  match cpu.interrupt with
  | some (.KeyPress iv) => if iv.asU8 = reg_val then .ok [incPc2] else .ok []
  | none => .ok []

/-- `Sknp`, `src/cpu/chip8/operations/mod.rs:933-961`. -/
def genSknp (cpu : Chip8 B R) (register : GpRegisters) : Res (List Microcode) := do
  let reg_val ← readGpRegister cpu register
  match cpu.interrupt with
  | some (.KeyPress iv) => if iv.asU8 = reg_val then .ok [] else .ok [incPc2]
  | none => .ok [incPc2]

/-- `Xor`, `src/cpu/chip8/operations/mod.rs:969-994`. -/
def genXor (cpu : Chip8 B R) (first second : GpRegisters) : Res (List Microcode) := do
  let src_val ← readGpRegister cpu first
  let dest_val ← readGpRegister cpu second
  .ok [writeGp second (dest_val ^^^ src_val)]

/-- `Shl`, `src/cpu/chip8/operations/mod.rs:996-1029`. -/
def genShl (cpu : Chip8 B R) (_first second : GpRegisters) : Res (List Microcode) := do
  let dest_val ← readGpRegister cpu second
  let flags := dest_val >>> 7
  let result := dest_val <<< 1
  .ok [writeGp .Vf flags, writeGp second result]

/-- `Shr`, `src/cpu/chip8/operations/mod.rs:1031-1064`. -/
def genShr (cpu : Chip8 B R) (_first second : GpRegisters) : Res (List Microcode) := do
  let dest_val ← readGpRegister cpu second
  let flags := dest_val &&& 1
  let result := dest_val >>> 1
  .ok [writeGp .Vf flags, writeGp second result]

/-- `Se<Immediate>`, `src/cpu/chip8/operations/mod.rs:1078-1094`. -/
def genSeImmediate (cpu : Chip8 B R) (register : GpRegisters) (value : Byte) :
    Res (List Microcode) := do
  let reg_val ← readGpRegister cpu register
  if reg_val = value then .ok [incPc2] else .ok []

/-- `Se<VxVy>`, `src/cpu/chip8/operations/mod.rs:1096-1112`. -/
def genSeVxVy (cpu : Chip8 B R) (first second : GpRegisters) : Res (List Microcode) := do
  let first_reg_val ← readGpRegister cpu first
  let second_reg_val ← readGpRegister cpu second
  if first_reg_val = second_reg_val then .ok [incPc2] else .ok []

/-- `Sne<Immediate>`, `src/cpu/chip8/operations/mod.rs:1126-1142`. -/
def genSneImmediate (cpu : Chip8 B R) (register : GpRegisters) (value : Byte) :
    Res (List Microcode) := do
  let reg_val ← readGpRegister cpu register
  if reg_val ≠ value then .ok [incPc2] else .ok []

/-- `Sne<VxVy>`, `src/cpu/chip8/operations/mod.rs:1144-1160`. -/
def genSneVxVy (cpu : Chip8 B R) (first second : GpRegisters) : Res (List Microcode) := do
  let first_reg_val ← readGpRegister cpu first
  let second_reg_val ← readGpRegister cpu second
  if first_reg_val ≠ second_reg_val then .ok [incPc2] else .ok []

/-- `Rnd`, `src/cpu/chip8/operations/mod.rs:1162-1189`. -/
def genRnd (e : Env) (register : GpRegisters) (value : Byte) : List Microcode :=
  let rand := e.rand
  [writeGp register (rand &&& value)]

/-- `impl Generate<Chip8<R>> for Opcode`, `src/cpu/chip8/operations/mod.rs:116-175`. -/
def generate [Addressable B] (b : Build) (e : Env) (cpu : Chip8 B R) : Opcode → Res (List Microcode)
  | .Cls => .ok genCls
  | .Ret => genRet cpu
  | .Drw x_reg y_reg sprite_size => genDrw b cpu x_reg y_reg sprite_size
  | .Sys _ => .ok []
  | .Call abs => .ok (genCall cpu abs)
  | .JpNonV0Indexed abs => .ok (genJp abs)
  | .JpV0Indexed abs => genJpV0 cpu abs
  | .LdAbsolute abs => .ok (genLdAbsolute abs)
  | .LdImmediate dest value => .ok (genLdImmediate dest value)
  | .LdVxVy dest src => genLdVxVy cpu src dest
  | .LdSoundTimerDestTx dest => genLdSoundTimer cpu dest
  | .LdDelayTimerDestTx dest => genLdDelayTimer cpu dest
  | .LdDelayTimerSrcTx src => genLdFromDelayTimer b e cpu src
  | .LdBcd reg => genLdBcd b cpu reg
  | .LdK dest => .ok (genLdK cpu dest)
  | .LdSpriteLocation src => genLdSpriteLocation b cpu src
  | .AddImmediate dest value => .ok (genAddImmediate dest value)
  | .AddIRegisterIndexed reg => genAddI cpu reg
  | .AddVxVy dest src => genAddVxVy cpu src dest
  | .Sub dest src => genSub cpu src dest
  | .Subn dest src => genSubn cpu src dest
  | .And dest src => genAnd cpu src dest
  | .Or dest src => genOr cpu src dest
  | .Shl dest src => genShl cpu src dest
  | .Shr dest src => genShr cpu src dest
  | .Xor dest src => genXor cpu src dest
  | .SeVxVy dest src => genSeVxVy cpu src dest
  | .SeImmediate reg value => genSeImmediate cpu reg value
  | .SneVxVy dest src => genSneVxVy cpu src dest
  | .SneImmediate reg value => genSneImmediate cpu reg value
  | .ReadRegistersFromMemory reg => genReadRegisters b cpu reg
  | .StoreRegistersToMemory reg => genStoreRegisters b cpu reg
  | .Skp reg => genSkp cpu reg
  | .Sknp reg => genSknp cpu reg
  | .Rnd reg value => .ok (genRnd e reg value)

end Verif.Chip8
