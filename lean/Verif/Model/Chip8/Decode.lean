import Verif.Model.Chip8.U12Fmt
import Verif.Model.Chip8.Register

/-!
# `src/cpu/chip8/operations/mod.rs`: nibbles, opcodes and decoding
-/

namespace Verif.Chip8

open Verif

/-- `ToNibble::to_upper_nibble`, `src/cpu/chip8/operations/mod.rs:49-51`. -/
def toUpperNibble (x : Byte) : Byte := (x &&& 0xf0) >>> 4

/-- `ToNibble::to_lower_nibble`, `src/cpu/chip8/operations/mod.rs:53-55`;
`least_significant_nibble_from_u8`, lines 25-29, is the same function. -/
def toLowerNibble (x : Byte) : Byte := x &&& 0x0f

/-- `u8_from_nibbles`, `src/cpu/chip8/operations/mod.rs:31-37`. -/
def u8FromNibbles (msb lsb : Byte) : Byte := (msb <<< 4) ||| toLowerNibble lsb

/-- `Opcode`, `src/cpu/chip8/operations/mod.rs:78-114`. -/
inductive Opcode where
  | Cls
  | Ret
  | Drw (x y : GpRegisters) (size : Byte)
  | Sys (abs : U12)
  | Call (abs : U12)
  | JpNonV0Indexed (abs : U12)
  | JpV0Indexed (abs : U12)
  | LdAbsolute (abs : U12)
  | LdImmediate (dest : GpRegisters) (value : Byte)
  | LdVxVy (dest src : GpRegisters)
  | LdSoundTimerDestTx (reg : GpRegisters)
  | LdDelayTimerDestTx (reg : GpRegisters)
  | LdDelayTimerSrcTx (reg : GpRegisters)
  | LdBcd (reg : GpRegisters)
  | LdSpriteLocation (reg : GpRegisters)
  | LdK (reg : GpRegisters)
  | AddImmediate (dest : GpRegisters) (value : Byte)
  | AddIRegisterIndexed (reg : GpRegisters)
  | AddVxVy (dest src : GpRegisters)
  | Sub (dest src : GpRegisters)
  | Subn (dest src : GpRegisters)
  | And (dest src : GpRegisters)
  | Or (dest src : GpRegisters)
  | Shl (dest src : GpRegisters)
  | Shr (dest src : GpRegisters)
  | Xor (dest src : GpRegisters)
  | SeVxVy (dest src : GpRegisters)
  | SeImmediate (reg : GpRegisters) (value : Byte)
  | SneVxVy (dest src : GpRegisters)
  | SneImmediate (reg : GpRegisters) (value : Byte)
  | ReadRegistersFromMemory (reg : GpRegisters)
  | StoreRegistersToMemory (reg : GpRegisters)
  | Skp (reg : GpRegisters)
  | Sknp (reg : GpRegisters)
  | Rnd (reg : GpRegisters) (value : Byte)
  deriving Repr

/-- The match of `decode_bytes_to_opcode`, `src/cpu/chip8/operations/mod.rs:193-230`, on the four
nibbles; the Rust compiler tries the arms from top to bottom. -/
def decodeNibbles (first second third fourth : Nat) (dest_reg src_reg : GpRegisters)
    (absolute : U12) (immediate : Byte) (fourth_byte : Byte) : Option Opcode :=
  match first, second, third, fourth with
  | 0x0, 0x0, 0xe, 0x0 => some .Cls
  | 0x0, 0x0, 0xe, 0xe => some .Ret
  | 0x0, _, _, _ => some (.Sys absolute)
  | 0x1, _, _, _ => some (.JpNonV0Indexed absolute)
  | 0x2, _, _, _ => some (.Call absolute)
  | 0x3, _, _, _ => some (.SeImmediate dest_reg immediate)
  | 0x4, _, _, _ => some (.SneImmediate dest_reg immediate)
  | 0x5, _, _, 0x0 => some (.SeVxVy dest_reg src_reg)
  | 0x6, _, _, _ => some (.LdImmediate dest_reg immediate)
  | 0x7, _, _, _ => some (.AddImmediate dest_reg immediate)
  | 0x8, _, _, 0x0 => some (.LdVxVy dest_reg src_reg)
  | 0x8, _, _, 0x1 => some (.Or dest_reg src_reg)
  | 0x8, _, _, 0x2 => some (.And dest_reg src_reg)
  | 0x8, _, _, 0x3 => some (.Xor dest_reg src_reg)
  | 0x8, _, _, 0x4 => some (.AddVxVy dest_reg src_reg)
  | 0x8, _, _, 0x5 => some (.Sub dest_reg src_reg)
  | 0x8, _, _, 0x6 => some (.Shr dest_reg src_reg)
  | 0x8, _, _, 0x7 => some (.Subn dest_reg src_reg)
  | 0x8, _, _, 0xe => some (.Shl dest_reg src_reg)
  | 0x9, _, _, 0x0 => some (.SneVxVy dest_reg src_reg)
  | 0xa, _, _, _ => some (.LdAbsolute absolute)
  | 0xb, _, _, _ => some (.JpV0Indexed absolute)
  | 0xc, _, _, _ => some (.Rnd dest_reg immediate)
  | 0xd, _, _, _ => some (.Drw dest_reg src_reg fourth_byte)
  | 0xe, _, 0x9, 0xe => some (.Skp dest_reg)
  | 0xe, _, 0xa, 0x1 => some (.Sknp dest_reg)
  | 0xf, _, 0x0, 0x7 => some (.LdDelayTimerSrcTx dest_reg)
  | 0xf, _, 0x0, 0xa => some (.LdK dest_reg)
  | 0xf, _, 0x1, 0x5 => some (.LdDelayTimerDestTx dest_reg)
  | 0xf, _, 0x1, 0x8 => some (.LdSoundTimerDestTx dest_reg)
  | 0xf, _, 0x1, 0xe => some (.AddIRegisterIndexed dest_reg)
  | 0xf, _, 0x2, 0x9 => some (.LdSpriteLocation dest_reg)
  | 0xf, _, 0x3, 0x3 => some (.LdBcd dest_reg)
  | 0xf, _, 0x5, 0x5 => some (.StoreRegistersToMemory dest_reg)
  | 0xf, _, 0x6, 0x5 => some (.ReadRegistersFromMemory dest_reg)
  | _, _, _, _ => none

/-- The text of a failed decode, `src/cpu/chip8/operations/mod.rs:232-237`: `{:#02x}` of the big-endian
word. -/
def noMatch (b0 b1 : Byte) : String :=
  "No match found for " ++ String.ofList
    (padIntegral ⟨true, 2⟩ ['0', 'x'] (digitLoop 16 lowerDigit 128 (b0 ++ b1).toNat []))

/-- `decode_bytes_to_opcode`, `src/cpu/chip8/operations/mod.rs:177-238`, for its only caller, which
passes two bytes (`src/cpu/chip8/mod.rs:347`); `decodeSlice` is the rest. -/
def decodeBytesToOpcode (b0 b1 : Byte) : Res (Except String Opcode) := do
  let first := toUpperNibble b0
  let second := toLowerNibble b0
  let third := toUpperNibble b1
  let fourth := toLowerNibble b1
  let dest_reg ← unwrapResult (GpRegisters.tryFrom second)
  let src_reg ← unwrapResult (GpRegisters.tryFrom third)
  let absolute ← U12.ofNibbles second third fourth
  let immediate := u8FromNibbles third fourth
  match decodeNibbles first.toNat second.toNat third.toNat fourth.toNat dest_reg src_reg absolute
    immediate fourth with
  | some op => .ok (.ok op)
  | none => .ok (.error (noMatch b0 b1))

/-- `decode_bytes_to_opcode`, `src/cpu/chip8/operations/mod.rs:177-238`, for a slice of any length:
bytes after the second are ignored; with fewer than two the closure of `ok_or_else` (lines 232-237)
indexes past the end. -/
def decodeSlice : List Byte → Res (Except String Opcode)
  | b0 :: b1 :: _ => decodeBytesToOpcode b0 b1
  | _ => .error .bounds

end Verif.Chip8
