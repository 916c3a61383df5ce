import Verif.Spec.MosProgram
import Verif.Spec.Chip8

/-!
# Table-driven checksums

The usual way to compute a cyclic redundancy check: for each byte of the data, exclusive-or it to the state and look
the result up in a table of 256 bytes.
-/

namespace Verif.Spec

open Verif Verif.Spec.Mos

/-- The checksum of `data` with the table `t`, starting from the state `s`. -/
def checksum (t : Byte → Byte) (s : Byte) (data : List Byte) : Byte := data.foldl (fun s c => t (s ^^^ c)) s

/-- The `n` bytes from the address `a` on. -/
def bytesFrom (mem : Mem) (a n : Nat) : List Byte := (List.range n).map fun i => mem (word (a + i))

/-- The table of 256 bytes from the address `t` on. -/
def tableAt (mem : Mem) (t : Nat) (v : Byte) : Byte := mem (word (t + v.toNat))

/-- One bit of the message enters the shift register of a CRC of eight bits with the polynomial `x^8 + poly`. -/
def crcShift (poly s : Byte) (bit : Bool) : Byte := (s <<< 1) ^^^ (if s.msb ^^ bit then poly else 0)

/-- The CRC of a message given as bits. -/
def crcBits (poly s : Byte) (bits : List Bool) : Byte := bits.foldl (crcShift poly) s

/-- The bits of a byte, the most significant first. -/
def bitsOf (c : Byte) : List Bool := (List.range 8).map c.getMsbD

/-- The entry of the CRC table for the byte `v`: the CRC of the message of the bits of `v`. -/
def crcTable (poly v : Byte) : Byte := crcBits poly 0 (bitsOf v)

/-- `EOR src,Y; TAX; LDA t,X; INY; CPY #n; BNE` with the displacement `d`: the loop on the 6502, with the state in
A. -/
def mosChecksum (d : Byte) (src t n : Nat) : List Byte :=
  [0x59, byte src, byte (src / 256)] ++ ([0xaa] ++ ([0xbd, byte t, byte (t / 256)] ++
    ([0xc8] ++ ([0xc0, byte n] ++ [0xd0, d]))))

/-- The loop on the CHIP-8, with the state in V2 and the index in V1: `LD I,src; ADD I,V1; LD V0,[I]; XOR V0,V2;
LD I,t; ADD I,V0; LD V0,[I]; LD V2,V0; ADD V1,1; SE V1,n; JP p`. -/
def chip8Checksum (p src t n : Nat) : List Nat :=
  [0xa000 + src, 0xf11e, 0xf065, 0x8023, 0xa000 + t, 0xf01e, 0xf065, 0x8200, 0x7101, 0x3100 + n % 256, 0x1000 + p]

end Verif.Spec
