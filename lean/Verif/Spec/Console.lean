import Verif.Spec.LiveSplit
import Verif.Spec.LiveChip8
import Verif.Spec.Devices
import Verif.Spec.Checksum
import Verif.Spec.MosRef
import Verif.Proofs.MosSample

/-!
# Machines with a port behind which there is another device
-/

namespace Verif.Spec.Live

open Verif Verif.Live Verif.Mos Verif.Spec Verif.Spec.Mos

/-- What is behind a port: taking a byte from it and giving one to it. -/
class Wire (W : Type) where
  /-- the byte taken, and what is behind the port then -/
  take : W → Byte × W
  /-- what is behind the port after a byte was given -/
  give : W → Byte → W

/-- 64 kB of memory of which one address is a port to take bytes from and one a port to give bytes to. The
memory is the machine's own, what is behind the ports is the same for all clones. Such devices are not in the
crate; they implement `src/address_map/mod.rs:34-42`. -/
structure Console where
  /-- the memory -/
  mem : Mem
  /-- the port that is read -/
  inp : Word
  /-- the port that is written -/
  outp : Word

/-- The methods of such a device, `src/address_map/mod.rs:40-41`. -/
instance {W : Type} [Wire W] : Device W Console where
  read _ d a w := if a = d.inp then (.ok ((Wire.take w).1, d), (Wire.take w).2) else (.ok (d.mem a, d), w)
  write _ d a v w :=
    if a = d.outp then (.ok (.ok v, d), Wire.give w v) else (.ok (.ok v, { d with mem := upd d.mem a v }), w)

/-- A line: what has not been typed yet and what has been printed. -/
structure Line where
  /-- what has not been typed yet -/
  input : List Byte
  /-- what has been printed -/
  output : List Byte
  deriving DecidableEq

/-- When everything has been typed, zeroes are read. -/
instance : Wire Line where
  take w := (w.input.headD 0, { w with input := w.input.tail })
  give w v := { w with output := w.output ++ [v] }

/-- What has not been typed yet and a lamp that shows one byte. -/
structure Lamp where
  /-- what has not been typed yet -/
  input : List Byte
  /-- what is shown -/
  shows : Byte

/-- The lamp shows the byte given last. -/
instance : Wire Lamp where
  take w := (w.input.headD 0, { w with input := w.input.tail })
  give w v := { w with shows := v }

section
variable {W : Type} [Wire W]

/-- The memory as the next read of each address finds it. -/
def Console.seen (d : Console) (w : W) : Mem := upd d.mem d.inp (Wire.take w).1

/-- The memory after stores; those to the port do not get there. -/
def Console.keep (d : Console) (ws : List (Word × Byte)) : Console :=
  { d with mem := store d.mem (ws.filter fun p => decide (p.1 ≠ d.outp)) }

/-- Given bytes, one after the other. -/
def gives (w : W) (vs : List Byte) : W := vs.foldl Wire.give w

/-- Behind the port when a number of bytes has been taken. -/
def takes : Nat → W → W
  | 0, w => w
  | k + 1, w => takes k (Wire.take w).2

/-- `Talks b n m (r, d, w) (r', d', w')`: instructions of `m` cycles altogether lead from the one to the other.
Each does with registers and memory what it does on memory that holds, at the port, the byte to be taken. That
byte is taken if the instruction reads it (which it does at most once). What it stores to the other port is
given `n` times. -/
inductive Talks (b : Build) (n : Nat) : Nat → Regs × Console × W → Regs × Console × W → Prop
  | stop (x : Regs × Console × W) : Talks b n 0 x x
  | step {r : Regs} {d : Console} {w : W} {ops : Operations} {c' : Mos6502 FlatRam} {i : InstructionVariant}
      {reads : List (Word × Byte)} {m k : Nat} {z : Regs × Console × W} :
      next b (withRegs r (⟨d.seen w⟩ : FlatRam)) = .ok (ops, c') →
      InstructionReads r i reads → (∀ p ∈ reads, p.2 = d.seen w p.1) →
      (reads.map Prod.fst).count d.inp = k → k ≤ 1 →
      Talks b n m (regs c', d.keep (storesOf ops),
        gives (takes k w) (List.replicate n (shownAt d.outp (storesOf ops))).flatten) z →
      Talks b n (ops.cycles + m) (r, d, w) z

/-- The same for the CHIP-8: `Chip8Talks b env n m k (c, d, w) (c', d', w')`: `m` instructions, of which the first is
number `k`, lead from the one to the other. -/
inductive Chip8Talks (b : Build) (env : Nat → Chip8.Env) (n : Nat) {R : Type} :
    Nat → Nat → Chip8.Chip8 Unit R × Console × W → Chip8.Chip8 Unit R × Console × W → Prop
  | stop (k : Nat) (x : Chip8.Chip8 Unit R × Console × W) : Chip8Talks b env n 0 k x x
  | step {c : Chip8.Chip8 Unit R} {d : Console} {w : W} {op : Chip8.Opcode} {mcs : List Chip8.Microcode}
      {c' : Chip8.Chip8 FlatRam R} {k m j : Nat} {z : Chip8.Chip8 Unit R × Console × W} :
      Chip8.next b (env k) (onBus c (⟨d.seen w⟩ : FlatRam)) = .ok (mcs, c') →
      Chip8.Valid op →
      Chip8.encode op = (d.seen w c.pc).toNat * 256 + (d.seen w (word (c.pc.toNat + 1))).toNat →
      (c.pc :: word (c.pc.toNat + 1) :: cellsFrom c.i (readCount op)).count d.inp = j → j ≤ 1 →
      Chip8Talks b env n m (k + 1) (onBus c' (), d.keep (byteStores mcs),
        gives (takes j w) (List.replicate n (shownAt d.outp (byteStores mcs))).flatten) z →
      Chip8Talks b env n (m + 1) k (c, d, w) z

end

/-- `p: LD V0, [I]; LD [I], V0; JP p`, for the CHIP-8: give back every byte taken. -/
def echo (p : Nat) : List Nat := [0xf065, 0xf055, 0x1000 + p]

/-- `p: TYA; EOR inp; TAX; LDA table,X; TAY; STA outp; JMP p`: for every byte taken, Y becomes the entry of the
table for Y with that byte, and is given. The table starts at page `t`. -/
def filter (p t : Nat) (inp outp : Word) : List Byte :=
  [0x98] ++ ([0x4d, byte inp.toNat, byte (inp.toNat / 256)] ++ ([0xaa] ++ ([0xbd, 0, byte t] ++ ([0xa8] ++
    ([0x8d, byte outp.toNat, byte (outp.toNat / 256)] ++ [0x4c, byte p, byte (p / 256)])))))

/-- The checksums (`checksum`, C131) of the beginnings of a list. -/
def running (t : Byte → Byte) (s : Byte) : List Byte → List Byte
  | [] => []
  | c :: cs => t (s ^^^ c) :: running t (t (s ^^^ c)) cs

end Verif.Spec.Live
