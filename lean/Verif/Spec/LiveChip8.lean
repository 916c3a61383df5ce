import Verif.Spec.LiveBus
import Verif.Spec.Chip8
import Verif.Spec.Chip8Alike
import Verif.Model.Chip8.Live.Cpu

/-!
# The calls of the CHIP-8 on its bus
-/

namespace Verif.Spec.Live

open Verif Verif.Live Verif.Chip8 Verif.Spec.Chip8
open Verif.Spec.Mos (writeAll)

variable {R : Type}

/-- The machine `c` with the bus `bus`. -/
def onBus {A B R : Type} (c : Chip8 A R) (bus : B) : Chip8 B R where
  stack := c.stack
  address_space := bus
  dt := c.dt
  st := c.st
  pc := c.pc
  sp := c.sp
  i := c.i
  gp_registers := c.gp_registers
  display := c.display
  interrupt := c.interrupt
  rng := c.rng

/-- The memory writes of a list of microcode, in order. -/
def byteStores : List Microcode → List (Word × Byte)
  | [] => []
  | .WriteMemory a v :: mcs => (a, v) :: byteStores mcs
  | _ :: mcs => byteStores mcs

/-- The addresses `i`, `i + 1`, …, `n` of them, modulo 65536. -/
def cellsFrom (i : Word) (n : Nat) : List Word := (List.range n).map fun k => BitVec.ofNat 16 (i.toNat + k)

/-- How many bytes an instruction reads at I: the rows of a sprite, the registers of `Fx65`. -/
def readCount : Opcode → Nat
  | .Drw _ _ n => n.toNat
  | .ReadRegistersFromMemory x => num x + 1
  | _ => 0

/-- How many bytes an instruction stores at I: three digits, the registers of `Fx55`. -/
def storeCount : Opcode → Nat
  | .LdBcd _ => 3
  | .StoreRegistersToMemory x => num x + 1
  | _ => 0

/-- Writes as calls on one clone with any answers. -/
def anyPuts (who : Copy) (ws : List (Word × Byte × Except String Byte)) : List Call :=
  ws.map fun p => .write who p.1 p.2.1 p.2.2

/-- The microcode `mcs` of the instruction `op` and the state after it are those on every bus that
holds the bytes `reads` and accepts the stores. -/
def AsOnBus (b : Build) (e : Env) (c : Chip8 Unit R) (op : Opcode) (reads : List (Word × Byte))
    (mcs : List Microcode) (c' : Chip8 Unit R) : Prop :=
  ∀ (B : Type) [Addressable B] (bus bus' : B), (∀ p ∈ reads, Addressable.read b bus p.1 = .ok p.2) →
    writeAll b bus (byteStores mcs) = .ok bus' →
    (generate b e (onBus c bus) op).map (· ++ [.Inc16bitRegister .ProgramCounter 2]) = .ok mcs ∧
    executeAll b e.iterAt (onBus c bus) mcs = .ok (onBus c' bus')

/-- One instruction: the two bytes at `pc` are its encoding, the bytes it reads at I follow. -/
def OneOpcode (b : Build) (e : Env) (c : Chip8 Unit R) (reads : List (Word × Byte)) (mcs : List Microcode)
    (c' : Chip8 Unit R) : Prop :=
  ∃ op b0 b1 rs, Valid op ∧ encode op = b0.toNat * 256 + b1.toNat ∧
    rs.map Prod.fst = cellsFrom c.i (readCount op) ∧
    reads = (c.pc, b0) :: (BitVec.ofNat 16 (c.pc.toNat + 1), b1) :: rs ∧
    (byteStores mcs).map Prod.fst = cellsFrom c.i (storeCount op) ∧ AsOnBus b e c op rs mcs c'

/-- What the fold of `run` makes of the microcode, on every bus that accepts the stores. -/
def Folds (b : Build) (t : Instant) (c : Chip8 Unit R) (mcs : List Microcode) (c' : Chip8 Unit R) : Prop :=
  ∀ (B : Type) [Addressable B] (bus bus' : B), writeAll b bus (byteStores mcs) = .ok bus' →
    executeAll b t (onBus c bus) mcs = .ok (onBus c' bus')

/-- `RanOpcodes b env n k it c l c'`: a run of `n` instructions, the first being number `k`, with the
iterator's machine in the state `it` and the machine itself in the state `c`, makes the calls `l` and
ends in the state `c'`. Every instruction reads from the iterator's clone, stores there, and stores
again on the bus of the machine. -/
inductive RanOpcodes (b : Build) (env : Nat → Env) :
    Nat → Nat → Chip8 Unit R → Chip8 Unit R → List Call → Chip8 Unit R → Prop
  | stop (k : Nat) (it c : Chip8 Unit R) : RanOpcodes b env 0 k it c [] c
  | step {n k : Nat} {it it' c c' c'' : Chip8 Unit R} {reads : List (Word × Byte)} {mcs : List Microcode}
      {vs vs' : List Byte} {l : List Call} :
      OneOpcode b (env k) it reads mcs it' → Folds b (env k).foldAt c mcs c' →
      vs.length = (byteStores mcs).length → vs'.length = (byteStores mcs).length →
      RanOpcodes b env n (k + 1) it' c' l c'' →
      RanOpcodes b env (n + 1) k it c (readCalls .iterator reads ++ (putCalls .iterator (byteStores mcs) vs ++
        (putCalls .own (byteStores mcs) vs' ++ l))) c''

end Verif.Spec.Live
