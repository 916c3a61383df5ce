import Verif.Spec.Chip8
import Verif.Spec.MosStack

/-!
# What a CHIP-8 instruction uses and what it sets

The state of a machine as a family of parts, the parts an instruction looks at, and the parts it gives a
new value. Used for the question which parts of the state can influence an execution.
-/

namespace Verif.Spec.Chip8

open Verif Verif.Chip8
open Verif.Spec.Mos (Mem)

/-- The parts of the state besides the program counter and the generator of random numbers. -/
inductive Part where
  | v (r : GpRegisters)
  | i
  | sp
  /-- a cell of the stack -/
  | cell (k : Nat)
  | delay
  | sound
  | display
  /-- the pending key -/
  | key
  | mem (address : Word)
  deriving DecidableEq

/-- Two machines have the same value of a part. -/
def Same {B B' R R' : Type} (c : Chip8 B R) (d : Chip8 B' R') (mem mem' : Mem) : Part → Prop
  | .v r => V d r = V c r
  | .i => d.i = c.i
  | .sp => d.sp = c.sp
  | .cell k => d.stack.inner[k]? = c.stack.inner[k]?
  | .delay => d.dt = c.dt
  | .sound => d.st = c.st
  | .display => d.display = c.display
  | .key => d.interrupt = c.interrupt
  | .mem a => mem' a = mem a

/-- The same program counter, and the same values of all parts outside `D`. -/
structure Agree {B B' R R' : Type} (D : Part → Prop) (c : Chip8 B R) (d : Chip8 B' R')
    (mem mem' : Mem) : Prop where
  pc : d.pc = c.pc
  same : ∀ p, ¬D p → Same c d mem mem' p

/-- The registers V0 to Vx. -/
def upTo (x : GpRegisters) : List Part :=
  ([.V0, .V1, .V2, .V3, .V4, .V5, .V6, .V7, .V8, .V9, .Va, .Vb, .Vc, .Vd, .Ve, .Vf].filter
    fun r => num r ≤ num x).map .v

/-- The bytes at I to I + n. -/
def span {B R : Type} (c : Chip8 B R) (n : Nat) : List Part :=
  (List.range (n + 1)).map fun k => .mem (iPlus c k)

/-- The instruction itself. -/
def ownBytes {B R : Type} (c : Chip8 B R) : List Part := [.mem c.pc, .mem (c.pc + 1)]

/-- What an instruction looks at besides the program counter and its own two bytes. (Instructions that
need VF do not run.) -/
def looksAt {B R : Type} (c : Chip8 B R) : Opcode → List Part
  | .Ret => [.sp, .cell (c.sp.inner.toNat % 16)]
  | .Call _ => [.sp]
  | .JpV0Indexed _ => [.v .V0]
  | .LdVxVy _ y => [.v y]
  | .And x y | .Or x y | .Xor x y | .SeVxVy x y | .SneVxVy x y | .AddVxVy x y | .Sub x y | .Subn x y =>
    [.v x, .v y]
  | .AddImmediate x _ | .SeImmediate x _ | .SneImmediate x _ | .LdSoundTimerDestTx x
  | .LdDelayTimerDestTx x | .LdSpriteLocation x | .Shl x _ | .Shr x _ => [.v x]
  | .Skp x | .Sknp x => [.v x, .key]
  | .LdK _ => [.key]
  | .LdDelayTimerSrcTx _ => [.delay]
  | .AddIRegisterIndexed x | .LdBcd x => [.i, .v x]
  | .StoreRegistersToMemory x => .i :: upTo x
  | .ReadRegistersFromMemory x => .i :: span c (num x)
  | .Drw x y n => .i :: .v x :: .v y :: .display :: span c n.toNat
  | .Cls | .Sys _ | .JpNonV0Indexed _ | .LdAbsolute _ | .LdImmediate _ _ | .Rnd _ _ => []

/-- All that an instruction looks at besides the program counter. -/
def uses {B R : Type} (c : Chip8 B R) (op : Opcode) : List Part := ownBytes c ++ looksAt c op

/-- What an instruction gives a value. -/
def sets {B R : Type} (c : Chip8 B R) : Opcode → List Part
  | .Cls => [.display]
  | .Call _ => [.cell (c.sp.inner.toNat % 16)]
  | .LdAbsolute _ | .AddIRegisterIndexed _ | .LdSpriteLocation _ => [.i]
  | .LdImmediate x _ | .LdVxVy x _ | .And x _ | .Or x _ | .Xor x _ | .AddImmediate x _ | .Rnd x _
  | .LdDelayTimerSrcTx x => [.v x]
  | .LdK x => if c.interrupt = none then [] else [.v x]
  | .LdSoundTimerDestTx _ => [.sound]
  | .LdDelayTimerDestTx _ => [.delay]
  | .LdBcd _ => span c 2
  | .StoreRegistersToMemory x => span c (num x)
  | .ReadRegistersFromMemory x => upTo x
  | _ => []

/-- The machine executes these instructions, each in the world given with it, one `run(1)` after the
other. -/
inductive Does {B R : Type} [Addressable B] (b : Build) :
    Chip8 B R → List (Env × Opcode) → Chip8 B R → Prop
  | nil (c : Chip8 B R) : Does b c [] c
  | cons {c c' c'' : Chip8 B R} {e : Env} {op : Opcode} {l : List (Env × Opcode)} :
      At b c op → StepsTo b e c c' → Does b c' l c'' → Does b c ((e, op) :: l) c''

/-- The same execution, along which no instruction looks at what may differ, `D` at its start: what an
instruction sets no longer differs. At its end, `D'` may differ. -/
inductive Unseen {B R : Type} [Addressable B] (b : Build) :
    (Part → Prop) → Chip8 B R → List (Env × Opcode) → Chip8 B R → (Part → Prop) → Prop
  | nil {D} (c : Chip8 B R) : Unseen b D c [] c D
  | cons {D D' : Part → Prop} {c c' c'' : Chip8 B R} {e : Env} {op : Opcode}
      {l : List (Env × Opcode)} : At b c op → StepsTo b e c c' → (∀ p ∈ uses c op, ¬D p) →
      Unseen b (fun p => D p ∧ p ∉ sets c op) c' l c'' D' → Unseen b D c ((e, op) :: l) c'' D'

end Verif.Spec.Chip8
