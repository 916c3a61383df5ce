import Verif.Spec.Chip8Link

/-!
# A CHIP-8 program with its registers renamed

The registers V0 to VE are alike, except that an indexed jump adds V0 and that the instructions that store
and load several registers take them in the order of their numbers.
-/

namespace Verif.Spec.Chip8

open Verif Verif.Chip8
open Verif.Spec.Mos (Mem)

/-- The instruction with its registers renamed. -/
def rename (π : GpRegisters → GpRegisters) : Opcode → Opcode
  | .SeImmediate x kk => .SeImmediate (π x) kk
  | .SneImmediate x kk => .SneImmediate (π x) kk
  | .SeVxVy x y => .SeVxVy (π x) (π y)
  | .LdImmediate x kk => .LdImmediate (π x) kk
  | .AddImmediate x kk => .AddImmediate (π x) kk
  | .LdVxVy x y => .LdVxVy (π x) (π y)
  | .Or x y => .Or (π x) (π y)
  | .And x y => .And (π x) (π y)
  | .Xor x y => .Xor (π x) (π y)
  | .AddVxVy x y => .AddVxVy (π x) (π y)
  | .Sub x y => .Sub (π x) (π y)
  | .Shr x y => .Shr (π x) (π y)
  | .Subn x y => .Subn (π x) (π y)
  | .Shl x y => .Shl (π x) (π y)
  | .SneVxVy x y => .SneVxVy (π x) (π y)
  | .Rnd x kk => .Rnd (π x) kk
  | .Drw x y n => .Drw (π x) (π y) n
  | .Skp x => .Skp (π x)
  | .Sknp x => .Sknp (π x)
  | .LdDelayTimerSrcTx x => .LdDelayTimerSrcTx (π x)
  | .LdK x => .LdK (π x)
  | .LdDelayTimerDestTx x => .LdDelayTimerDestTx (π x)
  | .LdSoundTimerDestTx x => .LdSoundTimerDestTx (π x)
  | .AddIRegisterIndexed x => .AddIRegisterIndexed (π x)
  | .LdSpriteLocation x => .LdSpriteLocation (π x)
  | .LdBcd x => .LdBcd (π x)
  | .StoreRegistersToMemory x => .StoreRegistersToMemory (π x)
  | .ReadRegistersFromMemory x => .ReadRegistersFromMemory (π x)
  | .Cls => .Cls
  | .Ret => .Ret
  | .Sys a => .Sys a
  | .JpNonV0Indexed a => .JpNonV0Indexed a
  | .Call a => .Call a
  | .LdAbsolute a => .LdAbsolute a
  | .JpV0Indexed a => .JpV0Indexed a

/-- Different registers keep different names, and VF stays VF. -/
structure Renaming (π : GpRegisters → GpRegisters) : Prop where
  inj : ∀ r s, π r = π s → r = s
  vf : π .Vf = .Vf

/-- The second memory holds the program of the first (its instructions are at the addresses `P`) with its
registers renamed; the memories agree elsewhere. -/
structure RenamedMem (π : GpRegisters → GpRegisters) (P : Word → Prop) (mem mem' : Mem) : Prop where
  code : ∀ p, P p → ∀ op, Valid op → wordAt mem p = encode op → wordAt mem' p = encode (rename π op)
  data : ∀ a, ¬Code P a → mem' a = mem a

/-- The same state with the registers renamed. -/
structure Renamed {B B' R R' : Type} (π : GpRegisters → GpRegisters) (c : Chip8 B R) (d : Chip8 B' R') :
    Prop where
  pc : d.pc = c.pc
  v : ∀ r, V d (π r) = V c r
  i : d.i = c.i
  sp : d.sp = c.sp
  stack : d.stack.inner = c.stack.inner
  delay : d.dt = c.dt
  sound : d.st = c.st
  display : d.display = c.display
  key : d.interrupt = c.interrupt

/-- An instruction whose registers may be renamed: it is one of the program, its data are not in the
program, and the registers it takes by their number keep their names. -/
structure Renamable {B R : Type} (π : GpRegisters → GpRegisters) (P : Word → Prop) (c : Chip8 B R)
    (op : Opcode) : Prop where
  own : P c.pc
  data : ∀ n j, dataSpan op = some n → j ≤ n → ¬Code P (iPlus c j)
  indexed : ∀ a, op = .JpV0Indexed a → π .V0 = .V0
  block : ∀ x r, op = .StoreRegistersToMemory x ∨ op = .ReadRegistersFromMemory x → num r ≤ num x →
    π r = r

/-- An execution of such instructions. -/
inductive Renames {B R : Type} [Addressable B] (b : Build) (π : GpRegisters → GpRegisters)
    (P : Word → Prop) : Chip8 B R → List (Env × Opcode) → Chip8 B R → Prop
  | nil (c : Chip8 B R) : Renames b π P c [] c
  | cons {c c' c'' : Chip8 B R} {e : Env} {op : Opcode} {l : List (Env × Opcode)} :
      At b c op → StepsTo b e c c' → Renamable π P c op → Renames b π P c' l c'' →
      Renames b π P c ((e, op) :: l) c''

end Verif.Spec.Chip8
