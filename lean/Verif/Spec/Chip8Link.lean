import Verif.Spec.Chip8Uses

/-!
# A CHIP-8 program linked at another place

CHIP-8 jumps and calls have absolute addresses. A program is moved by moving its instructions and adding
the distance to the addresses of its jumps and calls. The addresses of its data stay.
-/

namespace Verif.Spec.Chip8

open Verif Verif.Chip8
open Verif.Spec.Mos (Mem)

/-- The instruction for a program moved by `k`. -/
def patch (k : Word) : Opcode → Opcode
  | .JpNonV0Indexed a => .JpNonV0Indexed ⟨a.val + k⟩
  | .JpV0Indexed a => .JpV0Indexed ⟨a.val + k⟩
  | .Call a => .Call ⟨a.val + k⟩
  | op => op

/-- The bytes of the instructions at the addresses `P`. -/
def Code (P : Word → Prop) (a : Word) : Prop := P a ∨ P (a - 1)

/-- The second memory holds the program of the first (its instructions are at the addresses `P`) moved by
`k`; the memories agree outside both places. -/
structure LinkedMem (k : Word) (P : Word → Prop) (mem mem' : Mem) : Prop where
  code : ∀ p, P p → ∀ op, Valid op → wordAt mem p = encode op →
    Valid (patch k op) ∧ wordAt mem' (p + k) = encode (patch k op)
  data : ∀ a, ¬Code P a → ¬Code P (a - k) → mem' a = mem a

/-- The same state with the program counter, and the return addresses in the stack cells `S`, moved. -/
structure Linked {B B' R R' : Type} (k : Word) (S : Nat → Prop) (c : Chip8 B R) (d : Chip8 B' R') :
    Prop where
  pc : d.pc = c.pc + k
  v : ∀ r, V d r = V c r
  i : d.i = c.i
  sp : d.sp = c.sp
  delay : d.dt = c.dt
  sound : d.st = c.st
  display : d.display = c.display
  key : d.interrupt = c.interrupt
  cell : ∀ j, S j → d.stack.inner[j]?.getD 0 = c.stack.inner[j]?.getD 0 + k

/-- How many bytes beyond I an instruction reads or writes. -/
def dataSpan : Opcode → Option Nat
  | .LdBcd _ => some 2
  | .StoreRegistersToMemory x | .ReadRegistersFromMemory x => some (num x)
  | _ => none

/-- An instruction a moved program may execute: it is one of the program, its data are not in the program
or where the program is moved to, a return finds an address that was pushed (`S`), and an indexed jump does
not run over address 0xfff. -/
structure Movable {B R : Type} (k : Word) (P : Word → Prop) (S : Nat → Prop) (c : Chip8 B R)
    (op : Opcode) : Prop where
  own : P c.pc
  data : ∀ n j, dataSpan op = some n → j ≤ n → ¬Code P (iPlus c j) ∧ ¬Code P (iPlus c j - k)
  ret : op = .Ret → S (c.sp.inner.toNat % 16)
  indexed : ∀ a, op = .JpV0Indexed a → a.val.toNat + (V c .V0).toNat < 4096 ∧
    (a.val + k).toNat + (V c .V0).toNat < 4096

/-- The cells that hold an address of the program after an instruction. -/
def pushed {B R : Type} (S : Nat → Prop) (c : Chip8 B R) : Opcode → Nat → Prop
  | .Call _, j => S j ∨ j = c.sp.inner.toNat % 16
  | _, j => S j

/-- An execution of movable instructions. At its end the cells `S'` hold addresses of the program. -/
inductive Moves {B R : Type} [Addressable B] (b : Build) (k : Word) (P : Word → Prop) :
    (Nat → Prop) → Chip8 B R → List (Env × Opcode) → Chip8 B R → (Nat → Prop) → Prop
  | nil {S} (c : Chip8 B R) : Moves b k P S c [] c S
  | cons {S S' : Nat → Prop} {c c' c'' : Chip8 B R} {e : Env} {op : Opcode}
      {l : List (Env × Opcode)} : At b c op → StepsTo b e c c' → Movable k P S c op →
      Moves b k P (pushed S c op) c' l c'' S' → Moves b k P S c ((e, op) :: l) c'' S'

end Verif.Spec.Chip8
