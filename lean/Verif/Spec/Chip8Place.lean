import Verif.Spec.Chip8Link

/-!
# A CHIP-8 program with its data at another place

CHIP-8 instructions reach their data through I. A program finds its data elsewhere if the addresses it loads
into I are adjusted.
-/

namespace Verif.Spec.Chip8

open Verif Verif.Chip8
open Verif.Spec.Mos (Mem)

/-- The instruction for a program whose data are at the places `f`. -/
def readdress (f : Word → Word) : Opcode → Opcode
  | .LdAbsolute a => .LdAbsolute ⟨f a.val⟩
  | op => op

/-- The second memory holds the program (its instructions are at the addresses `P`) with the addresses of its data
adjusted, and all other bytes at their new places. -/
structure PlacedMem (f : Word → Word) (P : Word → Prop) (mem mem' : Mem) : Prop where
  code : ∀ p, P p → ∀ op, Valid op → wordAt mem p = encode op →
    Valid (readdress f op) ∧ wordAt mem' p = encode (readdress f op)
  data : ∀ a, ¬Code P a → mem' (f a) = mem a

/-- The same state, I pointing at the new place. -/
structure Placed {B B' R R' : Type} (f : Word → Word) (c : Chip8 B R) (d : Chip8 B' R') : Prop where
  pc : d.pc = c.pc
  v : ∀ r, V d r = V c r
  i : d.i = f c.i
  sp : d.sp = c.sp
  cell : ∀ j : Nat, d.stack.inner[j]? = c.stack.inner[j]?
  delay : d.dt = c.dt
  sound : d.st = c.st
  display : d.display = c.display
  key : d.interrupt = c.interrupt

/-- An instruction whose data may be elsewhere: it is one of the program; its data are not the program, before and
after, and lie at their new places one behind the other as before; what is added to I leads to the new place; the
glyphs stay. -/
structure Placeable {B R : Type} (b : Build) (f : Word → Word) (P : Word → Prop) (c : Chip8 B R)
    (op : Opcode) : Prop where
  own : P c.pc
  data : ∀ n j, dataSpan op = some n → j ≤ n → f (iPlus c j) = f c.i + BitVec.ofNat 16 j ∧
    ¬Code P (iPlus c j) ∧ ¬Code P (f (iPlus c j))
  fits : b.overflowChecks = true → ∀ n, dataSpan op = some n → (f c.i).toNat + n < 65536
  add : ∀ x, op = .AddIRegisterIndexed x →
    f (iPlus c (V c x).toNat) = f c.i + BitVec.ofNat 16 (V c x).toNat
  glyph : ∀ x, op = .LdSpriteLocation x →
    f (BitVec.ofNat 16 ((V c x).toNat * 5 % 256)) = BitVec.ofNat 16 ((V c x).toNat * 5 % 256)

/-- An execution of such instructions. -/
inductive DoesPlaced {B R : Type} [Addressable B] (b : Build) (f : Word → Word) (P : Word → Prop) :
    Chip8 B R → List (Env × Opcode) → Chip8 B R → Prop
  | nil (c : Chip8 B R) : DoesPlaced b f P c [] c
  | cons {c c' c'' : Chip8 B R} {e : Env} {op : Opcode} {l : List (Env × Opcode)} : At b c op →
      StepsTo b e c c' → Placeable b f P c op → DoesPlaced b f P c' l c'' →
      DoesPlaced b f P c ((e, op) :: l) c''

end Verif.Spec.Chip8
