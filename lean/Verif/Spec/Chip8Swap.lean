import Verif.Spec.Chip8Uses

/-!
# Exchanging a piece of a CHIP-8 program
-/

namespace Verif.Spec.Chip8

open Verif Verif.Chip8
open Verif.Spec.Mos (Mem)

section
variable {B B' R R' : Type} [Addressable B] [Addressable B']

/-- The bytes of the piece, as parts of the state. -/
def inPiece (P : Word → Prop) (q : Part) : Prop := ∃ a, P a ∧ q = .mem a

/-- The piece in memory. -/
def HoldsPiece (P : Word → Prop) (code mem : Mem) : Prop := ∀ a, P a → mem a = code a

/-- From an instruction of the piece up to the first instruction outside. -/
inductive Through (b : Build) (P : Word → Prop) : Chip8 B R → List (Env × Opcode) → Chip8 B R → Prop
  | last {c c' : Chip8 B R} {e : Env} {op : Opcode} : P c.pc → At b c op → StepsTo b e c c' → ¬P c'.pc →
      Through b P c [(e, op)] c'
  | more {c c' c'' : Chip8 B R} {e : Env} {op : Opcode} {l : List (Env × Opcode)} : P c.pc → At b c op →
      StepsTo b e c c' → P c'.pc → Through b P c' l c'' → Through b P c ((e, op) :: l) c''

/-- Whatever the one piece does, entered at `p`, up to its first instruction outside, in any worlds, the other
does in some worlds. -/
def SameWork (b : Build) (I : B → Mem → Prop) (I' : B' → Mem → Prop) (R R' : Type) (P : Word → Prop)
    (code code' : Mem) (p : Word) : Prop :=
  ∀ (c : Chip8 B R) (d : Chip8 B' R') (mem mem' : Mem), I c.address_space mem → I' d.address_space mem' →
    WellFormed c → WellFormed d → c.pc = p → Agree (inPiece P) c d mem mem' → HoldsPiece P code mem →
    HoldsPiece P code' mem' → ∀ l c1, Through b P c l c1 →
    ∃ l' d1 m m', Through b P d l' d1 ∧ WellFormed c1 ∧ WellFormed d1 ∧ I c1.address_space m ∧
      I' d1.address_space m' ∧ Agree (inPiece P) c1 d1 m m' ∧ HoldsPiece P code m ∧ HoldsPiece P code' m'

/-- An execution, with the list of the instructions executed outside the piece and their worlds. -/
inductive Apart (b : Build) (P : Word → Prop) :
    Chip8 B R → List (Env × Opcode) → Chip8 B R → List (Env × Opcode) → Prop
  | nil (c : Chip8 B R) : Apart b P c [] c []
  | inside {c c' c'' : Chip8 B R} {e : Env} {op : Opcode} {l out : List (Env × Opcode)} : P c.pc → At b c op →
      StepsTo b e c c' → Apart b P c' l c'' out → Apart b P c ((e, op) :: l) c'' out
  | outside {c c' c'' : Chip8 B R} {e : Env} {op : Opcode} {l out : List (Env × Opcode)} : ¬P c.pc →
      At b c op → StepsTo b e c c' → Apart b P c' l c'' out → Apart b P c ((e, op) :: l) c'' ((e, op) :: out)

/-- The same, where the instructions outside look at nothing in the piece, store nothing into it, store only
where `W` allows, and go to the piece at `p` only. -/
inductive Around (b : Build) (W P : Word → Prop) (p : Word) :
    Chip8 B R → List (Env × Opcode) → Chip8 B R → List (Env × Opcode) → Prop
  | nil (c : Chip8 B R) : Around b W P p c [] c []
  | inside {c c' c'' : Chip8 B R} {e : Env} {op : Opcode} {l out : List (Env × Opcode)} : P c.pc → At b c op →
      StepsTo b e c c' → Around b W P p c' l c'' out → Around b W P p c ((e, op) :: l) c'' out
  | outside {c c' c'' : Chip8 B R} {e : Env} {op : Opcode} {l out : List (Env × Opcode)} : ¬P c.pc →
      At b c op → StepsTo b e c c' → (∀ q ∈ uses c op, ¬inPiece P q) → (∀ a, .mem a ∈ sets c op → ¬P a ∧ W a) →
      (P c'.pc → c'.pc = p) → Around b W P p c' l c'' out →
      Around b W P p c ((e, op) :: l) c'' ((e, op) :: out)

end

end Verif.Spec.Chip8
