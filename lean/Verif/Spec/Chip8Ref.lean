import Verif.Spec.Chip8

/-!
# A complete reference CHIP-8

The machine of the usual description (Cowgod's technical reference) as one interpreter over plain
numbers: sixteen registers, I, a stack of at most sixteen return addresses, 4096 bytes of memory, a
64 by 32 screen, two timers that count down sixty times a second, and a keypad. `none` where the
description says nothing: words that are no instruction, addresses outside memory, a return without a
call, a seventeenth nested call, a digit or key above F.

The world supplies the instants at which the step reads and writes a timer, and a random byte.
-/

namespace Verif.Spec.Chip8

open Verif Verif.Chip8
open Verif.Spec.Mos (Mem Coherent)

/-- A timer: the value written to it and the instant (in nanoseconds) at which it was written. -/
structure Timer where
  value : Byte
  since : Nat

/-- What a timer shows: it loses one sixty times a second until it is 0. -/
def Timer.shows (t : Timer) (now : Nat) : Nat := t.value.toNat - (now - t.since) * 60 / 1000000000

/-- What the world answers during a step. -/
structure World where
  readAt : Nat
  writeAt : Nat
  rand : Byte

/-- The state of the reference machine. -/
structure Vip where
  v : Nat → Byte
  i : Word
  pc : Word
  /-- return addresses, the latest first -/
  stack : List Word
  mem : Mem
  screen : Nat → Nat → Bool
  dt : Timer
  st : Timer
  /-- the number of the key that is held down -/
  key : Option Nat

namespace Vip

/-- Go on to the instruction `n` bytes ahead. -/
def on (s : Vip) (n : Nat) : Vip := { s with pc := BitVec.ofNat 16 (s.pc.toNat + n) }

/-- Replace a register. -/
def set (s : Vip) (x : Nat) (v : Byte) : Vip := { s with v := fun k => if k = x then v else s.v k }

/-- Replace a register and then VF. -/
def setF (s : Vip) (x : Nat) (v : Byte) (f : Bool) : Vip := (s.set x v).set 15 (if f then 1 else 0)

/-- Skip the next instruction if `c` holds. -/
def skipIf (s : Vip) (c : Bool) : Vip := s.on (if c then 4 else 2)

/-- The memory cells I to I + n exist. -/
def Room (s : Vip) (n : Nat) : Prop := s.i.toNat + n < 4096

instance (s : Vip) (n : Nat) : Decidable (s.Room n) := by unfold Room; infer_instance

/-- Write the bytes `f 0`, …, `f n` to I, …, I + n. -/
def store (s : Vip) (n : Nat) (f : Nat → Byte) : Vip :=
  { s with mem := fun a =>
      if s.i.toNat ≤ a.toNat ∧ a.toNat ≤ s.i.toNat + n then f (a.toNat - s.i.toNat) else s.mem a }

/-- Whether the sprite of `n` rows at I, with its corner at `(vx, vy)` modulo the screen, covers the
pixel `(px, py)` with a set bit; it wraps around the edges. -/
def covers (s : Vip) (vx vy n px py : Nat) : Bool :=
  let dx := (px + 64 - vx % 64) % 64
  let dy := (py + 32 - vy % 32) % 32
  decide (px < 64) && decide (py < 32) && decide (dx < 8) && decide (dy < n) &&
    (s.mem (BitVec.ofNat 16 (s.i.toNat + dy))).getLsbD (7 - dx)

/-- Draw the sprite by exclusive or; VF tells whether a lit pixel was switched off. -/
def draw (s : Vip) (vx vy n : Nat) : Vip :=
  let hit := (List.range 64).any fun px => (List.range 32).any fun py =>
    s.covers vx vy n px py && s.screen px py
  { s with screen := fun px py => s.screen px py != s.covers vx vy n px py }.set 15
    (if hit then 1 else 0)

/-- The arithmetic and logic group `8xyn`. -/
def arith (s : Vip) (x y n : Nat) : Option Vip :=
  let a := s.v x
  let c := s.v y
  match n with
  | 0x0 => some ((s.set x c).on 2)
  | 0x1 => some ((s.set x (a ||| c)).on 2)
  | 0x2 => some ((s.set x (a &&& c)).on 2)
  | 0x3 => some ((s.set x (a ^^^ c)).on 2)
  | 0x4 => some ((s.setF x (BitVec.ofNat 8 (a.toNat + c.toNat)) (255 < a.toNat + c.toNat)).on 2)
  | 0x5 => some ((s.setF x (BitVec.ofNat 8 (a.toNat + 256 - c.toNat)) (c.toNat ≤ a.toNat)).on 2)
  | 0x6 => some ((s.setF x (BitVec.ofNat 8 (a.toNat / 2)) (a.toNat % 2 = 1)).on 2)
  | 0x7 => some ((s.setF x (BitVec.ofNat 8 (c.toNat + 256 - a.toNat)) (a.toNat ≤ c.toNat)).on 2)
  | 0xE => some ((s.setF x (BitVec.ofNat 8 (a.toNat * 2)) (128 ≤ a.toNat)).on 2)
  | _ => none

/-- The group `Fxkk`. -/
def misc (w : World) (s : Vip) (x kk : Nat) : Option Vip :=
  match kk with
  | 0x07 => some ((s.set x (BitVec.ofNat 8 (s.dt.shows w.readAt))).on 2)
  | 0x0A => match s.key with
    | none => some s
    | some k => some ((s.set x (BitVec.ofNat 8 k)).on 2)
  | 0x15 => some ({ s with dt := ⟨s.v x, w.writeAt⟩ }.on 2)
  | 0x18 => some ({ s with st := ⟨s.v x, w.writeAt⟩ }.on 2)
  | 0x1E => some ({ s with i := BitVec.ofNat 16 (s.i.toNat + (s.v x).toNat) }.on 2)
  | 0x29 => if (s.v x).toNat < 16 then
      some ({ s with i := BitVec.ofNat 16 (5 * (s.v x).toNat) }.on 2)
    else none
  | 0x33 => if s.Room 2 then
      some ((s.store 2 fun k => BitVec.ofNat 8
        (if k = 0 then (s.v x).toNat / 100
         else if k = 1 then (s.v x).toNat / 10 % 10 else (s.v x).toNat % 10)).on 2)
    else none
  | 0x55 => if s.Room x then some ((s.store x s.v).on 2) else none
  | 0x65 => if s.Room x then
      some ({ s with v := fun k =>
        if k ≤ x then s.mem (BitVec.ofNat 16 (s.i.toNat + k)) else s.v k }.on 2)
    else none
  | _ => none

/-- The instruction with the first digit `p`, register digits `x` and `y`, last digit `n`, last two
digits `kk` and last three digits `nnn`. -/
def exec (w : World) (s : Vip) (p x y n kk nnn : Nat) : Option Vip :=
  match p with
  | 0x0 =>
    if nnn = 0x0E0 then some ({ s with screen := fun _ _ => false }.on 2)
    else if nnn = 0x0EE then
      match s.stack with
      | [] => none
      | a :: l => some { s with pc := a, stack := l }
    else some (s.on 2)
  | 0x1 => some { s with pc := BitVec.ofNat 16 nnn }
  | 0x2 =>
    if s.stack.length < 16 then
      some { s with
        pc := BitVec.ofNat 16 nnn, stack := BitVec.ofNat 16 (s.pc.toNat + 2) :: s.stack }
    else none
  | 0x3 => some (s.skipIf ((s.v x).toNat = kk))
  | 0x4 => some (s.skipIf ((s.v x).toNat ≠ kk))
  | 0x5 => if n = 0 then some (s.skipIf (s.v x = s.v y)) else none
  | 0x6 => some ((s.set x (BitVec.ofNat 8 kk)).on 2)
  | 0x7 => some ((s.set x (BitVec.ofNat 8 ((s.v x).toNat + kk))).on 2)
  | 0x8 => s.arith x y n
  | 0x9 => if n = 0 then some (s.skipIf (s.v x ≠ s.v y)) else none
  | 0xA => some ({ s with i := BitVec.ofNat 16 nnn }.on 2)
  | 0xB => some { s with pc := BitVec.ofNat 16 (nnn + (s.v 0).toNat) }
  | 0xC => some ((s.set x (w.rand &&& BitVec.ofNat 8 kk)).on 2)
  | 0xD => if s.Room n then some ((s.draw (s.v x).toNat (s.v y).toNat n).on 2) else none
  | 0xE =>
    if kk = 0x9E ∧ (s.v x).toNat < 16 then some (s.skipIf (s.key = some (s.v x).toNat))
    else if kk = 0xA1 ∧ (s.v x).toNat < 16 then some (s.skipIf (s.key ≠ some (s.v x).toNat))
    else none
  | 0xF => s.misc w x kk
  | _ => none

/-- The instruction word at the program counter. -/
def word (s : Vip) : Nat := wordAt s.mem s.pc

/-- One instruction. -/
def step (w : World) (s : Vip) : Option Vip :=
  if s.pc.toNat + 1 < 4096 then
    let c := s.word
    s.exec w (c / 0x1000) (c / 0x100 % 16) (c / 0x10 % 16) (c % 16) (c % 0x100) (c % 0x1000)
  else none

/-- `n` instructions, the `k`-th in the world `w k`. -/
def steps (w : Nat → World) : Nat → Vip → Option Vip
  | 0, s => some s
  | n + 1, s => (steps w n s).bind (step (w n))

end Vip

/-- The emulated machine shows the state of the reference machine: registers (except VF, which the
emulator lacks), I, program counter, memory, screen, timers and key. The call stacks are not
compared; they show when a subroutine returns. -/
structure Agrees {B R : Type} (I : B → Mem → Prop) (cpu : Chip8 B R) (s : Vip) : Prop where
  v : ∀ r : GpRegisters, r ≠ .Vf → V cpu r = s.v (num r)
  i : cpu.i = s.i
  pc : cpu.pc = s.pc
  mem : I cpu.address_space s.mem
  screen : ∀ x y, x < 64 → y < 32 → lit cpu.display x y = s.screen x y
  dt : cpu.dt = ⟨s.dt.since, s.dt.value⟩
  st : cpu.st = ⟨s.st.since, s.st.value⟩
  key : ∀ n, Pressed cpu n ↔ s.key = some n

/-- What the emulator needs to know of the world. -/
def worldOf (e : Env) : World := ⟨e.readAt, e.foldAt, e.rand⟩

/-- The bus accepts writes to the 4096 bytes of memory. -/
def AcceptsLow {B : Type} [Addressable B] (b : Build) (I : B → Mem → Prop) : Prop :=
  ∀ bus mem, I bus mem → ∀ a : Word, a.toNat < 4096 → ∀ v, ∃ r bus',
    Addressable.write b bus a v = .ok (.ok r, bus')

/-- The address a RET of the emulator goes to. -/
def returnTarget {B R : Type} (cpu : Chip8 B R) : Word :=
  cpu.stack.inner[cpu.sp.inner.toNat % 16]?.getD 0

/-- When the emulator does what the reference machine does for the instruction `pxyn`. `ret` is where
the emulator would return to. -/
def Faithful (w : World) (s : Vip) (ret : Word) (p x y n kk nnn : Nat) : Prop :=
  match p with
  | 0x0 => nnn = 0x0EE → s.stack.head? = some ret
  | 0x1 | 0x2 | 0xA => True
  | 0x5 | 0x9 => x ≠ 15 ∧ y ≠ 15
  | 0x8 => n < 4 ∧ x ≠ 15 ∧ y ≠ 15
  | 0xB => nnn + (s.v 0).toNat < 4096
  | 0xD => False
  | 0xF => x ≠ 15 ∧ (kk = 0x0A → s.key ≠ none) ∧
    (kk = 0x07 → (w.readAt - s.dt.since) * 60 < 1000000000 ∨
      s.dt.value.toNat ≤ (w.readAt - s.dt.since) / 1000000000)
  | _ => x ≠ 15

/-- The same for the instruction at the program counter. -/
def Vip.FaithfulAt (w : World) (s : Vip) (ret : Word) : Prop :=
  let c := s.word
  Faithful w s ret (c / 0x1000) (c / 0x100 % 16) (c / 0x10 % 16) (c % 16) (c % 0x100) (c % 0x1000)

end Verif.Spec.Chip8
