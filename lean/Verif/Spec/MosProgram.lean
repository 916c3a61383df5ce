import Verif.Spec.MosRef
import Verif.Spec.MosRun

/-!
# Textbook 6502 routines and what they are for

Machine code as every assembler for the 6502 emits it, and the meaning of the numbers in memory that
it works on.
-/

namespace Verif.Spec.Mos

open Verif Verif.Mos

/-- The bus accepts writes to the addresses in `W`. -/
def AcceptsAt {B : Type} [Addressable B] (b : Build) (I : B → Mem → Prop) (W : Word → Prop) : Prop :=
  ∀ bus mem, I bus mem → ∀ a, W a → ∀ v, ∃ r bus', Addressable.write b bus a v = .ok (.ok r, bus')

/-- From registers `r` and memory `mem` the CPU gets to `r'` and `mem'` in `k` instructions and `n`
cycles. -/
def Reaches {B : Type} [Addressable B] (b : Build) (I : B → Mem → Prop) (r : Regs) (mem : Mem) (k n : Nat) (r' : Regs)
    (mem' : Mem) : Prop :=
  ∀ cpu : Mos6502 B, regs cpu = r → I cpu.address_map mem →
    ∃ l cpu', Instructions b cpu l cpu' ∧ l.length = k ∧ totalCycles l = n ∧ regs cpu' = r' ∧
      I cpu'.address_map mem'

/-- The registers and flags that loads, additions and subtractions do not touch. -/
structure Kept (s s' : Regs) : Prop where
  x : s'.x = s.x
  y : s'.y = s.y
  sp : s'.sp = s.sp
  decimal : s'.p.decimal = s.p.decimal
  interrupt : s'.p.interrupt_disable = s.p.interrupt_disable
  brk : s'.p.brk = s.p.brk
  unused : s'.p.unused = s.p.unused

/-- The bytes `code` are in memory from the address `p` on. -/
def CodeAt (mem : Mem) (p : Nat) (code : List Byte) : Prop :=
  ∀ k (h : k < code.length), mem (word (p + k)) = code[k]

/-- The address `x` is one of the `n` bytes from `a` on. -/
def InArea (a n : Nat) (x : Word) : Prop := a ≤ x.toNat ∧ x.toNat < a + n

/-- The `n`-byte number at address `a`, low byte first. -/
def number (mem : Mem) (a : Nat) : Nat → Nat
  | 0 => 0
  | n + 1 => number mem a n + 256 ^ n * (mem (word (a + n))).toNat

/-- An instruction with a 16-bit operand. -/
def op16 (op : Byte) (w : Nat) : List Byte := [op, byte w, byte (w / 256)]

/-- `LDA a / <op> c / STA r`, then the same for the next bytes, `n` times. -/
def chain (op : Byte) : Nat → Nat → Nat → Nat → List Byte
  | 0, _, _, _ => []
  | n + 1, a, c, r => op16 0xad a ++ (op16 op c ++ (op16 0x8d r ++ chain op n (a + 1) (c + 1) (r + 1)))

/-- Addition of `n`-byte numbers: `CLC`, then `LDA a / ADC c / STA r` for each byte. -/
def addProgram (n a c r : Nat) : List Byte := 0x18 :: chain 0x6d n a c r

/-- Subtraction of `n`-byte numbers: `SEC`, then `LDA a / SBC c / STA r` for each byte. -/
def subProgram (n a c r : Nat) : List Byte := 0x38 :: chain 0xed n a c r

/-- Two areas have no address in common. -/
def Apart (a n c m : Nat) : Prop := a + n ≤ c ∨ c + m ≤ a

/-- Program and data of a chain lie in memory without wrapping round, the result apart from program
and operands. -/
structure Layout (p n a c r : Nat) : Prop where
  code : p + (9 * n + 1) ≤ 65532
  left : a + n ≤ 65536
  right : c + n ≤ 65536
  result : r + n ≤ 65536
  safe : Apart r n p (9 * n + 1)
  safeLeft : Apart r n a n
  safeRight : Apart r n c n

/-- Copying `n` bytes, the last one first: `LDX #n`, then the loop `LDA src-1,X / STA dst-1,X / DEX /
BNE` with the displacement `d`. -/
def copyProgram (d : Byte) (n src dst : Nat) : List Byte :=
  [0xa2, byte n] ++ (op16 0xbd (src - 1) ++ (op16 0x9d (dst - 1) ++ [0xca, 0xd0, d]))

/-- The displacement an assembler emits for a branch of 9 bytes back, counted from the next
instruction: to the `LDA`. -/
def back9 : Byte := 0xf7

/-- The displacement 7 bytes back. -/
def back7 : Byte := 0xf9

/-- The cycles of the copy loop at `p`: one, 14 for each byte, one more for each byte of the source in another page
than its base address `src - 1`, and one for each branch taken if it leads to another page. -/
def copyLoopCycles (p n src : Nat) : Nat :=
  14 * n + 1 + ((List.range n).map fun i => crosses (src - 1) (src + i)).sum + (n - 1) * crosses (p + 2) (p + 9)

/-- Program and data of the copy lie in memory without wrapping round, the destination apart from
the program and not below the source in such a way that bytes are overwritten before they are
copied. -/
structure CopyLayout (p n src dst : Nat) : Prop where
  count : 1 ≤ n ∧ n ≤ 255
  code : p + 11 ≤ 65532
  source : 1 ≤ src ∧ src + n ≤ 65536
  target : 1 ≤ dst ∧ dst + n ≤ 65536
  safe : Apart dst n p 11
  order : src ≤ dst ∨ dst + n ≤ src

end Verif.Spec.Mos
