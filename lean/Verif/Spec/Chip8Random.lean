import Verif.Spec.Chip8
import Verif.Model.Chip8.Live.Generator

/-!
# The random bytes of a run of the CHIP-8
-/

namespace Verif.Spec.Chip8

open Verif Verif.Chip8 Verif.Chip8.Live

/-- `n` calls of a generator in succession answer the bytes `rs`, and leave the generator `g'` and the
world `w'`. -/
inductive Bytes {W G : Type} [Generator W G] : G → W → List Byte → G → W → Prop
  | nil (g : G) (w : W) : Bytes g w [] g w
  | cons {g g' g'' : G} {w w' w'' : W} {r : Byte} {rs : List Byte} :
      Generator.random g w = (.ok r, g', w') → Bytes g' w' rs g'' w'' → Bytes g w (r :: rs) g'' w''

/-- `GivenBytes b env n k it c rs c'`: a run of `n` instructions, the first being number `k`, from the
iterator's machine `it` and the machine `c`, in which the instructions `Cxkk` get the bytes `rs` in order,
one each, and no other instruction gets one, ends with the machine `c'`. -/
inductive GivenBytes {B R : Type} [Addressable B] (b : Build) (env : Nat → Env) :
    Nat → Nat → Chip8 B R → Chip8 B R → List Byte → Chip8 B R → Prop
  | stop (k : Nat) (it c : Chip8 B R) : GivenBytes b env 0 k it c [] c
  | rnd {n k : Nat} {it it' c c' c'' : Chip8 B R} {x : GpRegisters} {kk r : Byte} {rs : List Byte}
      {mcs : List Microcode} :
      At b it (.Rnd x kk) → next b { env k with rand := r } it = .ok (mcs, it') →
      executeAll b (env k).foldAt c mcs = .ok c' → GivenBytes b env n (k + 1) it' c' rs c'' →
      GivenBytes b env (n + 1) k it c (r :: rs) c''
  | other {n k : Nat} {it it' c c' c'' : Chip8 B R} {op : Opcode} {rs : List Byte}
      {mcs : List Microcode} :
      At b it op → (∀ x kk, op ≠ .Rnd x kk) → next b (env k) it = .ok (mcs, it') →
      executeAll b (env k).foldAt c mcs = .ok c' → GivenBytes b env n (k + 1) it' c' rs c'' →
      GivenBytes b env (n + 1) k it c rs c''

end Verif.Spec.Chip8
