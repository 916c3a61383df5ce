import Verif.Model.Live.Device
import Verif.Model.Mos.Live.Cpu
import Verif.Spec.MosTraffic

/-!
# The calls a computation makes on the bus
-/

namespace Verif.Spec.Live

open Verif Verif.Live Verif.Mos Verif.Spec.Mos

/-- A call of the bus with its answer. -/
inductive Call where
  | read (who : Copy) (addr : Word) (answer : Byte)
  | write (who : Copy) (addr : Word) (value : Byte) (answer : Except String Byte)
  deriving DecidableEq

/-- `Asked x l r`: when the calls of `x` are answered as in `l`, they are exactly those of `l`, in that
order, and `x` ends with `r`. -/
inductive Asked {α : Type} : Bus α → List Call → Res α → Prop
  | done (r : Res α) : Asked (.done r) [] r
  | read {who : Copy} {a : Word} {k : Byte → Bus α} {v : Byte} {l : List Call} {r : Res α} :
      Asked (k v) l r → Asked (.read who a k) (.read who a v :: l) r
  | write {who : Copy} {a : Word} {x : Byte} {k : Except String Byte → Bus α} {v : Except String Byte}
      {l : List Call} {r : Res α} :
      Asked (k v) l r → Asked (.write who a x k) (.write who a x v :: l) r

/-- The calls of a list made on actual devices, one after the other, get the answers of the list. -/
inductive Answers {W D : Type} [Device W D] (b : Build) : Site W D → List Call → Site W D → Prop
  | nil (s : Site W D) : Answers b s [] s
  | read {s s' : Site W D} {who : Copy} {a : Word} {v : Byte} {d : D} {w : W} {l : List Call} :
      Device.read b (s.on who) a s.world = (.ok (v, d), w) → Answers b (s.update who d w) l s' →
      Answers b s (.read who a v :: l) s'
  | write {s s' : Site W D} {who : Copy} {a : Word} {x : Byte} {v : Except String Byte} {d : D} {w : W}
      {l : List Call} :
      Device.write b (s.on who) a x s.world = (.ok (v, d), w) → Answers b (s.update who d w) l s' →
      Answers b s (.write who a x v :: l) s'

/-- Reads as calls on one clone. -/
def readCalls (who : Copy) (rs : List (Word × Byte)) : List Call := rs.map fun p => .read who p.1 p.2

/-- Stores as calls on one clone, with the bytes they were answered by. -/
def putCalls (who : Copy) (ws : List (Word × Byte)) (answers : List Byte) : List Call :=
  List.zipWith (fun p v => .write who p.1 p.2 (.ok v)) ws answers

/-- Instructions that use the byte at their effective address. -/
def usesOperand : Mnemonic → Bool
  | .Sta | .Stx | .Sty | .Jmp | .Jsr => false
  | _ => true

/-- The one read at `a` of an instruction that uses its operand. -/
def direct (mn : Mnemonic) (a : Word) (vs : List Byte) : Option Word :=
  if usesOperand mn && vs.isEmpty then some a else none

/-- The address an instruction reads next after its own bytes, when its reads so far were answered by
`vs`; `none` if it has read everything it needs. Pointers are read low byte first, then the operand;
stores, jumps and calls read no operand. -/
def nextRead (r : Regs) (mn : Mnemonic) (am : AddrMode) (vs : List Byte) : Option Word :=
  match mn, am with
  | .Pla, _ | .Plp, _ => [stack (r.sp.toNat + 1)][vs.length]?
  | .Rts, _ => [stack (r.sp.toNat + 1), stack (r.sp.toNat + 2)][vs.length]?
  | .Rti, _ => [stack (r.sp.toNat + 1), stack (r.sp.toNat + 2), stack (r.sp.toNat + 3)][vs.length]?
  | .Brk, _ => [word 0xfffe, word 0xffff][vs.length]?
  | mn, .zeroPage z => direct mn (word z.toNat) vs
  | mn, .zeroPageX z => direct mn (word ((z.toNat + r.x.toNat) % 256)) vs
  | mn, .zeroPageY z => direct mn (word ((z.toNat + r.y.toNat) % 256)) vs
  | mn, .absolute w => direct mn w vs
  | mn, .absoluteX w => direct mn (word (w.toNat + r.x.toNat)) vs
  | mn, .absoluteY w => direct mn (word (w.toNat + r.y.toNat)) vs
  | _, .indirect w => [w, word (w.toNat + 1)][vs.length]?
  | mn, .indexedIndirect z =>
    match vs with
    | [] => some (word ((z.toNat + r.x.toNat) % 256))
    | [_] => some (word ((z.toNat + r.x.toNat + 1) % 256))
    | lo :: hi :: vs => direct mn (word (lo.toNat + 256 * hi.toNat)) vs
  | mn, .indirectIndexed z =>
    match vs with
    | [] => some (word z.toNat)
    | [_] => some (word ((z.toNat + 1) % 256))
    | lo :: hi :: vs => direct mn (word (lo.toNat + 256 * hi.toNat + r.y.toNat)) vs
  | _, .implied | _, .accumulator | _, .immediate _ | _, .relative _ => none

/-- The reads `rs` (addresses with answers) are what the instruction asks for, one after the other,
until it has everything. -/
def Complete (ask : List Byte → Option Word) (rs : List (Word × Byte)) : Prop :=
  (∀ k (h : k < rs.length), ask ((rs.take k).map Prod.snd) = some rs[k].1) ∧ ask (rs.map Prod.snd) = none

/-- The reads of one instruction: three at `pc` (whatever its length), then what it asks for. -/
def InstructionReads (r : Regs) (i : InstructionVariant) (reads : List (Word × Byte)) : Prop :=
  ∃ b0 b1 b2 rs, Isa.parseInstruction b0 b1 b2 = some i ∧
    Complete (nextRead r (view i).1 (view i).2) rs ∧
    reads = (r.pc, b0) :: (word (r.pc.toNat + 1), b1) :: (word (r.pc.toNat + 2), b2) :: rs

/-- The operations of the instruction `i` and the registers after it are those it has on every bus
that holds the bytes it read for itself (the reads after the first three). -/
def AsOnMemory (b : Build) (r : Regs) (i : InstructionVariant) (reads : List (Word × Byte))
    (ops : Operations) (r' : Regs) : Prop :=
  ∀ (B : Type) [Addressable B] (bus bus' : B), (∀ p ∈ reads.drop 3, Addressable.read b bus p.1 = .ok p.2) →
    writeAll b bus (storesOf ops) = .ok bus' →
    i.generate b (withRegs r bus) = .ok ops ∧
    executeAll b (microcodeOf ops) (withRegs r bus) = .ok (withRegs r' bus')

/-- The address an instruction gets from a pointer whose bytes were `lo` and `hi`. -/
def pointed (r : Regs) (am : AddrMode) (lo hi : Byte) : Option Word :=
  match am with
  | .indexedIndirect _ => some (word (lo.toNat + 256 * hi.toNat))
  | .indirectIndexed _ => some (word (lo.toNat + 256 * hi.toNat + r.y.toNat))
  | _ => none

/-- An instruction that goes through a pointer may read a byte of the pointer once more as its operand,
and a device may answer differently then; no memory holds what was read. Such an instruction does what
the same operation does with the address written out (registers and stores), on every bus that holds the
operand there; it takes as long as on every bus that holds the pointer. -/
def ThroughPointer (b : Build) (r : Regs) (i : InstructionVariant) (reads : List (Word × Byte))
    (ops : Operations) (r' : Regs) : Prop :=
  ∀ lo hi vs a, (reads.drop 3).map Prod.snd = lo :: hi :: vs → pointed r (view i).2 lo hi = some a →
    r'.pc = word (r.pc.toNat + 2) ∧
    (∃ j, view j = ((view i).1, .absolute a) ∧ ∀ (B : Type) [Addressable B] (bus bus' : B),
      (∀ v ∈ vs, Addressable.read b bus a = .ok v) → writeAll b bus (storesOf ops) = .ok bus' →
      ∃ ops', j.generate b (withRegs r bus) = .ok ops' ∧ storesOf ops' = storesOf ops ∧
        executeAll b (microcodeOf ops') (withRegs r bus) =
          .ok (withRegs { r' with pc := word (r.pc.toNat + 3) } bus')) ∧
    ∀ (B : Type) [Addressable B] (bus : B) (ops' : Operations),
      (∀ p ∈ (reads.drop 3).take 2, Addressable.read b bus p.1 = .ok p.2) →
      i.generate b (withRegs r bus) = .ok ops' → ops'.cycles = ops.cycles

/-- One instruction, from the registers `r` to `r'`, with its reads and operations. -/
def OneInstruction (b : Build) (r : Regs) (reads : List (Word × Byte)) (ops : Operations) (r' : Regs) :
    Prop :=
  ∃ i, InstructionReads r i reads ∧ AsOnMemory b r i reads ops r' ∧
    ThroughPointer b r i reads ops r' ∧ 0 < ops.cycles

/-- `Ran b n r l r'`: `run` for `n` cycles, from the registers `r`, makes the calls `l` and ends with
the registers `r'`. A whole instruction reads from the clone in the iterator, stores there, and
stores again on the bus of the CPU. An instruction that does not fit reads and stores on the clone
only, and leaves the registers as they were. -/
inductive Ran (b : Build) : Nat → Regs → List Call → Regs → Prop
  | stop (r : Regs) : Ran b 0 r [] r
  | whole {n : Nat} {r r' r'' : Regs} {reads : List (Word × Byte)} {ops : Operations}
      {vs vs' : List Byte} {l : List Call} :
      OneInstruction b r reads ops r' → ops.cycles ≤ n →
      vs.length = (storesOf ops).length → vs'.length = (storesOf ops).length →
      Ran b (n - ops.cycles) r' l r'' →
      Ran b n r (readCalls .iterator reads ++ (putCalls .iterator (storesOf ops) vs ++
        (putCalls .own (storesOf ops) vs' ++ l))) r''
  | cut {n : Nat} {r r' : Regs} {reads : List (Word × Byte)} {ops : Operations} {vs : List Byte} :
      OneInstruction b r reads ops r' → 0 < n → n < ops.cycles →
      vs.length = (storesOf ops).length →
      Ran b n r (readCalls .iterator reads ++ putCalls .iterator (storesOf ops) vs) r

/-- The device accepts `v` at `a` and becomes `d'`. -/
def Stores {D : Type} [Addressable D] (b : Build) (d : D) (a : Word) (v : Byte) (d' : D) : Prop :=
  ∃ r, Addressable.write b d a v = .ok (.ok r, d')

/-- A device whose cells do not depend on each other: storing again replaces what was stored, and
stores at different addresses can be exchanged. -/
structure Cells (b : Build) (D : Type) [Addressable D] : Prop where
  replace : ∀ {d d₁ d₂ : D} {a : Word} {v v' : Byte},
    Stores b d a v d₁ → Stores b d a v' d₂ → Stores b d₁ a v' d₂
  exchange : ∀ {d d₁ d₂ : D} {a a' : Word} {v v' : Byte}, a ≠ a' →
    Stores b d a v d₁ → Stores b d a' v' d₂ → ∃ d₃, Stores b d₁ a' v' d₃ ∧ Stores b d₂ a v d₃

end Verif.Spec.Live
