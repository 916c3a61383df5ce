import Verif.Proofs.Chip8Effect
import Verif.Proofs.Chip8Sample

/-!
# CHIP-8: moves, additions, bitwise operations, skips, jumps, random bytes (C41, C45 – C47, C57)

`At b cpu op` says that the big-endian word at `pc` encodes `op` (`C40_fetch`). Every statement
holds on every bus and in both builds. `at_place` puts every instruction in front of every state.
-/

namespace Verif.Props.Chip8

open Verif Verif.Chip8 Verif.Spec.Chip8
open Verif.Spec.Mos (Mem BusView writeAll)

variable {B R : Type} [Addressable B] {b : Build} {e : Env} {cpu cpu' : Chip8 B R} {mem : Mem}
  {x y : GpRegisters} {kk : Byte} {a : U12}

omit [Addressable B] in
/-- What `setV` means: the named register has the new value, the others keep theirs. -/
theorem setV_meaning (c : Chip8 B R) (hx : x ≠ .Vf) (v : Byte) (y : GpRegisters) :
    V (setV c x v) y = if y = x then v else V c y := V_setV c hx v y

/-! ## C45 -/

/-- 6xkk: Vx = kk. -/
theorem C45_ld_byte (hat : At b cpu (.LdImmediate x kk)) (hx : x ≠ .Vf) :
    StepsTo b e cpu (advance (setV cpu x kk) 2) :=
  step_to (mem := fun _ => 0) hat ⟨hx, fun h => h.2⟩ (by simp) (by simp) rfl

/-- 7xkk: Vx = Vx + kk modulo 256. -/
theorem C45_add_byte (hat : At b cpu (.AddImmediate x kk)) (hx : x ≠ .Vf) :
    StepsTo b e cpu
      (advance (setV cpu x (BitVec.ofNat 8 ((V cpu x).toNat + kk.toNat))) 2) := by
  have h : BitVec.ofNat 8 ((V cpu x).toNat + kk.toNat) = V cpu x + kk := by
    apply BitVec.eq_of_toNat_eq
    rw [BitVec.toNat_ofNat, BitVec.toNat_add]
  rw [h]
  exact step_to (mem := fun _ => 0) hat ⟨hx, fun h => h.2⟩ (by simp) (by simp) rfl

/-- 8xy0: Vx = Vy. -/
theorem C45_ld_reg (hat : At b cpu (.LdVxVy x y)) (hx : x ≠ .Vf) (hy : y ≠ .Vf) :
    StepsTo b e cpu (advance (setV cpu x (V cpu y)) 2) :=
  step_to (mem := fun _ => 0) hat ⟨fun h => h.elim hx hy, fun h => h.2⟩ (by simp) (by simp) rfl

/-- 8xy1: Vx = Vx or Vy. -/
theorem C45_or (hat : At b cpu (.Or x y)) (hx : x ≠ .Vf) (hy : y ≠ .Vf) :
    StepsTo b e cpu (advance (setV cpu x (V cpu x ||| V cpu y)) 2) :=
  step_to (mem := fun _ => 0) hat ⟨fun h => h.elim hx hy, fun h => h.2⟩ (by simp) (by simp) rfl

/-- 8xy2: Vx = Vx and Vy. -/
theorem C45_and (hat : At b cpu (.And x y)) (hx : x ≠ .Vf) (hy : y ≠ .Vf) :
    StepsTo b e cpu (advance (setV cpu x (V cpu x &&& V cpu y)) 2) :=
  step_to (mem := fun _ => 0) hat ⟨fun h => h.elim hx hy, fun h => h.2⟩ (by simp) (by simp) rfl

/-- 8xy3: Vx = Vx xor Vy. -/
theorem C45_xor (hat : At b cpu (.Xor x y)) (hx : x ≠ .Vf) (hy : y ≠ .Vf) :
    StepsTo b e cpu (advance (setV cpu x (V cpu x ^^^ V cpu y)) 2) :=
  step_to (mem := fun _ => 0) hat ⟨fun h => h.elim hx hy, fun h => h.2⟩ (by simp) (by simp) rfl

/-- Annn: I = nnn. -/
theorem C45_ld_i (hat : At b cpu (.LdAbsolute a)) :
    StepsTo b e cpu (advance { cpu with i := a.val } 2) :=
  step_to (mem := fun _ => 0) hat ⟨id, fun h => h.2⟩ (by simp) (by simp) rfl

/-- Fx1E: I = I + Vx modulo 65536. -/
theorem C45_add_i (hat : At b cpu (.AddIRegisterIndexed x)) (hx : x ≠ .Vf) :
    StepsTo b e cpu
      (advance { cpu with i := BitVec.ofNat 16 (cpu.i.toNat + (V cpu x).toNat) } 2) :=
  step_to (mem := fun _ => 0) hat ⟨hx, fun h => h.2⟩ (by simp) (by simp) rfl

/-- Fx07: Vx = what the delay timer shows when it is read. -/
theorem C45_ld_from_delay (hat : At b cpu (.LdDelayTimerSrcTx x)) (hx : x ≠ .Vf) :
    StepsTo b e cpu (advance (setV cpu x (timerAt cpu.dt e.readAt)) 2) :=
  step_to (mem := fun _ => 0) hat ⟨hx, fun h => h.2⟩ (by simp) (by simp) rfl

/-- Fx15: the delay timer is written with Vx, at the instant of the write. -/
theorem C45_ld_delay (hat : At b cpu (.LdDelayTimerDestTx x)) (hx : x ≠ .Vf) :
    StepsTo b e cpu (advance { cpu with dt := ⟨e.foldAt, V cpu x⟩ } 2) :=
  step_to (mem := fun _ => 0) hat ⟨hx, fun h => h.2⟩ (by simp) (by simp) rfl

/-- Fx18: the sound timer is written with Vx, at the instant of the write. -/
theorem C45_ld_sound (hat : At b cpu (.LdSoundTimerDestTx x)) (hx : x ≠ .Vf) :
    StepsTo b e cpu (advance { cpu with st := ⟨e.foldAt, V cpu x⟩ } 2) :=
  step_to (mem := fun _ => 0) hat ⟨hx, fun h => h.2⟩ (by simp) (by simp) rfl

/-- The hypotheses are met, by every state; here `7144` (V1 = 0xfe + 0x44) with a wrap-around. -/
example : At .debug (place sample (.AddImmediate .V1 0x44)) (.AddImmediate .V1 0x44) ∧
    V sample .V1 = 0xfe ∧ V (setV sample .V1 (BitVec.ofNat 8 (0xfe + 0x44))) .V1 = 0x42 :=
  ⟨at_place _ _ trivial (by decide), rfl, rfl⟩

example : ∃ c, StepsTo .debug ⟨0, 0, 0, 0⟩ (place sample (.Xor .V1 .V2)) c ∧ V c .V1 = 0xf2 :=
  ⟨_, C45_xor (at_place _ _ trivial (by decide)) (by decide) (by decide), rfl⟩

/-! ## C46 Skips -/

/-- 3xkk skips iff Vx = kk. -/
theorem C46_se_byte (hat : At b cpu (.SeImmediate x kk)) (hx : x ≠ .Vf) :
    StepsTo b e cpu (advance cpu (if V cpu x = kk then 4 else 2)) :=
  step_to (mem := fun _ => 0) hat ⟨hx, fun h => h.2⟩ (by simp) (by simp) rfl

/-- 4xkk skips iff Vx ≠ kk. -/
theorem C46_sne_byte (hat : At b cpu (.SneImmediate x kk)) (hx : x ≠ .Vf) :
    StepsTo b e cpu (advance cpu (if V cpu x ≠ kk then 4 else 2)) := by
  have := step_to (e := e) (mem := fun _ => 0) hat ⟨hx, fun h => h.2⟩ (by simp) (by simp) rfl
  simp only [after] at this
  by_cases h : V cpu x = kk
  · rw [if_neg (not_not_intro h)]; rw [if_pos h] at this; exact this
  · rw [if_pos h]; rw [if_neg h] at this; exact this

/-- 5xy0 skips iff Vx = Vy. -/
theorem C46_se_reg (hat : At b cpu (.SeVxVy x y)) (hx : x ≠ .Vf) (hy : y ≠ .Vf) :
    StepsTo b e cpu (advance cpu (if V cpu x = V cpu y then 4 else 2)) :=
  step_to (mem := fun _ => 0) hat ⟨fun h => h.elim hx hy, fun h => h.2⟩ (by simp) (by simp) rfl

/-- 9xy0 skips iff Vx ≠ Vy. -/
theorem C46_sne_reg (hat : At b cpu (.SneVxVy x y)) (hx : x ≠ .Vf) (hy : y ≠ .Vf) :
    StepsTo b e cpu (advance cpu (if V cpu x ≠ V cpu y then 4 else 2)) := by
  have := step_to (e := e) (mem := fun _ => 0) hat ⟨fun h => h.elim hx hy, fun h => h.2⟩ (by simp) (by simp) rfl
  simp only [after] at this
  by_cases h : V cpu x = V cpu y
  · rw [if_neg (not_not_intro h)]; rw [if_pos h] at this; exact this
  · rw [if_pos h]; rw [if_neg h] at this; exact this

/-- Ex9E skips iff the key numbered Vx is pressed. -/
theorem C46_skp (hat : At b cpu (.Skp x)) (hx : x ≠ .Vf) :
    StepsTo b e cpu (advance cpu (if Pressed cpu (V cpu x).toNat then 4 else 2)) :=
  step_to (mem := fun _ => 0) hat ⟨hx, fun h => h.2⟩ (by simp) (by simp) rfl

/-- ExA1 skips iff the key numbered Vx is not pressed. -/
theorem C46_sknp (hat : At b cpu (.Sknp x)) (hx : x ≠ .Vf) :
    StepsTo b e cpu (advance cpu (if ¬ Pressed cpu (V cpu x).toNat then 4 else 2)) := by
  have := step_to (e := e) (mem := fun _ => 0) hat ⟨hx, fun h => h.2⟩ (by simp) (by simp) rfl
  simp only [after] at this
  by_cases h : Pressed cpu (V cpu x).toNat
  · rw [if_neg (not_not_intro h)]; rw [if_pos h] at this; exact this
  · rw [if_pos h]; rw [if_neg h] at this; exact this

/-- With key C held down and V2 = 0x0c, `E29E` skips; with V3 = 0x33, which is no key, it does
not. -/
example :
    let cpu := { sample with interrupt := some (.KeyPress .KeyC) }
    StepsTo .debug ⟨0, 0, 0, 0⟩ (place cpu (.Skp .V2)) (advance (place cpu (.Skp .V2)) 4) ∧
    StepsTo .debug ⟨0, 0, 0, 0⟩ (place cpu (.Skp .V3)) (advance (place cpu (.Skp .V3)) 2) := by
  intro cpu
  refine ⟨?_, ?_⟩
  · have h : Pressed (place cpu (.Skp .V2)) (V (place cpu (.Skp .V2)) .V2).toNat := ⟨.KeyC, rfl, rfl⟩
    have := C46_skp (e := ⟨0, 0, 0, 0⟩) (at_place .debug cpu (op := .Skp .V2) trivial (by decide)) (by decide)
    rw [if_pos h] at this
    exact this
  · have h : ¬ Pressed (place cpu (.Skp .V3)) (V (place cpu (.Skp .V3)) .V3).toNat := by
      rintro ⟨key, hk, hn⟩
      cases hk
      revert hn
      decide
    have := C46_skp (e := ⟨0, 0, 0, 0⟩) (at_place .debug cpu (op := .Skp .V3) trivial (by decide)) (by decide)
    rw [if_neg h] at this
    exact this

/-! ## C47 Jumps -/

/-- 1nnn: execution continues at nnn, which is below 4096; nothing else changes. -/
theorem C47_jp (hat : At b cpu (.JpNonV0Indexed a)) :
    StepsTo b e cpu { cpu with pc := a.val } ∧ a.val.toNat < 4096 :=
  ⟨step_to (mem := fun _ => 0) hat ⟨id, fun h => h.2⟩ (by simp) (by simp) rfl,
    at_valid hat⟩

/-- Bnnn: execution continues at nnn + V0 modulo 4096; nothing else changes. -/
theorem C47_jp_v0 (hat : At b cpu (.JpV0Indexed a)) :
    StepsTo b e cpu
      { cpu with pc := BitVec.ofNat 16 ((a.val.toNat + (V cpu .V0).toNat) % 4096) } :=
  step_to (mem := fun _ => 0) hat ⟨id, fun h => h.2⟩ (by simp) (by simp) rfl

/-- `BFFF` with V0 = 0x11 goes to 0x010. -/
example : ∃ c, StepsTo .debug ⟨0, 0, 0, 0⟩ (place sample (.JpV0Indexed ⟨0xfff⟩)) c ∧ c.pc = 0x010 :=
  ⟨_, C47_jp_v0 (at_place _ _ (show (0xfff : Nat) < 0x1000 by decide) (by decide)), rfl⟩

/-! ## C57 Random bytes -/

/-- Cxkk: Vx = r & kk, where r is the byte the generator answers. -/
theorem C57_rnd (hat : At b cpu (.Rnd x kk)) (hx : x ≠ .Vf) :
    StepsTo b e cpu (advance (setV cpu x (e.rand &&& kk)) 2) :=
  step_to (mem := fun _ => 0) hat ⟨hx, fun h => h.2⟩ (by simp) (by simp) rfl

/-- Bits outside kk are 0, bits inside are those of the generator. -/
theorem C57_bits (hat : At b cpu (.Rnd x kk)) (hx : x ≠ .Vf) :
    ∃ c, StepsTo b e cpu c ∧
      ∀ k < 8, (V c x).getLsbD k = (if kk.getLsbD k then e.rand.getLsbD k else false) := by
  refine ⟨_, C57_rnd hat hx, fun k _ => ?_⟩
  have : V (advance (setV cpu x (e.rand &&& kk)) 2) x = e.rand &&& kk := by
    have := V_setV cpu hx (e.rand &&& kk) x
    rw [if_pos rfl] at this
    exact this
  rw [this, BitVec.getLsbD_and]
  cases kk.getLsbD k <;> simp

/-- Every byte the generator answers is used: with mask 0xff Vx is that byte. -/
theorem C57_unmasked (hat : At b cpu (.Rnd x 0xff)) (hx : x ≠ .Vf) :
    StepsTo b e cpu (advance (setV cpu x e.rand) 2) := by
  have h := C57_rnd (e := e) hat hx
  have : e.rand &&& 0xff = e.rand := by
    apply BitVec.eq_of_toNat_eq
    rw [BitVec.toNat_and]
    have := e.rand.isLt
    show e.rand.toNat &&& (2 ^ 8 - 1) = _
    rw [Nat.and_two_pow_sub_one_eq_mod]
    omega
  rw [this] at h
  exact h

example : ∃ c, StepsTo .release ⟨0xa7, 0, 0, 0⟩ (place sample (.Rnd .Ve 0x3c)) c ∧ V c .Ve = 0x24 :=
  ⟨_, C57_rnd (at_place _ _ trivial (by decide)) (by decide), rfl⟩

/-! ## C41 The program counter -/

/-- Does the instruction jump, call, return or skip? -/
def changesFlow : Opcode → Bool
  | .JpNonV0Indexed _ | .JpV0Indexed _ | .Call _ | .Ret => true
  | .SeImmediate _ _ | .SneImmediate _ _ | .SeVxVy _ _ | .SneVxVy _ _ | .Skp _ | .Sknp _ => true
  | _ => false

/-- The documented condition of a skip. -/
def skipsWhen (cpu : Chip8 B R) : Opcode → Option Prop
  | .SeImmediate x kk => some (V cpu x = kk)
  | .SneImmediate x kk => some (V cpu x ≠ kk)
  | .SeVxVy x y => some (V cpu x = V cpu y)
  | .SneVxVy x y => some (V cpu x ≠ V cpu y)
  | .Skp x => some (Pressed cpu (V cpu x).toNat)
  | .Sknp x => some (¬ Pressed cpu (V cpu x).toNat)
  | _ => none

/-- Every instruction that does not change the flow of control and does not panic moves `pc` on by
two, modulo 65536. -/
theorem C41_plain {op : Opcode} (hat : At b cpu op) (hv : BusView b cpu.address_space mem)
    (hw : WellFormed cpu) (hop : changesFlow op = false) (hs : StepsTo b e cpu cpu') :
    cpu'.pc.toNat = (cpu.pc.toNat + 2) % 65536 := by
  obtain ⟨hr, bus, -, rfl⟩ := step_inv hat hv hw hs
  have key : (after e mem cpu op).pc = BitVec.ofNat 16 (cpu.pc.toNat + 2) := by
    cases op <;> first
      | rfl
      | exact Bool.noConfusion hop
      | exact absurd trivial hr.1
      | (simp only [after]; split <;> rfl)
  show (after e mem cpu op).pc.toNat = _
  rw [key, BitVec.toNat_ofNat]

/-- A skip that does not panic moves `pc` on by four if its condition holds and by two if not. -/
theorem C41_skip {op : Opcode} {P : Prop} (hat : At b cpu op) (hv : BusView b cpu.address_space mem)
    (hw : WellFormed cpu) (hop : skipsWhen cpu op = some P) (hs : StepsTo b e cpu cpu') :
    (P → cpu'.pc.toNat = (cpu.pc.toNat + 4) % 65536) ∧
    (¬P → cpu'.pc.toNat = (cpu.pc.toNat + 2) % 65536) := by
  obtain ⟨hr, bus, -, rfl⟩ := step_inv hat hv hw hs
  have key : ((P → (after e mem cpu op).pc = BitVec.ofNat 16 (cpu.pc.toNat + 4)) ∧
      (¬P → (after e mem cpu op).pc = BitVec.ofNat 16 (cpu.pc.toNat + 2))) := by
    cases op <;> simp only [skipsWhen, Option.some.injEq, reduceCtorEq] at hop <;> subst hop <;>
      constructor <;> intro h <;>
      (try simp only [ne_eq, Classical.not_not] at h) <;> simp [after, advance_pc, h]
  refine ⟨fun h => ?_, fun h => ?_⟩
  · show (after e mem cpu op).pc.toNat = _
    rw [key.1 h, BitVec.toNat_ofNat]
  · show (after e mem cpu op).pc.toNat = _
    rw [key.2 h, BitVec.toNat_ofNat]

omit [Addressable B] in
/-- Every instruction either changes the flow or is covered by `C41_plain`; the skips are covered
by `C41_skip`; the rest are the jumps (C47), the call and the return (C42). -/
theorem C41_cover (op : Opcode) : changesFlow op = false ∨ (∃ P, skipsWhen cpu op = some P) ∨
    op = .Ret ∨ ∃ a, op = .Call a ∨ op = .JpNonV0Indexed a ∨ op = .JpV0Indexed a := by
  cases op <;> first
    | exact .inl rfl
    | exact .inr (.inl ⟨_, rfl⟩)
    | exact .inr (.inr (.inl rfl))
    | exact .inr (.inr (.inr ⟨_, .inl rfl⟩))
    | exact .inr (.inr (.inr ⟨_, .inr (.inl rfl)⟩))
    | exact .inr (.inr (.inr ⟨_, .inr (.inr rfl)⟩))

/-- The program counter wraps around: from 0xfffe to 0. -/
example :
    let cpu := place { sample with pc := 0xfffe } (.LdImmediate .V1 3)
    ∃ c, StepsTo .debug ⟨0, 0, 0, 0⟩ cpu c ∧ c.pc.toNat = (cpu.pc.toNat + 2) % 65536 ∧ c.pc = 0 :=
  ⟨_, C45_ld_byte (at_place _ _ trivial (by decide)) (by decide), rfl, rfl⟩

end Verif.Props.Chip8
