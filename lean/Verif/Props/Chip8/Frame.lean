import Verif.Spec.Chip8Frame
import Verif.Proofs.Chip8Effect
import Verif.Proofs.Chip8Sample
import Verif.Props.Chip8.Memory

/-!
# CHIP-8: what an instruction leaves alone (C61)
-/

namespace Verif.Props.Chip8

open Verif Verif.Chip8 Verif.Spec.Chip8
open Verif.Mos (FlatRam writeAll_coherent)
open Verif.Spec.Mos (Mem BusView writeAll Coherent upd)

variable {B R : Type} [Addressable B] {b : Build} {e : Env} {cpu c : Chip8 B R} {mem : Mem}
  {op : Opcode}

omit [Addressable B] in
theorem V_advance (c : Chip8 B R) (n : Nat) (r : GpRegisters) : V (advance c n) r = V c r := rfl

omit [Addressable B] in
theorem V_setV_ne (c : Chip8 B R) {x r : GpRegisters} (h : r ≠ x) (v : Byte) :
    V (setV c x v) r = V c r := by
  unfold V setV
  simp only [Vector.getElem?_setIfInBounds]
  rw [if_neg fun h' => h (num_inj h'.symm)]

omit [Addressable B] in
theorem V_load (c : Chip8 B R) (n : Nat) (v : Nat → Byte) {r : GpRegisters} (h : ¬ num r < n) :
    V { c with gp_registers := loadRegs c.gp_registers n v } r = V c r := by
  unfold V loadRegs
  by_cases hr : num r < 15
  · simp only [Vector.getElem?_eq_getElem hr, Vector.getElem_mapFinIdx, if_neg h]
  · rw [Vector.getElem?_eq_none (by omega), Vector.getElem?_eq_none (by omega)]

/-- A register outside the documented effect keeps its value. -/
theorem C61_registers (hat : At b cpu op) (hv : BusView b cpu.address_space mem)
    (hw : WellFormed cpu) (hs : StepsTo b e cpu c) (r : GpRegisters) (h : ¬ ChangesV op r) :
    V c r = V cpu r := by
  obtain ⟨hr, bus, -, rfl⟩ := step_inv hat hv hw hs
  show V (after e mem cpu op) r = V cpu r
  cases op <;> simp only [ChangesV, not_or, not_false_eq_true] at h <;>
    simp only [after, V_advance]
  case LdK x =>
    split
    · exact V_setV_ne _ h _
    · rfl
  case ReadRegistersFromMemory x => exact V_load _ _ _ (by omega)
  all_goals first | rfl | exact V_setV_ne _ h _

/-- I keeps its value unless the instruction is LD I, ADD I or LD F. -/
theorem C61_i (hat : At b cpu op) (hv : BusView b cpu.address_space mem)
    (hw : WellFormed cpu) (hs : StepsTo b e cpu c) (h : ¬ ChangesI op) : c.i = cpu.i := by
  obtain ⟨hr, bus, -, rfl⟩ := step_inv hat hv hw hs
  show (after e mem cpu op).i = cpu.i
  cases op <;> first | rfl | exact absurd trivial h | (simp only [after]; split <;> rfl)

/-- The delay timer is set by LD DT only. -/
theorem C61_delay (hat : At b cpu op) (hv : BusView b cpu.address_space mem)
    (hw : WellFormed cpu) (hs : StepsTo b e cpu c) (h : ¬ ChangesDelay op) : c.dt = cpu.dt := by
  obtain ⟨hr, bus, -, rfl⟩ := step_inv hat hv hw hs
  show (after e mem cpu op).dt = cpu.dt
  cases op <;> first | rfl | exact absurd trivial h | (simp only [after]; split <;> rfl)

/-- The sound timer is set by LD ST only. -/
theorem C61_sound (hat : At b cpu op) (hv : BusView b cpu.address_space mem)
    (hw : WellFormed cpu) (hs : StepsTo b e cpu c) (h : ¬ ChangesSound op) : c.st = cpu.st := by
  obtain ⟨hr, bus, -, rfl⟩ := step_inv hat hv hw hs
  show (after e mem cpu op).st = cpu.st
  cases op <;> first | rfl | exact absurd trivial h | (simp only [after]; split <;> rfl)

/-- Only CALL writes the stack. -/
theorem C61_stack (hat : At b cpu op) (hv : BusView b cpu.address_space mem)
    (hw : WellFormed cpu) (hs : StepsTo b e cpu c) (h : ¬ ChangesStack op) :
    c.stack = cpu.stack := by
  obtain ⟨hr, bus, -, rfl⟩ := step_inv hat hv hw hs
  show (after e mem cpu op).stack = cpu.stack
  cases op <;> first | rfl | exact absurd trivial h | (simp only [after]; split <;> rfl)

/-- CALL writes one stack cell, the one the stack pointer selects; the stack keeps its size. -/
theorem C61_stack_cell {a : U12} (hat : At b cpu (.Call a)) (hv : BusView b cpu.address_space mem)
    (hw : WellFormed cpu) (hs : StepsTo b e cpu c) (k : Nat) (hk : k ≠ cpu.sp.inner.toNat % 16) :
    c.stack.inner[k]? = cpu.stack.inner[k]? ∧ c.stack.capacity = cpu.stack.capacity ∧
      c.stack.inner.length = cpu.stack.inner.length := by
  obtain ⟨hr, bus, -, rfl⟩ := step_inv hat hv hw hs
  refine ⟨?_, rfl, ?_⟩
  · show (cpu.stack.inner.set (cpu.sp.inner.toNat % 16) cpu.pc)[k]? = _
    exact List.getElem?_set_ne hk.symm
  · exact List.length_set

/-- Only CALL and RET may move the stack pointer (in fact nothing does, see C43). -/
theorem C61_sp (hat : At b cpu op) (hv : BusView b cpu.address_space mem)
    (hw : WellFormed cpu) (hs : StepsTo b e cpu c) (_h : ¬ MovesSp op) : c.sp = cpu.sp := by
  obtain ⟨hr, bus, -, rfl⟩ := step_inv hat hv hw hs
  show (after e mem cpu op).sp = cpu.sp
  cases op <;> first | rfl | (simp only [after]; split <;> rfl)

/-- Only CLS and DRW may change pixels. -/
theorem C61_display (hat : At b cpu op) (hv : BusView b cpu.address_space mem)
    (hw : WellFormed cpu) (hs : StepsTo b e cpu c) (h : ¬ ChangesDisplay op) :
    c.display = cpu.display := by
  obtain ⟨hr, bus, -, rfl⟩ := step_inv hat hv hw hs
  show (after e mem cpu op).display = cpu.display
  cases op <;> first | rfl | exact absurd trivial h | (simp only [after]; split <;> rfl)

/-- No instruction changes the pending key or the random generator. -/
theorem C61_key_rng (hat : At b cpu op) (hv : BusView b cpu.address_space mem)
    (hw : WellFormed cpu) (hs : StepsTo b e cpu c) :
    c.interrupt = cpu.interrupt ∧ c.rng = cpu.rng := by
  obtain ⟨hr, bus, -, rfl⟩ := step_inv hat hv hw hs
  show (after e mem cpu op).interrupt = cpu.interrupt ∧ (after e mem cpu op).rng = cpu.rng
  cases op <;> first | exact ⟨rfl, rfl⟩ | (simp only [after]; split <;> exact ⟨rfl, rfl⟩)

/-- Except for jumps, calls and returns, the program counter moves to the next instruction, or past
it if the instruction is a skip. -/
theorem C61_pc (hat : At b cpu op) (hv : BusView b cpu.address_space mem)
    (hw : WellFormed cpu) (hs : StepsTo b e cpu c) : PcMoves cpu.pc c.pc op := by
  obtain ⟨hr, bus, -, rfl⟩ := step_inv hat hv hw hs
  show PcMoves cpu.pc (after e mem cpu op).pc op
  have adv : ∀ (d : Chip8 B R) n, d.pc = cpu.pc →
      (advance d n).pc.toNat = (cpu.pc.toNat + n) % 65536 := by
    intro d n h
    rw [advance_pc, BitVec.toNat_ofNat, h]
  cases op <;> simp only [PcMoves, after]
  case LdK x => split <;> exact adv _ _ rfl
  case AddVxVy x y => exact absurd trivial hr.1
  case Sub x y => exact absurd trivial hr.1
  case Subn x y => exact absurd trivial hr.1
  case Shl x y => exact absurd trivial hr.1
  case Shr x y => exact absurd trivial hr.1
  case Drw x y n => exact absurd trivial hr.1
  all_goals first
    | exact adv _ _ rfl
    | (split
       · first | exact .inl (adv _ _ rfl) | exact .inr (adv _ _ rfl)
       · first | exact .inl (adv _ _ rfl) | exact .inr (adv _ _ rfl))

/-- Instructions that write no memory leave the whole bus, devices included, as it is. -/
theorem C61_bus (hat : At b cpu op) (hv : BusView b cpu.address_space mem)
    (hw : WellFormed cpu) (hs : StepsTo b e cpu c) (h : memSpan op = none) :
    c.address_space = cpu.address_space := by
  obtain ⟨hr, bus, hb, rfl⟩ := step_inv hat hv hw hs
  show bus = cpu.address_space
  cases op <;> first | (cases h; done) | (cases hb; rfl)

omit [Addressable B] in
/-- The addresses an instruction writes. -/
theorem writes_span (cpu : Chip8 B R) (op : Opcode) :
    ∀ w ∈ writes cpu op, ∃ n k, memSpan op = some n ∧ k ≤ n ∧ w.1 = iPlus cpu k := by
  intro w hw
  cases op <;> simp only [writes, List.not_mem_nil, List.mem_cons, or_false, List.mem_map,
    List.mem_range] at hw
  case LdBcd x =>
    rcases hw with rfl | rfl | rfl
    · exact ⟨2, 0, rfl, by omega, by rw [← iPlus_eq]; simp⟩
    · exact ⟨2, 1, rfl, by omega, iPlus_eq cpu 1⟩
    · exact ⟨2, 2, rfl, by omega, iPlus_eq cpu 2⟩
  case StoreRegistersToMemory x =>
    obtain ⟨k, hk, rfl⟩ := hw
    exact ⟨num x, k, rfl, by omega, iPlus_eq cpu k⟩

theorem foldl_upd_ne (a : Word) (ws : List (Word × Byte)) (mem : Mem) (h : ∀ w ∈ ws, a ≠ w.1) :
    ws.foldl (fun m w => upd m w.1 w.2) mem a = mem a := by
  induction ws generalizing mem with
  | nil => rfl
  | cons w ws ih =>
    rw [List.foldl_cons, ih _ fun w hw => h w (by simp [hw])]
    unfold upd
    rw [if_neg (h w (by simp))]

/-- On a bus that behaves as memory, a byte outside I..I+n (n = 2 for Fx33, x for Fx55) keeps its
value. -/
theorem C61_memory {I : B → Mem → Prop} (hI : Coherent b I) (hm : I cpu.address_space mem)
    (hat : At b cpu op) (hw : WellFormed cpu) (hs : StepsTo b e cpu c) :
    ∃ mem', I c.address_space mem' ∧
      ∀ a, (∀ n k, memSpan op = some n → k ≤ n → a ≠ iPlus cpu k) → mem' a = mem a := by
  obtain ⟨hr, bus, hb, rfl⟩ := step_inv hat (hI _ _ hm).1 hw hs
  refine ⟨_, writeAll_coherent hI _ hm hb, fun a ha => foldl_upd_ne a _ _ fun w hw' h => ?_⟩
  obtain ⟨n, k, h1, h2, h3⟩ := writes_span cpu op w hw'
  exact ha n k h1 h2 (h.trans h3)

/-- The hypotheses are met by every instruction that does not use VF, in front of every well-formed
state with 64K of RAM, in both builds. -/
theorem frame_nonvacuous {R : Type} (b : Build) (e : Env) (cpu : Chip8 FlatRam R) (op : Opcode)
    (hw : WellFormed cpu) (hv : Valid op) (hpc : cpu.pc.toNat < 65535) (hvf : ¬ UsesVf cpu op)
    (hov : ¬ Overflows cpu op) :
    ∃ c, At b (place cpu op) op ∧ BusView b (place cpu op).address_space
      (place cpu op).address_space.mem ∧ WellFormed (place cpu op) ∧
      StepsTo b e (place cpu op) c := by
  have hat := at_place b cpu hv hpc
  have hr : Runs b (place cpu op) op :=
    ⟨by cases op <;> exact hvf, fun h => hov (by have := h.2; cases op <;> exact this)⟩
  have h := step_ok (e := e) (mem := (place cpu op).address_space.mem) hat hr (fun _ => view _ _)
    (fun _ => hw)
  have hall : ∀ (ws : List (Word × Byte)) (bus : FlatRam), ∃ bus', writeAll b bus ws = .ok bus' := by
    intro ws
    induction ws with
    | nil => intro bus; exact ⟨bus, rfl⟩
    | cons w ws ih =>
      intro bus
      obtain ⟨a, v⟩ := w
      exact ih _
  obtain ⟨bus', hb⟩ := hall (writes (place cpu op) op) (place cpu op).address_space
  unfold StepWrites at h
  rw [hb] at h
  exact ⟨_, hat, view _ _, hw, h⟩

example : ∃ c, StepsTo .debug ⟨0, 0, 0, 0⟩ (place sample (.LdBcd .V1)) c := by
  obtain ⟨c, -, -, -, h⟩ := frame_nonvacuous .debug ⟨0, 0, 0, 0⟩ sample (.LdBcd .V1)
    sample_wellFormed trivial (by decide) GpRegisters.noConfusion
    (by show ¬ 65536 ≤ (0x300 : Word).toNat + 2; decide)
  exact ⟨c, h⟩

end Verif.Props.Chip8
