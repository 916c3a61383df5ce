import Verif.Props.Chip8.Repeat

/-!
# C121 for the CHIP-8: instructions that undo each other
-/

namespace Verif.Props.Chip8

open Verif Verif.Chip8 Verif.Spec.Chip8
open Verif.Mos (FlatRam flatRam_coherent writeAll_coherent)
open Verif.Spec.Mos (Mem BusView writeAll Coherent upd)

section
variable {B R : Type} [Addressable B] {b : Build} {I : B → Mem → Prop} {c c2 : Chip8 B R} {mem : Mem}
  {e e' : Env} {x y : GpRegisters}

/-- Two instructions, as effects. -/
theorem two_steps {op op' : Opcode} (hI : Coherent b I) (hm : I c.address_space mem) (hw : WellFormed c)
    (h : Does b c [(e, op), (e', op')] c2) (hf : transfersControl op = false)
    (hf' : transfersControl op' = false) (hn : ∀ d : Chip8 B R, writes d op = [] ∧ writes d op' = []) :
    Runs b c op ∧ c2.pc = c.pc + 4 ∧ I c2.address_space mem ∧
    ∀ p, Same (after e' mem (after e mem c op) op') c2 mem mem p := by
  cases h with
  | @cons _ c1 _ _ _ _ hat hs hx =>
  cases hx with
  | @cons _ c2' _ _ _ _ hat' hs' hx =>
  cases hx
  obtain ⟨hr, bus, hbus, rfl⟩ := step_inv hat (hI _ _ hm).1 hw hs
  have hm1 := writeAll_coherent hI _ hm hbus
  have hw1 : WellFormed { after e mem c op with address_space := bus } := wellFormed_step hat (hI _ _ hm).1 hw hs
  obtain ⟨hr1, bus1, hbus1, rfl⟩ := step_inv hat' (hI _ _ hm1).1 hw1 hs'
  have hm2 := writeAll_coherent hI _ hm1 hbus1
  rw [runs_bus] at hr1
  rw [(hn _).2, (hn _).1] at hm2
  rw [(hn _).1]
  have a1 := after_bus (e := e') (mem := mem) (c := after e mem c op) (op := op') bus
  refine ⟨hr, ?_, hm2, fun p => ?_⟩
  · show (after e' mem _ op').pc = _
    rw [a1]
    show (after e' mem (after e mem c op) op').pc = _
    rw [after_pc hr1 hf', after_pc hr hf, BitVec.add_assoc]
    rfl
  · show Same _ { after e' mem { after e mem c op with address_space := bus } op' with address_space := bus1 } _ _ p
    rw [a1]
    cases p <;> rfl

/-- C121: `XOR Vx, Vy` twice, with two different registers. -/
theorem C121_chip8_xor (hI : Coherent b I) (hm : I c.address_space mem) (hw : WellFormed c)
    (h : Does b c [(e, .Xor x y), (e', .Xor x y)] c2) (hxy : x ≠ y) :
    c2.pc = c.pc + 4 ∧ I c2.address_space mem ∧ ∀ p, Same c c2 mem mem p := by
  obtain ⟨hr, h1, h2, h3⟩ := two_steps hI hm hw h rfl rfl fun _ => ⟨rfl, rfl⟩
  have hx : x ≠ .Vf := fun h => hr.1 (.inl h)
  refine ⟨h1, h2, fun p => same_trans ?_ (h3 p)⟩
  cases p with
  | v r =>
    simp only [Same, after, V_advance, V_setV _ hx]
    by_cases hrx : r = x
    · simp [hrx, Ne.symm hxy, BitVec.xor_assoc]
    · simp [hrx]
  | _ => rfl

/-- C121: `ADD Vx, kk` and `ADD Vx, kk'` where kk + kk' = 256 or both are 0. -/
theorem C121_chip8_add {kk kk' : Byte} (hI : Coherent b I) (hm : I c.address_space mem) (hw : WellFormed c)
    (h : Does b c [(e, .AddImmediate x kk), (e', .AddImmediate x kk')] c2)
    (hk : (kk.toNat + kk'.toNat) % 256 = 0) :
    c2.pc = c.pc + 4 ∧ I c2.address_space mem ∧ ∀ p, Same c c2 mem mem p := by
  obtain ⟨hr, h1, h2, h3⟩ := two_steps hI hm hw h rfl rfl fun _ => ⟨rfl, rfl⟩
  have hx : x ≠ .Vf := fun h => hr.1 h
  have hk : kk + kk' = 0 := by
    apply BitVec.eq_of_toNat_eq
    rw [BitVec.toNat_add]
    exact hk
  refine ⟨h1, h2, fun p => same_trans ?_ (h3 p)⟩
  cases p with
  | v r =>
    simp only [Same, after, V_advance, V_setV _ hx]
    by_cases hrx : r = x
    · simp [hrx, BitVec.add_assoc, hk]
    · simp [hrx]
  | _ => rfl

end

/-! ### Concrete cases -/

/-- The hypotheses of `C121_chip8_xor`. -/
example : ∃ c2, Does .debug (withFour 0x81 0x23 0x81 0x23)
    [(⟨0, 0, 0, 0⟩, .Xor .V1 .V2), (⟨0, 0, 0, 0⟩, .Xor .V1 .V2)] c2 ∧
    V c2 .V1 = V (withFour 0x81 0x23 0x81 0x23) .V1 := by
  have h0 : At .debug (withFour 0x81 0x23 0x81 0x23) (.Xor .V1 .V2) :=
    (C40_fetch (view _ _) (by decide +kernel) _).2 ⟨trivial, by decide +kernel⟩
  have h1 : At .debug (after1 .debug ⟨0, 0, 0, 0⟩ (withFour 0x81 0x23 0x81 0x23)) (.Xor .V1 .V2) :=
    (C40_fetch (view _ _) (by decide +kernel) _).2 ⟨trivial, by decide +kernel⟩
  have h := Does.cons h0 (steps_after1 (e := ⟨0, 0, 0, 0⟩) (by decide +kernel))
    (.cons h1 (steps_after1 (e := ⟨0, 0, 0, 0⟩) (by decide +kernel)) (.nil _))
  exact ⟨_, h, (C121_chip8_xor (flatRam_coherent .debug) rfl ⟨rfl, rfl⟩ h (by decide)).2.2 (.v .V1)⟩

/-- The hypotheses of `C121_chip8_add`. -/
example : ∃ c2, Does .debug (withFour 0x71 0x10 0x71 0xf0)
    [(⟨0, 0, 0, 0⟩, .AddImmediate .V1 0x10), (⟨0, 0, 0, 0⟩, .AddImmediate .V1 0xf0)] c2 ∧
    V c2 .V1 = V (withFour 0x71 0x10 0x71 0xf0) .V1 := by
  have h0 : At .debug (withFour 0x71 0x10 0x71 0xf0) (.AddImmediate .V1 0x10) :=
    (C40_fetch (view _ _) (by decide +kernel) _).2 ⟨trivial, by decide +kernel⟩
  have h1 : At .debug (after1 .debug ⟨0, 0, 0, 0⟩ (withFour 0x71 0x10 0x71 0xf0)) (.AddImmediate .V1 0xf0) :=
    (C40_fetch (view _ _) (by decide +kernel) _).2 ⟨trivial, by decide +kernel⟩
  have h := Does.cons h0 (steps_after1 (e := ⟨0, 0, 0, 0⟩) (by decide +kernel))
    (.cons h1 (steps_after1 (e := ⟨0, 0, 0, 0⟩) (by decide +kernel)) (.nil _))
  exact ⟨_, h, (C121_chip8_add (flatRam_coherent .debug) rfl ⟨rfl, rfl⟩ h (by decide)).2.2 (.v .V1)⟩

end Verif.Props.Chip8
