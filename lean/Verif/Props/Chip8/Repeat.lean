import Verif.Props.Chip8.Reorder

/-!
# C120 for the CHIP-8: an instruction that does not look at what it sets can be repeated

In the same world: with the same random number, at the same time.
-/

namespace Verif.Props.Chip8

open Verif Verif.Chip8 Verif.Spec.Chip8
open Verif.Mos (FlatRam flatRam_coherent writeAll_coherent)
open Verif.Spec.Mos (Mem BusView writeAll Coherent upd)

section
variable {B R : Type} [Addressable B] {b : Build} {I : B → Mem → Prop} {c c1 c2 : Chip8 B R} {mem : Mem}
  {op : Opcode} {e : Env}

/-- C120: an instruction that does not look at what it sets, executed twice in a row. The second time it
changes nothing but the program counter. -/
theorem C120_chip8_repeat (hI : Coherent b I) (hm : I c.address_space mem) (hw : WellFormed c)
    (hat : At b c op) (hs : StepsTo b e c c1) (hat' : At b c1 op) (hs' : StepsTo b e c1 c2)
    (hf : transfersControl op = false) (hd : ∀ p ∈ looksAt c op, p ∉ sets c op) :
    c2.pc = c1.pc + 2 ∧ ∃ m, I c1.address_space m ∧ I c2.address_space m ∧ ∀ p, Same c1 c2 m m p := by
  obtain ⟨hr, bus, hbus, rfl⟩ := step_inv hat (hI _ _ hm).1 hw hs
  have hm1 := writeAll_coherent hI _ hm hbus
  have hw1 : WellFormed { after e mem c op with address_space := bus } := wellFormed_step hat (hI _ _ hm).1 hw hs
  obtain ⟨hr1, bus1, hbus1, rfl⟩ := step_inv hat' (hI _ _ hm1).1 hw1 hs'
  have hm2 := writeAll_coherent hI _ hm1 hbus1
  rw [runs_bus] at hr1
  obtain ⟨-, -, -, k⟩ := data_step (e := e) (D := fun p => p ∈ sets c op) (mem := mem)
    (d := after e mem c op) (mem' := memAfter mem c op) hf hr hw (after_wellFormed hw hf)
    (fun p hp => kept_all hp) hd
  have k : ∀ p, Same (after e mem c op) (after e (memAfter mem c op) (after e mem c op) op)
      (memAfter mem c op) (memAfter (memAfter mem c op) (after e mem c op) op) p :=
    fun p => k p fun h => h.2 h.1
  have a1 := after_bus (e := e) (mem := memAfter mem c op) (c := after e mem c op) (op := op) bus
  have b1 := writes_bus (c := after e mem c op) (op := op) bus
  have hmem : memAfter (memAfter mem c op) (after e mem c op) op = memAfter mem c op := funext fun a => k (.mem a)
  rw [b1] at hm2
  have hm2 : I bus1 (memAfter (memAfter mem c op) (after e mem c op) op) := hm2
  rw [hmem] at hm2
  refine ⟨?_, _, hm1, hm2, fun p => ?_⟩
  · rw [a1]
    exact after_pc hr1 hf
  · have := k p
    rw [hmem] at this
    rw [a1]
    exact same_bus this _ _

/-- C120: `AND` and `OR` with the same operand. -/
theorem C120_chip8_and_or (hI : Coherent b I) (hm : I c.address_space mem) (hw : WellFormed c)
    (hat : At b c op) (hs : StepsTo b e c c1) (hat' : At b c1 op) (hs' : StepsTo b e c1 c2)
    {x y : GpRegisters} (ho : op = .And x y ∨ op = .Or x y) :
    c2.pc = c1.pc + 2 ∧ ∃ m, I c1.address_space m ∧ I c2.address_space m ∧ ∀ p, Same c1 c2 m m p := by
  obtain ⟨hr, bus, hbus, rfl⟩ := step_inv hat (hI _ _ hm).1 hw hs
  have hm1 := writeAll_coherent hI _ hm hbus
  have hw1 : WellFormed { after e mem c op with address_space := bus } := wellFormed_step hat (hI _ _ hm).1 hw hs
  obtain ⟨hr1, bus1, hbus1, rfl⟩ := step_inv hat' (hI _ _ hm1).1 hw1 hs'
  have hm2 := writeAll_coherent hI _ hm1 hbus1
  rw [runs_bus] at hr1
  have a1 := after_bus (e := e) (mem := memAfter mem c op) (c := after e mem c op) (op := op) bus
  have hf : transfersControl op = false := by rcases ho with rfl | rfl <;> rfl
  have hpc : (after e (memAfter mem c op) (after e mem c op) op).pc = _ := after_pc hr1 hf
  rcases ho with rfl | rfl
  all_goals
    refine ⟨by rw [a1]; exact hpc, mem, hm1, hm2, fun p => ?_⟩
    rw [a1]
    refine same_bus (c := after e mem c _) (d := after e mem (after e mem c _) _) (?_ : Same _ _ mem mem p) _ _
    cases p with
    | v r =>
      have hx : x ≠ .Vf := fun h => hr.1 (by first | exact h | exact .inl h)
      simp only [Same, after, V_advance, V_setV _ hx]
      by_cases hrx : r = x
      · by_cases hry : y = x
        · simp [hrx, hry]
        · simp [hrx, hry, BitVec.and_assoc, BitVec.or_assoc]
      · simp [hrx]
    | _ => rfl

end

/-! ### Concrete cases -/

/-- The hypotheses of `C120_chip8_repeat`: `RND V1, 0x0f` twice, with the same random number. -/
example : ∃ c1 c2, Does .debug (withFour 0xc1 0x0f 0xc1 0x0f)
    [(⟨7, 0, 0, 0⟩, .Rnd .V1 0x0f), (⟨7, 0, 0, 0⟩, .Rnd .V1 0x0f)] c2 ∧
    StepsTo .debug ⟨7, 0, 0, 0⟩ (withFour 0xc1 0x0f 0xc1 0x0f) c1 ∧ ∀ p, Same c1 c2 c1.address_space.mem c2.address_space.mem p := by
  have h0 : At .debug (withFour 0xc1 0x0f 0xc1 0x0f) (.Rnd .V1 0x0f) :=
    (C40_fetch (view _ _) (by decide +kernel) _).2 ⟨trivial, by decide +kernel⟩
  have h1 : At .debug (after1 .debug ⟨7, 0, 0, 0⟩ (withFour 0xc1 0x0f 0xc1 0x0f)) (.Rnd .V1 0x0f) :=
    (C40_fetch (view _ _) (by decide +kernel) _).2 ⟨trivial, by decide +kernel⟩
  have s0 := steps_after1 (b := .debug) (e := ⟨7, 0, 0, 0⟩) (c := withFour 0xc1 0x0f 0xc1 0x0f) (by decide +kernel)
  have s1 := steps_after1 (b := .debug) (e := ⟨7, 0, 0, 0⟩)
    (c := after1 .debug ⟨7, 0, 0, 0⟩ (withFour 0xc1 0x0f 0xc1 0x0f)) (by decide +kernel)
  obtain ⟨-, m, h2, h3, h4⟩ := C120_chip8_repeat (flatRam_coherent .debug) rfl ⟨rfl, rfl⟩ h0 s0 h1 s1 rfl (by decide)
  have h2 : _ = m := h2
  have h3 : _ = m := h3
  refine ⟨_, _, .cons h0 s0 (.cons h1 s1 (.nil _)), s0, fun p => ?_⟩
  rw [h2, h3]
  exact h4 p

/-- The hypotheses of `C120_chip8_and_or`: `OR V1, V2` twice. -/
example : ∃ c1 c2, Does .debug (withFour 0x81 0x21 0x81 0x21)
    [(⟨0, 0, 0, 0⟩, .Or .V1 .V2), (⟨0, 0, 0, 0⟩, .Or .V1 .V2)] c2 ∧
    StepsTo .debug ⟨0, 0, 0, 0⟩ (withFour 0x81 0x21 0x81 0x21) c1 ∧ V c2 .V1 = V c1 .V1 := by
  have h0 : At .debug (withFour 0x81 0x21 0x81 0x21) (.Or .V1 .V2) :=
    (C40_fetch (view _ _) (by decide +kernel) _).2 ⟨trivial, by decide +kernel⟩
  have h1 : At .debug (after1 .debug ⟨0, 0, 0, 0⟩ (withFour 0x81 0x21 0x81 0x21)) (.Or .V1 .V2) :=
    (C40_fetch (view _ _) (by decide +kernel) _).2 ⟨trivial, by decide +kernel⟩
  have s0 := steps_after1 (b := .debug) (e := ⟨0, 0, 0, 0⟩) (c := withFour 0x81 0x21 0x81 0x21) (by decide +kernel)
  have s1 := steps_after1 (b := .debug) (e := ⟨0, 0, 0, 0⟩)
    (c := after1 .debug ⟨0, 0, 0, 0⟩ (withFour 0x81 0x21 0x81 0x21)) (by decide +kernel)
  obtain ⟨-, m, h2, h3, h4⟩ := C120_chip8_and_or (flatRam_coherent .debug) rfl ⟨rfl, rfl⟩ h0 s0 h1 s1 (.inr rfl)
  exact ⟨_, _, .cons h0 s0 (.cons h1 s1 (.nil _)), s0, h4 (.v .V1)⟩

/-- C120: an instruction that looks at what it sets cannot be repeated in general: `ADD V1, 1`. -/
theorem C120_chip8_looks : ∃ c1 c2, Does .debug (withFour 0x71 1 0x71 1)
    [(⟨0, 0, 0, 0⟩, .AddImmediate .V1 1), (⟨0, 0, 0, 0⟩, .AddImmediate .V1 1)] c2 ∧
    StepsTo .debug ⟨0, 0, 0, 0⟩ (withFour 0x71 1 0x71 1) c1 ∧ V c2 .V1 ≠ V c1 .V1 := by
  have h0 : At .debug (withFour 0x71 1 0x71 1) (.AddImmediate .V1 1) :=
    (C40_fetch (view _ _) (by decide +kernel) _).2 ⟨trivial, by decide +kernel⟩
  have h1 : At .debug (after1 .debug ⟨0, 0, 0, 0⟩ (withFour 0x71 1 0x71 1)) (.AddImmediate .V1 1) :=
    (C40_fetch (view _ _) (by decide +kernel) _).2 ⟨trivial, by decide +kernel⟩
  have s0 := steps_after1 (b := .debug) (e := ⟨0, 0, 0, 0⟩) (c := withFour 0x71 1 0x71 1) (by decide +kernel)
  exact ⟨_, _, .cons h0 s0 (.cons h1 (steps_after1 (by decide +kernel)) (.nil _)), s0, by decide +kernel⟩

end Verif.Props.Chip8
