import Verif.Proofs.MosReorder
import Verif.Props.Listing

/-!
# C120: an instruction that does not look at what it sets can be repeated

Loads, stores, compares, transfers, flag instructions: executed twice in a row they leave what they leave when
executed once. The general theorem asks only that the instruction does not look at what it gives a value
(`dataUses` and `sets`); `AND` and `ORA`, which look at the accumulator, are treated separately.
-/

namespace Verif.Props

open Verif Verif.Mos Verif.Spec Verif.Spec.Mos

theorem bitByte_inj {u v : Bool} (h : bitByte u = bitByte v) : u = v := by
  cases u <;> cases v <;> first | rfl | simp [bitByte] at h

/-- The parts are all there is besides the program counter. -/
theorem regs_of_value {r r' : Regs} {mem mem' : Mem} (h : ∀ p, value r' mem' p = value r mem p) :
    r' = { r with pc := r'.pc } ∧ mem' = mem := by
  refine ⟨?_, funext fun a => h (.mem a)⟩
  obtain ⟨a, x, y, sp, pc, p⟩ := r
  obtain ⟨a', x', y', sp', pc', p'⟩ := r'
  have e1 : a' = a := h .a
  have e2 : x' = x := h .x
  have e3 : y' = y := h .y
  have e4 : sp' = sp := h .sp
  have f1 := bitByte_inj (h (.flag .Negative))
  have f2 := bitByte_inj (h (.flag .Overflow))
  have f3 := bitByte_inj (h .unused)
  have f4 := bitByte_inj (h (.flag .Break))
  have f5 := bitByte_inj (h (.flag .Decimal))
  have f6 := bitByte_inj (h (.flag .Interrupt))
  have f7 := bitByte_inj (h (.flag .Zero))
  have f8 := bitByte_inj (h (.flag .Carry))
  obtain ⟨_, _, _, _, _, _, _, _⟩ := p
  obtain ⟨_, _, _, _, _, _, _, _⟩ := p'
  simp only at f1 f2 f3 f4 f5 f6 f7 f8
  subst e1 e2 e3 e4 f1 f2 f3 f4 f5 f6 f7 f8
  rfl

section
variable {B : Type} [Addressable B] {b : Build} {I : B → Mem → Prop} {c c1 c2 : Mos6502 B}
  {mem : Mem} {i j : InstructionVariant} {ops ops' : Operations}

/-- C120: an instruction that does not look at what it sets, executed twice in a row. The second time it takes
the same number of cycles and changes nothing but the program counter. -/
theorem C120_repeat (hI : Coherent b I) (hm : I c.address_map mem) (hat : At b c i)
    (hn : next b c = .ok (ops, c1)) (hat' : At b c1 j) (hn' : next b c1 = .ok (ops', c2))
    (hij : view j = view i) (hf : transfersControl (view i).1 = false)
    (hd : ∀ p ∈ dataUses (regs c) mem i, p ∉ sets (regs c) mem i) :
    ops'.cycles = ops.cycles ∧ regs c2 = { regs c1 with pc := word (c1.pc.toNat + size (view i).2) } ∧
    ∃ m, I c1.address_map m ∧ I c2.address_map m := by
  obtain ⟨-, hops, hr, hws⟩ := step_inv hat (hI _ _ hm).1 (mn := (view i).1) (am := (view i).2) rfl hn
  have hm1 := writeAll_coherent hI _ hm hws
  obtain ⟨-, hops1, hr1, hws1⟩ :=
    step_inv hat' (hI _ _ hm1).1 (mn := (view i).1) (am := (view i).2) hij hn'
  have hm2 := writeAll_coherent hI _ hm1 hws1
  obtain ⟨k1, -, k3⟩ := data_step (D := fun p => p ∈ sets (regs c) mem i) (r := regs c) (mem := mem)
    (r' := regs c1) (mem' := memAfter (regs c) mem i) hf
    (fun p hp => by rw [hr]; exact effect_keeps_all (regs c) mem i hp) hd
  obtain ⟨e1, e2⟩ := regs_of_value fun p => k3 p fun h => h.2 h.1
  refine ⟨by rw [hops, hops1]; exact k1, ?_, _, hm1, ?_⟩
  · rw [hr1, hr]
    rw [hr] at e1
    refine Eq.trans e1 ?_
    congr 1
    refine (effect_pc (r := (codeEffect (regs c) mem (view i).1 (view i).2).regs) hf).trans ?_
    rw [← hr]
    rfl
  · have e2 : memAfter (regs c1) (memAfter (regs c) mem i) i = memAfter (regs c) mem i := e2
    have hm2 : I c2.address_map (memAfter (regs c1) (memAfter (regs c) mem i) i) := hm2
    rw [e2] at hm2
    exact hm2

/-- C120: `AND` and `ORA` with the same operand. -/
theorem C120_and_ora (hI : Coherent b I) (hm : I c.address_map mem) (hat : At b c i)
    (hn : next b c = .ok (ops, c1)) (hat' : At b c1 j) (hn' : next b c1 = .ok (ops', c2))
    (hij : view j = view i) (hf : (view i).1 = .And ∨ (view i).1 = .Ora) :
    ops'.cycles = ops.cycles ∧ regs c2 = { regs c1 with pc := word (c1.pc.toNat + size (view i).2) } ∧
    ∃ m, I c1.address_map m ∧ I c2.address_map m := by
  obtain ⟨-, hops, hr, hws⟩ := step_inv hat (hI _ _ hm).1 (mn := (view i).1) (am := (view i).2) rfl hn
  have hm1 := writeAll_coherent hI _ hm hws
  obtain ⟨-, hops1, hr1, hws1⟩ :=
    step_inv hat' (hI _ _ hm1).1 (mn := (view i).1) (am := (view i).2) hij hn'
  have hm2 := writeAll_coherent hI _ hm1 hws1
  have hac : (view i).2 ≠ .accumulator := by
    intro h
    cases i <;> simp [view] at h hf
  have hop : ∀ a p pc, operand { regs c with a := a, p := p, pc := pc } mem (view i).2 =
      operand (regs c) mem (view i).2 := fun _ _ _ => by
    revert hac
    cases (view i).2 <;> intro hac <;> first | rfl | exact absurd rfl hac
  have hpe : ∀ a p pc, codePenalty { regs c with a := a, p := p, pc := pc } mem (view i).1 (view i).2 =
      codePenalty (regs c) mem (view i).1 (view i).2 := fun _ _ _ => by
    rcases hf with h | h <;> rw [h] <;> cases (view i).2 <;> rfl
  have hnn : ∀ p v, setNZ (setNZ p v) v = setNZ p v := fun _ _ => rfl
  rcases hf with h | h
  all_goals
    rw [h] at hops hops1 hr hr1 hm1 hm2 hpe
    simp only [codeEffect, List.foldl_nil] at hr hr1 hm1 hm2
    have hpc1 : c1.pc = nextPc (regs c) (view i).2 := congrArg Regs.pc hr
    refine ⟨?_, ?_, mem, hm1, hm2⟩
    · rw [hops, hops1, hr]
      simp only [code, codeEffect, List.foldl_nil]
      rw [hpe]
    · rw [hr1]
      rw [hr]
      simp only [hop, hnn, BitVec.and_assoc, BitVec.and_self, BitVec.or_assoc, BitVec.or_self]
      rw [hpc1]
      rfl

end

/-! ### Concrete cases -/

/-- The hypotheses of `C120_repeat`: `STX $10; STX $10`. -/
example : ∃ c1 c2 : Mos6502 FlatRam,
    Executes .debug (loadedAt 0x200 [0x86, 0x10, 0x86, 0x10])
      [(loadedAt 0x200 [0x86, 0x10, 0x86, 0x10], .StxZeroPage 0x10), (c1, .StxZeroPage 0x10)] c2 ∧
    regs c2 = { regs c1 with pc := 0x204 } ∧ c2.address_map.mem = c1.address_map.mem := by
  obtain ⟨a1, o1, n1⟩ : Step .debug (loadedAt 0x200 [0x86, 0x10, 0x86, 0x10]) (.StxZeroPage 0x10) _ :=
    flat_step (by decide) (by decide +kernel) trivial
  obtain ⟨a2, o2, n2⟩ : Step .debug _ (.StxZeroPage 0x10) _ :=
    flat_step (r := regsAfter (regs (loadedAt 0x200 [0x86, 0x10, 0x86, 0x10]))
      (loadedAt 0x200 [0x86, 0x10, 0x86, 0x10]).address_map.mem (.StxZeroPage 0x10))
      (mem := memAfter (regs (loadedAt 0x200 [0x86, 0x10, 0x86, 0x10]))
      (loadedAt 0x200 [0x86, 0x10, 0x86, 0x10]).address_map.mem (.StxZeroPage 0x10)) (by decide +kernel)
      (by decide +kernel) trivial
  obtain ⟨-, h1, m, h2, h3⟩ := C120_repeat (flatRam_coherent .debug) rfl a1 n1 a2 n2 rfl rfl (by decide +kernel)
  refine ⟨_, _, .cons ⟨a1, o1, n1⟩ (.cons ⟨a2, o2, n2⟩ (.nil _)), h1.trans ?_, Eq.trans h3 (Eq.symm h2)⟩
  congr 1

/-- The hypotheses of `C120_and_ora`: `AND #15; AND #15`. -/
example : ∃ c1 c2 : Mos6502 FlatRam,
    Executes .debug (loadedAt 0x200 [0x29, 15, 0x29, 15])
      [(loadedAt 0x200 [0x29, 15, 0x29, 15], .AndImmediate 15), (c1, .AndImmediate 15)] c2 ∧
    regs c2 = { regs c1 with pc := 0x204 } := by
  obtain ⟨a1, o1, n1⟩ : Step .debug (loadedAt 0x200 [0x29, 15, 0x29, 15]) (.AndImmediate 15) _ :=
    flat_step (by decide) (by decide +kernel) trivial
  obtain ⟨a2, o2, n2⟩ : Step .debug _ (.AndImmediate 15) _ :=
    flat_step (r := regsAfter (regs (loadedAt 0x200 [0x29, 15, 0x29, 15]))
      (loadedAt 0x200 [0x29, 15, 0x29, 15]).address_map.mem (.AndImmediate 15))
      (mem := memAfter (regs (loadedAt 0x200 [0x29, 15, 0x29, 15]))
      (loadedAt 0x200 [0x29, 15, 0x29, 15]).address_map.mem (.AndImmediate 15)) (by decide +kernel)
      (by decide +kernel) trivial
  obtain ⟨-, h1, -⟩ := C120_and_ora (flatRam_coherent .debug) rfl a1 n1 a2 n2 rfl (.inl rfl)
  refine ⟨_, _, .cons ⟨a1, o1, n1⟩ (.cons ⟨a2, o2, n2⟩ (.nil _)), h1.trans ?_⟩
  congr 1

/-- C120: an instruction that looks at what it sets cannot be repeated in general: `INX`. -/
theorem C120_looks : ∃ c1 c2 : Mos6502 FlatRam,
    Executes .debug (loadedAt 0x200 [0xe8, 0xe8])
      [(loadedAt 0x200 [0xe8, 0xe8], .InxImplied), (c1, .InxImplied)] c2 ∧ c2.x ≠ c1.x :=
  ⟨_, _, .cons (flat_step (by decide) (by decide +kernel) trivial)
      (.cons (flat_step (by decide) (by decide +kernel) trivial) (.nil _)), by decide +kernel⟩

end Verif.Props
