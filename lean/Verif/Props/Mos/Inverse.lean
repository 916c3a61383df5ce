import Verif.Props.Mos.Repeat

/-!
# C121: instructions of the 6502 that undo each other

`INX` and `DEX`, `INC` and `DEC`, `EOR` and itself, `ROL` and `ROR`, `ASL` and `ROR`, `LSR` and `ROL`, `ADC` and
`SEC`, `SBC`: executed one after the other on the same operand they leave the operand, all other registers and
the memory as they were. The flags negative and zero are those of the operand. For `INY; DEY` the last is
false: `DEY` sets these flags from X - 1 (C22).
-/

namespace Verif.Props

open Verif Verif.Mos Verif.Spec Verif.Spec.Mos

section
variable {B : Type} [Addressable B] {b : Build} {I : B → Mem → Prop} {c c1 c2 c3 : Mos6502 B}
  {mem : Mem} {i j k : InstructionVariant} {ops ops' ops'' : Operations}

/-- One instruction, as effects. -/
theorem one_step (hI : Coherent b I) (hm : I c.address_map mem) (hat : At b c i)
    (hn : next b c = .ok (ops, c1)) :
    regs c1 = regsAfter (regs c) mem i ∧ I c1.address_map (memAfter (regs c) mem i) := by
  obtain ⟨-, -, hr, hws⟩ := step_inv hat (hI _ _ hm).1 (mn := (view i).1) (am := (view i).2) rfl hn
  exact ⟨hr, writeAll_coherent hI _ hm hws⟩

theorem two_steps (hI : Coherent b I) (hm : I c.address_map mem) (hat : At b c i)
    (hn : next b c = .ok (ops, c1)) (hat' : At b c1 j) (hn' : next b c1 = .ok (ops', c2)) :
    regs c2 = regsAfter (regsAfter (regs c) mem i) (memAfter (regs c) mem i) j ∧
    I c2.address_map (memAfter (regsAfter (regs c) mem i) (memAfter (regs c) mem i) j) := by
  obtain ⟨hr, hm1⟩ := one_step hI hm hat hn
  obtain ⟨hr1, hm2⟩ := one_step hI hm1 hat' hn'
  rw [hr] at hr1 hm2
  exact ⟨hr1, hm2⟩

/-- C121: `INX; DEX` and `DEX; INX`. -/
theorem C121_inx_dex (hI : Coherent b I) (hm : I c.address_map mem) (hat : At b c i)
    (hn : next b c = .ok (ops, c1)) (hat' : At b c1 j) (hn' : next b c1 = .ok (ops', c2))
    (h : (view i).1 = .Inx ∧ (view j).1 = .Dex ∨ (view i).1 = .Dex ∧ (view j).1 = .Inx) :
    regs c2 = { regs c with pc := c2.pc, p := setNZ c.ps c.x } ∧ I c2.address_map mem := by
  obtain ⟨hr, hm2⟩ := two_steps hI hm hat hn hat' hn'
  have hp : c2.pc = (regs c2).pc := rfl
  rw [hp]
  rw [hr]
  rcases h with ⟨h, h'⟩ | ⟨h, h'⟩
  all_goals
    simp only [regsAfter, memAfter, h, h', codeEffect, List.foldl_nil, BitVec.add_sub_cancel, BitVec.sub_add_cancel]
      at hm2 ⊢
    exact ⟨rfl, hm2⟩

/-- C121: `DEY; INY`. -/
theorem C121_dey_iny (hI : Coherent b I) (hm : I c.address_map mem) (hat : At b c i)
    (hn : next b c = .ok (ops, c1)) (hat' : At b c1 j) (hn' : next b c1 = .ok (ops', c2))
    (h : (view i).1 = .Dey) (h' : (view j).1 = .Iny) :
    regs c2 = { regs c with pc := c2.pc, p := setNZ c.ps c.y } ∧ I c2.address_map mem := by
  obtain ⟨hr, hm2⟩ := two_steps hI hm hat hn hat' hn'
  have hp : c2.pc = (regs c2).pc := rfl
  rw [hp]
  rw [hr]
  simp only [regsAfter, memAfter, h, h', codeEffect, List.foldl_nil, BitVec.sub_add_cancel] at hm2 ⊢
  exact ⟨rfl, hm2⟩

/-- C121: what is true of `INY; DEY`: everything but the flags is as it was. Missing: the flags should be those
of Y. -/
theorem C121_iny_dey_partial (hI : Coherent b I) (hm : I c.address_map mem) (hat : At b c i)
    (hn : next b c = .ok (ops, c1)) (hat' : At b c1 j) (hn' : next b c1 = .ok (ops', c2))
    (h : (view i).1 = .Iny) (h' : (view j).1 = .Dey) :
    regs c2 = { regs c with pc := c2.pc, p := setNZ c.ps (c.x - 1) } ∧ I c2.address_map mem := by
  obtain ⟨hr, hm2⟩ := two_steps hI hm hat hn hat' hn'
  have hp : c2.pc = (regs c2).pc := rfl
  rw [hp]
  rw [hr]
  simp only [regsAfter, memAfter, h, h', codeEffect, List.foldl_nil, BitVec.add_sub_cancel] at hm2 ⊢
  exact ⟨rfl, hm2⟩

theorem ea_free {r r' : Regs} {mem mem' : Mem} {am : AddrMode} (hx : r'.x = r.x)
    (ham : am = .accumulator ∨ (∃ a, am = .zeroPage a) ∨ (∃ a, am = .zeroPageX a) ∨ (∃ a, am = .absolute a) ∨
      ∃ a, am = .absoluteX a) : ea r' mem' am = ea r mem am := by
  rcases ham with rfl | ⟨_, rfl⟩ | ⟨_, rfl⟩ | ⟨_, rfl⟩ | ⟨_, rfl⟩ <;> simp only [ea, hx]

/-- The addressing modes of the instructions that change a byte of memory. -/
theorem modify_modes (h : (view i).1 ∈ [Mnemonic.Inc, .Dec, .Asl, .Lsr, .Rol, .Ror]) :
    (view i).2 = .accumulator ∨ (∃ a, (view i).2 = .zeroPage a) ∨ (∃ a, (view i).2 = .zeroPageX a) ∨
      (∃ a, (view i).2 = .absolute a) ∨ ∃ a, (view i).2 = .absoluteX a := by
  cases i <;> first | (simp [view] at h; done) | simp [view]

theorem not_accumulator (h : (view i).1 ∈ [Mnemonic.Inc, .Dec, .Eor, .Adc]) : (view i).2 ≠ .accumulator := by
  cases i <;> first | (simp [view] at h; done) | simp [view]

theorem upd_back (mem : Mem) (a : Word) (v : Byte) : upd (upd mem a v) a (mem a) = mem := by
  funext x
  unfold upd
  by_cases h : x = a
  · rw [if_pos h, h]
  · rw [if_neg h, if_neg h]

theorem upd_self (mem : Mem) (a : Word) (v : Byte) : upd mem a v a = v := if_pos rfl

/-- C121: `INC; DEC` and `DEC; INC` of the same byte. -/
theorem C121_inc_dec (hI : Coherent b I) (hm : I c.address_map mem) (hat : At b c i)
    (hn : next b c = .ok (ops, c1)) (hat' : At b c1 j) (hn' : next b c1 = .ok (ops', c2))
    (h : (view i).1 = .Inc ∧ (view j).1 = .Dec ∨ (view i).1 = .Dec ∧ (view j).1 = .Inc)
    (ham : (view j).2 = (view i).2) :
    regs c2 = { regs c with pc := c2.pc, p := setNZ c.ps (mem (ea (regs c) mem (view i).2)) } ∧
    I c2.address_map mem := by
  obtain ⟨hr, hm2⟩ := two_steps hI hm hat hn hat' hn'
  have hp : c2.pc = (regs c2).pc := rfl
  rw [hp]
  rw [hr]
  have hmo := modify_modes (i := i) (by rcases h with ⟨h, -⟩ | ⟨h, -⟩ <;> simp [h])
  have hna := not_accumulator (i := i) (by rcases h with ⟨h, -⟩ | ⟨h, -⟩ <;> simp [h])
  have hop : ∀ r m, operand r m (view i).2 = m (ea r m (view i).2) := fun r m => by
    rcases hmo with h | ⟨_, h⟩ | ⟨_, h⟩ | ⟨_, h⟩ | ⟨_, h⟩
    · exact absurd h hna
    all_goals rw [h]; rfl
  have hea : ∀ p pc m, ea { regs c with p := p, pc := pc } m (view i).2 = ea (regs c) mem (view i).2 :=
    fun _ _ _ => ea_free rfl hmo
  rcases h with ⟨h, h'⟩ | ⟨h, h'⟩
  all_goals
    simp only [regsAfter, memAfter, h, h', ham, codeEffect, List.foldl_nil, List.foldl_cons, hop, hea, upd_self,
      BitVec.add_sub_cancel, BitVec.sub_add_cancel, upd_back] at hm2 ⊢
    exact ⟨rfl, hm2⟩

/-- C121: `EOR` twice with the same operand. -/
theorem C121_eor (hI : Coherent b I) (hm : I c.address_map mem) (hat : At b c i)
    (hn : next b c = .ok (ops, c1)) (hat' : At b c1 j) (hn' : next b c1 = .ok (ops', c2))
    (h : (view i).1 = .Eor) (h' : view j = view i) :
    regs c2 = { regs c with pc := c2.pc, p := setNZ c.ps (regs c).a } ∧ I c2.address_map mem := by
  obtain ⟨hr, hm2⟩ := two_steps hI hm hat hn hat' hn'
  have hp : c2.pc = (regs c2).pc := rfl
  rw [hp]
  rw [hr]
  have hac := not_accumulator (i := i) (by simp [h])
  have hop : ∀ a p pc, operand { regs c with a := a, p := p, pc := pc } mem (view i).2 =
      operand (regs c) mem (view i).2 := fun _ _ _ => by
    revert hac
    cases (view i).2 <;> intro hac <;> first | rfl | exact absurd rfl hac
  simp only [regsAfter, memAfter, h, h', codeEffect, List.foldl_nil, hop, BitVec.xor_assoc, BitVec.xor_self,
    BitVec.xor_zero] at hm2 ⊢
  exact ⟨rfl, hm2⟩

/-- The result and the carry of a shift. -/
def shiftOf : Mnemonic → Byte → Bool → Byte × Bool
  | .Asl, v, _ => (byte (2 * v.toNat), decide (128 ≤ v.toNat))
  | .Lsr, v, _ => (byte (v.toNat / 2), decide (v.toNat % 2 = 1))
  | .Rol, v, k => (byte (2 * v.toNat + bit k), decide (128 ≤ v.toNat))
  | _, v, k => (byte (v.toNat / 2 + 128 * bit k), decide (v.toNat % 2 = 1))

theorem shift_effect {mn : Mnemonic} (h : mn ∈ [Mnemonic.Asl, .Lsr, .Rol, .Ror]) (r : Regs) (mem : Mem)
    (am : AddrMode) : codeEffect r mem mn am = shiftEffect r am (ea r mem am)
      (shiftOf mn (operand r mem am) r.p.carry).1 (shiftOf mn (operand r mem am) r.p.carry).2 := by
  simp only [List.mem_cons, List.not_mem_nil, or_false] at h
  rcases h with rfl | rfl | rfl | rfl <;> rfl

/-- Two shifts of which the second one gives back the operand of the first one. -/
theorem shift_pair (hI : Coherent b I) (hm : I c.address_map mem) (hat : At b c i)
    (hn : next b c = .ok (ops, c1)) (hat' : At b c1 j) (hn' : next b c1 = .ok (ops', c2))
    (hi : (view i).1 ∈ [Mnemonic.Asl, .Lsr, .Rol, .Ror]) (hj : (view j).1 ∈ [Mnemonic.Asl, .Lsr, .Rol, .Ror])
    (ham : (view j).2 = (view i).2) {k : Bool}
    (h : ∀ v, shiftOf (view j).1 (shiftOf (view i).1 v c.ps.carry).1 (shiftOf (view i).1 v c.ps.carry).2 =
      (v, k)) :
    regs c2 = { regs c with
      pc := c2.pc, p := { setNZ c.ps (operand (regs c) mem (view i).2) with carry := k } } ∧
    I c2.address_map mem := by
  obtain ⟨hr, hm2⟩ := two_steps hI hm hat hn hat' hn'
  have hp : c2.pc = (regs c2).pc := rfl
  rw [hp]
  rw [hr]
  have hmo := modify_modes (i := i) (by
    simp only [List.mem_cons, List.not_mem_nil, or_false] at hi ⊢
    rcases hi with h | h | h | h <;> simp [h])
  simp only [regsAfter, memAfter, shift_effect hi, shift_effect hj, ham] at hm2 ⊢
  have h' : ∀ v, (shiftOf (view j).1 (shiftOf (view i).1 v (regs c).p.carry).1
      (shiftOf (view i).1 v (regs c).p.carry).2) = (v, k) := h
  rcases hmo with hx | ⟨_, hx⟩ | ⟨_, hx⟩ | ⟨_, hx⟩ | ⟨_, hx⟩
  all_goals
    simp only [hx, shiftEffect, operand, ea, List.foldl_nil, List.foldl_cons, upd_self, h', upd_back] at hm2 ⊢
    exact ⟨rfl, hm2⟩

theorem rol_ror (v : Byte) (k : Bool) : shiftOf .Ror (shiftOf .Rol v k).1 (shiftOf .Rol v k).2 = (v, k) := by
  revert v k
  decide +kernel

theorem ror_rol (v : Byte) (k : Bool) : shiftOf .Rol (shiftOf .Ror v k).1 (shiftOf .Ror v k).2 = (v, k) := by
  revert v k
  decide +kernel

theorem asl_ror (v : Byte) (k : Bool) : shiftOf .Ror (shiftOf .Asl v k).1 (shiftOf .Asl v k).2 = (v, false) := by
  revert v k
  decide +kernel

theorem lsr_rol (v : Byte) (k : Bool) : shiftOf .Rol (shiftOf .Lsr v k).1 (shiftOf .Lsr v k).2 = (v, false) := by
  revert v k
  decide +kernel

/-- C121: `ROL; ROR` and `ROR; ROL` of the accumulator or of the same byte: also the carry is as it was. -/
theorem C121_rotations (hI : Coherent b I) (hm : I c.address_map mem) (hat : At b c i)
    (hn : next b c = .ok (ops, c1)) (hat' : At b c1 j) (hn' : next b c1 = .ok (ops', c2))
    (h : (view i).1 = .Rol ∧ (view j).1 = .Ror ∨ (view i).1 = .Ror ∧ (view j).1 = .Rol)
    (ham : (view j).2 = (view i).2) :
    regs c2 = { regs c with pc := c2.pc, p := setNZ c.ps (operand (regs c) mem (view i).2) } ∧
    I c2.address_map mem := by
  have := shift_pair (k := c.ps.carry) hI hm hat hn hat' hn'
    (by rcases h with ⟨h, -⟩ | ⟨h, -⟩ <;> simp [h]) (by rcases h with ⟨-, h⟩ | ⟨-, h⟩ <;> simp [h]) ham
    (fun v => by
      rcases h with ⟨h, h'⟩ | ⟨h, h'⟩ <;> rw [h, h']
      · exact rol_ror v _
      · exact ror_rol v _)
  exact this

/-- C121: a shift and the rotation the other way; the carry is clear. -/
theorem C121_shifts (hI : Coherent b I) (hm : I c.address_map mem) (hat : At b c i)
    (hn : next b c = .ok (ops, c1)) (hat' : At b c1 j) (hn' : next b c1 = .ok (ops', c2))
    (h : (view i).1 = .Asl ∧ (view j).1 = .Ror ∨ (view i).1 = .Lsr ∧ (view j).1 = .Rol)
    (ham : (view j).2 = (view i).2) :
    regs c2 = { regs c with
      pc := c2.pc, p := { setNZ c.ps (operand (regs c) mem (view i).2) with carry := false } } ∧
    I c2.address_map mem :=
  shift_pair hI hm hat hn hat' hn'
    (by rcases h with ⟨h, -⟩ | ⟨h, -⟩ <;> simp [h]) (by rcases h with ⟨-, h⟩ | ⟨-, h⟩ <;> simp [h]) ham
    (fun v => by
      rcases h with ⟨h, h'⟩ | ⟨h, h'⟩ <;> rw [h, h']
      · exact asl_ror v _
      · exact lsr_rol v _)

/-- C121: adding a value, with the carry clear, and subtracting it, with the carry set. (The 6502 needs the
carry clear; `ADC` of this code does not look at it, C23.) -/
theorem C121_adc_sbc (hI : Coherent b I) (hm : I c.address_map mem) (_hc : c.ps.carry = false) (hat : At b c i)
    (hn : next b c = .ok (ops, c1)) (hat' : At b c1 j) (hn' : next b c1 = .ok (ops', c2))
    (hat'' : At b c2 k) (hn'' : next b c2 = .ok (ops'', c3))
    (hi : (view i).1 = .Adc) (hj : (view j).1 = .Sec) (hk : (view k).1 = .Sbc) (ham : (view k).2 = (view i).2) :
    regs c3 = { regs c with pc := c3.pc, p := c3.ps } ∧ c3.ps.zero = decide ((regs c).a = 0) ∧
    c3.ps.negative = decide (128 ≤ (regs c).a.toNat) ∧ I c3.address_map mem := by
  obtain ⟨hr2, hm2⟩ := two_steps hI hm hat hn hat' hn'
  obtain ⟨hr3, hm3⟩ := one_step hI hm2 hat'' hn''
  have hp : c3.pc = (regs c3).pc := rfl
  have hps : c3.ps = (regs c3).p := rfl
  rw [hp, hps]
  rw [hr2] at hr3 hm3
  rw [hr3]
  have hac := not_accumulator (i := i) (by simp [hi])
  have hop : ∀ a p pc, operand { regs c with a := a, p := p, pc := pc } mem (view i).2 =
      operand (regs c) mem (view i).2 := fun _ _ _ => by
    revert hac
    cases (view i).2 <;> intro hac <;> first | rfl | exact absurd rfl hac
  have e : ∀ a v : Byte, a + v + (255 - v + 1) = a := fun a v => by
    rw [BitVec.add_assoc, show v + (255 - v + 1) = 0 by revert v; decide +kernel]
    exact BitVec.add_zero a
  have hN : ∀ a : Byte, Operand.msbSet a = decide (128 ≤ a.toNat) := by decide +kernel
  have hZ : ∀ a : Byte, (a == 0) = decide (a = 0) := fun _ => rfl
  simp only [regsAfter, memAfter, hi, hj, hk, ham, codeEffect, List.foldl_nil, arithRegs, hop,
    Operand.twosComplementAdd, Operand.add, Operand.new, Operand.unwrap, Operand.withFlags, boolAsU8, if_true, e]
    at hm3 ⊢
  exact ⟨trivial, hZ _, hN _, hm3⟩

end

/-! ### Concrete cases -/

/-- Two instructions of one or two bytes that the debug build executes at 0x200. -/
theorem two_at (l : List Byte) (i j : InstructionVariant)
    (h1 : Step .debug (loadedAt 0x200 l) i
      (withRegs (regsAfter (regs (loadedAt 0x200 l)) (loaded 0x200 l fun _ => 0) i)
        ⟨memAfter (regs (loadedAt 0x200 l)) (loaded 0x200 l fun _ => 0) i⟩))
    (h2 : Step .debug
      (withRegs (regsAfter (regs (loadedAt 0x200 l)) (loaded 0x200 l fun _ => 0) i)
        ⟨memAfter (regs (loadedAt 0x200 l)) (loaded 0x200 l fun _ => 0) i⟩ : Mos6502 FlatRam) j
      (withRegs (regsAfter (regsAfter (regs (loadedAt 0x200 l)) (loaded 0x200 l fun _ => 0) i)
          (memAfter (regs (loadedAt 0x200 l)) (loaded 0x200 l fun _ => 0) i) j)
        ⟨memAfter (regsAfter (regs (loadedAt 0x200 l)) (loaded 0x200 l fun _ => 0) i)
          (memAfter (regs (loadedAt 0x200 l)) (loaded 0x200 l fun _ => 0) i) j⟩)) :
    ∃ c1 c2 : Mos6502 FlatRam, ∃ o1 o2, At .debug (loadedAt 0x200 l) i ∧
      next .debug (loadedAt 0x200 l) = .ok (o1, c1) ∧ At .debug c1 j ∧ next .debug c1 = .ok (o2, c2) := by
  obtain ⟨a1, o1, n1⟩ := h1
  obtain ⟨a2, o2, n2⟩ := h2
  exact ⟨_, _, o1, o2, a1, n1, a2, n2⟩

/-- The hypotheses of `C121_inx_dex`. -/
example : ∃ c1 c2 : Mos6502 FlatRam, Executes .debug (loadedAt 0x200 [0xe8, 0xca])
    [(loadedAt 0x200 [0xe8, 0xca], .InxImplied), (c1, .DexImplied)] c2 ∧ c2.x = (loadedAt 0x200 [0xe8, 0xca]).x := by
  obtain ⟨c1, c2, o1, o2, a1, n1, a2, n2⟩ := two_at [0xe8, 0xca] .InxImplied .DexImplied
    (flat_step (by decide) (by decide +kernel) trivial) (flat_step (by decide) (by decide +kernel) trivial)
  obtain ⟨h1, h2⟩ := C121_inx_dex (flatRam_coherent .debug) rfl a1 n1 a2 n2 (.inl ⟨rfl, rfl⟩)
  exact ⟨c1, c2, .cons ⟨a1, o1, n1⟩ (.cons ⟨a2, o2, n2⟩ (.nil _)), congrArg Regs.x h1⟩

/-- The hypotheses of `C121_dey_iny`. -/
example : ∃ c1 c2 : Mos6502 FlatRam, Executes .debug (loadedAt 0x200 [0x88, 0xc8])
    [(loadedAt 0x200 [0x88, 0xc8], .DeyImplied), (c1, .InyImplied)] c2 ∧ c2.y = (loadedAt 0x200 [0x88, 0xc8]).y := by
  obtain ⟨c1, c2, o1, o2, a1, n1, a2, n2⟩ := two_at [0x88, 0xc8] .DeyImplied .InyImplied
    (flat_step (by decide) (by decide +kernel) trivial) (flat_step (by decide) (by decide +kernel) trivial)
  obtain ⟨h1, h2⟩ := C121_dey_iny (flatRam_coherent .debug) rfl a1 n1 a2 n2 rfl rfl
  exact ⟨c1, c2, .cons ⟨a1, o1, n1⟩ (.cons ⟨a2, o2, n2⟩ (.nil _)), congrArg Regs.y h1⟩

/-- The hypotheses of `C121_inc_dec`. -/
example : ∃ c1 c2 : Mos6502 FlatRam, Executes .debug (loadedAt 0x200 [0xe6, 0x10, 0xc6, 0x10])
    [(loadedAt 0x200 [0xe6, 0x10, 0xc6, 0x10], (.IncZeroPage 0x10)), (c1, (.DecZeroPage 0x10))] c2 ∧ c2.address_map.mem = (loadedAt 0x200 [0xe6, 0x10, 0xc6, 0x10]).address_map.mem := by
  obtain ⟨c1, c2, o1, o2, a1, n1, a2, n2⟩ := two_at [0xe6, 0x10, 0xc6, 0x10] (.IncZeroPage 0x10) (.DecZeroPage 0x10)
    (flat_step (by decide) (by decide +kernel) trivial) (flat_step (by decide) (by decide +kernel) trivial)
  obtain ⟨h1, h2⟩ := C121_inc_dec (flatRam_coherent .debug) rfl a1 n1 a2 n2 (.inl ⟨rfl, rfl⟩) rfl
  exact ⟨c1, c2, .cons ⟨a1, o1, n1⟩ (.cons ⟨a2, o2, n2⟩ (.nil _)), h2⟩

/-- The hypotheses of `C121_eor`. -/
example : ∃ c1 c2 : Mos6502 FlatRam, Executes .debug (loadedAt 0x200 [0x49, 0x55, 0x49, 0x55])
    [(loadedAt 0x200 [0x49, 0x55, 0x49, 0x55], (.EorImmediate 0x55)), (c1, (.EorImmediate 0x55))] c2 ∧ (regs c2).a = (regs (loadedAt 0x200 [0x49, 0x55, 0x49, 0x55])).a := by
  obtain ⟨c1, c2, o1, o2, a1, n1, a2, n2⟩ := two_at [0x49, 0x55, 0x49, 0x55] (.EorImmediate 0x55) (.EorImmediate 0x55)
    (flat_step (by decide) (by decide +kernel) trivial) (flat_step (by decide) (by decide +kernel) trivial)
  obtain ⟨h1, h2⟩ := C121_eor (flatRam_coherent .debug) rfl a1 n1 a2 n2 rfl rfl
  exact ⟨c1, c2, .cons ⟨a1, o1, n1⟩ (.cons ⟨a2, o2, n2⟩ (.nil _)), (congrArg Regs.a h1 :)⟩

/-- The hypotheses of `C121_rotations`. -/
example : ∃ c1 c2 : Mos6502 FlatRam, Executes .debug (loadedAt 0x200 [0x2a, 0x6a])
    [(loadedAt 0x200 [0x2a, 0x6a], .RolAccumulator), (c1, .RorAccumulator)] c2 ∧ (regs c2).a = (regs (loadedAt 0x200 [0x2a, 0x6a])).a ∧ c2.ps.carry = (loadedAt 0x200 [0x2a, 0x6a]).ps.carry := by
  obtain ⟨c1, c2, o1, o2, a1, n1, a2, n2⟩ := two_at [0x2a, 0x6a] .RolAccumulator .RorAccumulator
    (flat_step (by decide) (by decide +kernel) trivial) (flat_step (by decide) (by decide +kernel) trivial)
  obtain ⟨h1, h2⟩ := C121_rotations (flatRam_coherent .debug) rfl a1 n1 a2 n2 (.inl ⟨rfl, rfl⟩) rfl
  exact ⟨c1, c2, .cons ⟨a1, o1, n1⟩ (.cons ⟨a2, o2, n2⟩ (.nil _)), (congrArg Regs.a h1 :), congrArg (fun r => r.p.carry) h1⟩

/-- The hypotheses of `C121_shifts`. -/
example : ∃ c1 c2 : Mos6502 FlatRam, Executes .debug (loadedAt 0x200 [0x06, 0x10, 0x66, 0x10])
    [(loadedAt 0x200 [0x06, 0x10, 0x66, 0x10], (.AslZeroPage 0x10)), (c1, (.RorZeroPage 0x10))] c2 ∧ c2.address_map.mem = (loadedAt 0x200 [0x06, 0x10, 0x66, 0x10]).address_map.mem := by
  obtain ⟨c1, c2, o1, o2, a1, n1, a2, n2⟩ := two_at [0x06, 0x10, 0x66, 0x10] (.AslZeroPage 0x10) (.RorZeroPage 0x10)
    (flat_step (by decide) (by decide +kernel) trivial) (flat_step (by decide) (by decide +kernel) trivial)
  obtain ⟨h1, h2⟩ := C121_shifts (flatRam_coherent .debug) rfl a1 n1 a2 n2 (.inl ⟨rfl, rfl⟩) rfl
  exact ⟨c1, c2, .cons ⟨a1, o1, n1⟩ (.cons ⟨a2, o2, n2⟩ (.nil _)), h2⟩

/-- C121: that `INY; DEY` leaves the flags of Y, as `INX; DEX` leaves those of X, is false: with Y = 0 and X = 2
the zero flag is clear. (Also a case for `C121_iny_dey_partial`.) -/
theorem C121_iny_dey_false : ∃ c c1 c2 : Mos6502 FlatRam, Executes .debug c [(c, .InyImplied), (c1, .DeyImplied)] c2 ∧
    c.y = 0 ∧ c2.y = 0 ∧ c2.ps.zero = false :=
  ⟨withRegs { regs (loadedAt 0x200 [0xc8, 0x88]) with x := 2, y := 0 } ⟨loaded 0x200 [0xc8, 0x88] fun _ => 0⟩, _, _,
    .cons (flat_step (by decide) (by decide +kernel) trivial)
      (.cons (flat_step (by decide) (by decide +kernel) trivial) (.nil _)),
    by decide +kernel, by decide +kernel, by decide +kernel⟩

/-- The hypotheses of `C121_adc_sbc`: `ADC #200; SEC; SBC #200` with the accumulator 100. -/
example : ∃ c c1 c2 c3 : Mos6502 FlatRam,
    Executes .debug c [(c, .AdcImmediate 200), (c1, .SecImplied), (c2, .SbcImmediate 200)] c3 ∧
    c.ps.carry = false ∧ (regs c).a = 100 ∧ (regs c1).a = 44 ∧ (regs c3).a = 100 :=
  ⟨withRegs { regs (loadedAt 0x200 [0x69, 200, 0x38, 0xe9, 200]) with a := 100, p := ProcessorStatus.withValue 0 }
      ⟨loaded 0x200 [0x69, 200, 0x38, 0xe9, 200] fun _ => 0⟩, _, _, _,
    .cons (flat_step (by decide) (by decide +kernel) trivial)
      (.cons (flat_step (by decide) (by decide +kernel) trivial)
        (.cons (flat_step (by decide) (by decide +kernel) trivial) (.nil _))),
    by decide +kernel, by decide +kernel, by decide +kernel, by decide +kernel⟩

end Verif.Props
