import Verif.Props.Mos.Inverse

/-!
# C129: the addressing mode only says which byte is meant

The crate has a hand-written generator for each of the 151 pairs of an operation and an addressing mode. Here two
machines with the same registers execute the same operation with any two of its addressing modes.
-/

namespace Verif.Props

open Verif Verif.Mos Verif.Spec Verif.Spec.Mos

section
variable {B : Type} [Addressable B] {b : Build} {I : B → Mem → Prop} {c c1 d d1 : Mos6502 B}
  {mem mem' : Mem} {i j : InstructionVariant} {ops ops' : Operations}

/-- C129: loads, arithmetic, logic and comparisons, in any addressing modes, immediate included: if the bytes they
find are equal, so are the registers and flags they leave. Nothing is stored, and each goes on behind itself. -/
theorem C129_operand (hI : Coherent b I) (hm : I c.address_map mem) (hm' : I d.address_map mem')
    (hat : At b c i) (hn : next b c = .ok (ops, c1)) (hat' : At b d j) (hn' : next b d = .ok (ops', d1))
    (hr : regs d = { regs c with pc := d.pc }) (hmn : (view j).1 = (view i).1)
    (hk : (view i).1 ∈ [Mnemonic.Adc, .Sbc, .And, .Ora, .Eor, .Bit, .Cmp, .Cpx, .Cpy, .Lda, .Ldx, .Ldy])
    (hv : operand (regs d) mem' (view j).2 = operand (regs c) mem (view i).2) :
    regs d1 = { regs c1 with pc := d1.pc } ∧ I c1.address_map mem ∧ I d1.address_map mem' ∧
    c1.pc = word (c.pc.toNat + size (view i).2) ∧ d1.pc = word (d.pc.toNat + size (view j).2) := by
  obtain ⟨h1, h2⟩ := one_step hI hm hat hn
  obtain ⟨h3, h4⟩ := one_step hI hm' hat' hn'
  have p1 : c1.pc = (regs c1).pc := rfl
  have p2 : d1.pc = (regs d1).pc := rfl
  rw [p1, p2]
  rw [h1, h3]
  simp only [List.mem_cons, List.not_mem_nil, or_false] at hk
  rcases hk with h | h | h | h | h | h | h | h | h | h | h | h
  all_goals
    simp only [regsAfter, memAfter, h, hmn, codeEffect, List.foldl_nil, arithRegs, compareRegs, hv] at h2 h4 ⊢
    refine ⟨?_, h2, h4, rfl, rfl⟩
    rw [hr]

/-- C129: stores, in any two of their addressing modes that mean the same address: both store the register there,
and nothing else changes. -/
theorem C129_store (hI : Coherent b I) (hm : I c.address_map mem) (hm' : I d.address_map mem')
    (hat : At b c i) (hn : next b c = .ok (ops, c1)) (hat' : At b d j) (hn' : next b d = .ok (ops', d1))
    (hr : regs d = { regs c with pc := d.pc }) (hmn : (view j).1 = (view i).1)
    (hk : (view i).1 ∈ [Mnemonic.Sta, .Stx, .Sty])
    (he : ea (regs d) mem' (view j).2 = ea (regs c) mem (view i).2) :
    regs c1 = { regs c with pc := word (c.pc.toNat + size (view i).2) } ∧
    regs d1 = { regs c with pc := word (d.pc.toNat + size (view j).2) } ∧
    ∃ v, ((view i).1, v) ∈ [(Mnemonic.Sta, (regs c).a), (.Stx, (regs c).x), (.Sty, (regs c).y)] ∧
      I c1.address_map (upd mem (ea (regs c) mem (view i).2) v) ∧
      I d1.address_map (upd mem' (ea (regs c) mem (view i).2) v) := by
  obtain ⟨h1, h2⟩ := one_step hI hm hat hn
  obtain ⟨h3, h4⟩ := one_step hI hm' hat' hn'
  rw [h1, h3]
  simp only [List.mem_cons, List.not_mem_nil, or_false] at hk
  rcases hk with h | h | h
  all_goals
    simp only [regsAfter, memAfter, h, hmn, codeEffect, List.foldl_nil, List.foldl_cons, he] at h2 h4 ⊢
    refine ⟨rfl, ?_, _, ?_, h2, ?_⟩
    · rw [hr]; rfl
    · simp
    · rw [hr] at h4; exact h4

/-- C129: increments, decrements, shifts and rotations of memory, in any two of their addressing modes that mean
the same address with the same byte in it: the same byte is left there, with the same flags. -/
theorem C129_modify (hI : Coherent b I) (hm : I c.address_map mem) (hm' : I d.address_map mem')
    (hat : At b c i) (hn : next b c = .ok (ops, c1)) (hat' : At b d j) (hn' : next b d = .ok (ops', d1))
    (hr : regs d = { regs c with pc := d.pc }) (hmn : (view j).1 = (view i).1)
    (hk : (view i).1 ∈ [Mnemonic.Inc, .Dec, .Asl, .Lsr, .Rol, .Ror]) (hi : (view i).2 ≠ .accumulator)
    (hj : (view j).2 ≠ .accumulator) (he : ea (regs d) mem' (view j).2 = ea (regs c) mem (view i).2)
    (hv : mem' (ea (regs d) mem' (view j).2) = mem (ea (regs c) mem (view i).2)) :
    regs d1 = { regs c1 with pc := d1.pc } ∧
    (∃ v, I c1.address_map (upd mem (ea (regs c) mem (view i).2) v) ∧
      I d1.address_map (upd mem' (ea (regs c) mem (view i).2) v)) ∧
    c1.pc = word (c.pc.toNat + size (view i).2) ∧ d1.pc = word (d.pc.toNat + size (view j).2) := by
  obtain ⟨h1, h2⟩ := one_step hI hm hat hn
  obtain ⟨h3, h4⟩ := one_step hI hm' hat' hn'
  have p1 : c1.pc = (regs c1).pc := rfl
  have p2 : d1.pc = (regs d1).pc := rfl
  rw [p1, p2]
  rw [h1, h3]
  have mi := modify_modes hk
  have mj := modify_modes (i := j) (hmn ▸ hk)
  have oi : operand (regs c) mem (view i).2 = mem (ea (regs c) mem (view i).2) := by
    rcases mi with h | ⟨_, h⟩ | ⟨_, h⟩ | ⟨_, h⟩ | ⟨_, h⟩
    · exact absurd h hi
    all_goals rw [h]; rfl
  have oj : operand (regs d) mem' (view j).2 = mem (ea (regs c) mem (view i).2) := by
    rw [← hv]
    rcases mj with h | ⟨_, h⟩ | ⟨_, h⟩ | ⟨_, h⟩ | ⟨_, h⟩
    · exact absurd h hj
    all_goals rw [h]; rfl
  have si : ∀ s k, shiftEffect (regs c) (view i).2 (ea (regs c) mem (view i).2) s k =
      { regs := { regs c with p := { setNZ (regs c).p s with carry := k }, pc := nextPc (regs c) (view i).2 }
        writes := [(ea (regs c) mem (view i).2, s)] } := fun s k => by
    rcases mi with h | ⟨_, h⟩ | ⟨_, h⟩ | ⟨_, h⟩ | ⟨_, h⟩
    · exact absurd h hi
    all_goals rw [h]; rfl
  have sj : ∀ s k, shiftEffect (regs d) (view j).2 (ea (regs c) mem (view i).2) s k =
      { regs := { regs d with p := { setNZ (regs d).p s with carry := k }, pc := nextPc (regs d) (view j).2 }
        writes := [(ea (regs c) mem (view i).2, s)] } := fun s k => by
    rcases mj with h | ⟨_, h⟩ | ⟨_, h⟩ | ⟨_, h⟩ | ⟨_, h⟩
    · exact absurd h hj
    all_goals rw [h]; rfl
  have hp : (regs d).p = (regs c).p := by rw [hr]
  simp only [List.mem_cons, List.not_mem_nil, or_false] at hk
  rcases hk with h | h | h | h | h | h
  all_goals
    simp only [regsAfter, memAfter, h, hmn, codeEffect, List.foldl_nil, List.foldl_cons, he, oi, oj, si, sj, hp]
      at h2 h4 ⊢
    refine ⟨?_, ⟨_, h2, h4⟩, rfl, rfl⟩
    rw [hr]

/-- C129: a shift or rotation of the accumulator and one of a memory byte with the same value: the flags are the
same, and what one leaves in the accumulator the other leaves in memory. -/
theorem C129_accumulator (hI : Coherent b I) (hm : I c.address_map mem) (hm' : I d.address_map mem')
    (hat : At b c i) (hn : next b c = .ok (ops, c1)) (hat' : At b d j) (hn' : next b d = .ok (ops', d1))
    (hp : d.ps = c.ps) (hmn : (view j).1 = (view i).1) (hk : (view i).1 ∈ [Mnemonic.Asl, .Lsr, .Rol, .Ror])
    (hi : (view i).2 = .accumulator) (hj : (view j).2 ≠ .accumulator)
    (hv : mem' (ea (regs d) mem' (view j).2) = (regs c).a) :
    d1.ps = c1.ps ∧ regs c1 = { regs c with a := (regs c1).a, p := c1.ps, pc := c1.pc } ∧
    regs d1 = { regs d with p := d1.ps, pc := d1.pc } ∧ I c1.address_map mem ∧
    I d1.address_map (upd mem' (ea (regs d) mem' (view j).2) (regs c1).a) := by
  obtain ⟨h1, h2⟩ := one_step hI hm hat hn
  obtain ⟨h3, h4⟩ := one_step hI hm' hat' hn'
  have q1 : c1.ps = (regs c1).p := rfl
  have q2 : d1.ps = (regs d1).p := rfl
  have q3 : c1.pc = (regs c1).pc := rfl
  have q4 : d1.pc = (regs d1).pc := rfl
  rw [q1, q2, q3, q4]
  rw [h1, h3]
  have hp' : (regs d).p = (regs c).p := hp
  have mj := modify_modes (i := j) (by
    rw [hmn]
    simp only [List.mem_cons, List.not_mem_nil, or_false] at hk ⊢
    rcases hk with h | h | h | h <;> simp [h])
  simp only [regsAfter, memAfter, hmn, shift_effect hk, hi] at h2 h4 ⊢
  rcases mj with hx | ⟨_, hx⟩ | ⟨_, hx⟩ | ⟨_, hx⟩ | ⟨_, hx⟩
  · exact absurd hx hj
  all_goals
    simp only [hx, ea] at hv
    simp only [hx, shiftEffect, operand, ea, List.foldl_nil, List.foldl_cons, hv, hp'] at h2 h4 ⊢
    exact ⟨trivial, trivial, trivial, h2, h4⟩

/-- C129: direct and indirect jumps with the same target. -/
theorem C129_jump (hI : Coherent b I) (hm : I c.address_map mem) (hm' : I d.address_map mem')
    (hat : At b c i) (hn : next b c = .ok (ops, c1)) (hat' : At b d j) (hn' : next b d = .ok (ops', d1))
    (hr : regs d = { regs c with pc := d.pc }) (hmn : (view j).1 = (view i).1) (hk : (view i).1 = .Jmp)
    (he : ea (regs d) mem' (view j).2 = ea (regs c) mem (view i).2) :
    regs d1 = regs c1 ∧ I c1.address_map mem ∧ I d1.address_map mem' := by
  obtain ⟨h1, h2⟩ := one_step hI hm hat hn
  obtain ⟨h3, h4⟩ := one_step hI hm' hat' hn'
  rw [h1, h3]
  simp only [regsAfter, memAfter, hk, hmn, codeEffect, List.foldl_nil, he] at h2 h4 ⊢
  refine ⟨?_, h2, h4⟩
  rw [hr]

/-- C129: a transfer is a load of the register it copies. -/
theorem C129_transfer (hI : Coherent b I) (hm : I c.address_map mem) (hm' : I d.address_map mem')
    (hat : At b c i) (hn : next b c = .ok (ops, c1)) (hat' : At b d j) (hn' : next b d = .ok (ops', d1))
    (hr : regs d = { regs c with pc := d.pc })
    (hk : ((view i).1, (view j).1, operand (regs d) mem' (view j).2) ∈
      [(Mnemonic.Tax, Mnemonic.Ldx, (regs c).a), (.Tay, .Ldy, (regs c).a), (.Txa, .Lda, (regs c).x),
        (.Tya, .Lda, (regs c).y), (.Tsx, .Ldx, (regs c).sp)]) :
    regs d1 = { regs c1 with pc := d1.pc } ∧ I c1.address_map mem ∧ I d1.address_map mem' := by
  obtain ⟨h1, h2⟩ := one_step hI hm hat hn
  obtain ⟨h3, h4⟩ := one_step hI hm' hat' hn'
  have p2 : d1.pc = (regs d1).pc := rfl
  rw [p2]
  rw [h1, h3]
  simp only [List.mem_cons, List.not_mem_nil, or_false, Prod.mk.injEq] at hk
  rcases hk with ⟨h, h', hv⟩ | ⟨h, h', hv⟩ | ⟨h, h', hv⟩ | ⟨h, h', hv⟩ | ⟨h, h', hv⟩
  all_goals
    simp only [regsAfter, memAfter, h, h', codeEffect, List.foldl_nil, hv] at h2 h4 ⊢
    refine ⟨?_, h2, h4⟩
    rw [hr]

end

/-! ### Concrete cases -/

/-- Registers for the cases: A = 0x13, X = 3, Y = 4. -/
def modesRegs (pc : Nat) : Regs := { sampleRegs with a := 0x13, x := 3, y := 4, pc := word pc }

/-- Memory for the cases: the byte at an address is its low byte, with the instructions `l` at 0x200. -/
def modesMem (l : List Byte) : Mem := loaded 0x200 l fun a => a.setWidth 8

/-- The machine in front of the instruction at `pc`. -/
def modesAt (l : List Byte) (pc : Nat) : Mos6502 FlatRam := withRegs (modesRegs pc) ⟨modesMem l⟩

/-- Two instructions, one at 0x200 and the other at `p`. -/
theorem modes_steps (l : List Byte) {p : Nat} (i j : InstructionVariant) (hp : (word p).toNat < 65534)
    (h1 : Isa.parseInstruction (modesMem l 0x200) (modesMem l 0x201) (modesMem l 0x202) = some i)
    (h2 : Isa.parseInstruction (modesMem l (word p)) (modesMem l (word p + 1)) (modesMem l (word p + 2)) = some j)
    (o1 : AddrOk .debug (modesRegs 0x200) (modesMem l) (view i).2)
    (o2 : AddrOk .debug (modesRegs p) (modesMem l) (view j).2) :
    ∃ ops c1 ops' d1, At .debug (modesAt l 0x200) i ∧ next .debug (modesAt l 0x200) = .ok (ops, c1) ∧
      At .debug (modesAt l p) j ∧ next .debug (modesAt l p) = .ok (ops', d1) := by
  obtain ⟨a1, ops, n1⟩ := flat_step (r := modesRegs 0x200) (mem := modesMem l) (by decide) h1 o1
  obtain ⟨a2, ops', n2⟩ := flat_step (r := modesRegs p) (mem := modesMem l) hp h2 o2
  exact ⟨ops, _, ops', _, a1, n1, a2, n2⟩

/-- `LDA #$14` and `LDA ($10),Y`: the pointer at 0x10 is 0x1110, with Y it is 0x1114, where 0x14 is. -/
example : ∃ ops c1 ops' d1, next .debug (modesAt [0xa9, 0x14, 0xb1, 0x10] 0x200) = .ok (ops, c1) ∧
    next .debug (modesAt [0xa9, 0x14, 0xb1, 0x10] 0x202) = .ok (ops', d1) ∧
    regs d1 = { regs c1 with pc := d1.pc } ∧ c1.pc = 0x202 ∧ d1.pc = 0x204 := by
  obtain ⟨ops, c1, ops', d1, a1, n1, a2, n2⟩ := modes_steps [0xa9, 0x14, 0xb1, 0x10] (p := 0x202)
    (.LdaImmediate 0x14) (.LdaIndirectYIndexed 0x10) (by decide) (by decide +kernel) (by decide +kernel)
    trivial (Or.inr (by decide +kernel))
  obtain ⟨h1, -, -, h2, h3⟩ := C129_operand (flatRam_coherent .debug) rfl rfl a1 n1 a2 n2 rfl rfl
    (by simp [view]) (by decide +kernel)
  exact ⟨ops, c1, ops', d1, n1, n2, h1, h2, h3⟩

/-- `STX $14` and `STX $10,Y`. -/
example : ∃ ops c1 ops' d1, next .debug (modesAt [0x86, 0x14, 0x96, 0x10] 0x200) = .ok (ops, c1) ∧
    next .debug (modesAt [0x86, 0x14, 0x96, 0x10] 0x202) = .ok (ops', d1) ∧
    c1.address_map.mem 0x14 = 3 ∧ d1.address_map.mem 0x14 = 3 := by
  obtain ⟨ops, c1, ops', d1, a1, n1, a2, n2⟩ := modes_steps [0x86, 0x14, 0x96, 0x10] (p := 0x202)
    (.StxZeroPage 0x14) (.StxZeroPageIndexedWithY 0x10) (by decide) (by decide +kernel) (by decide +kernel)
    trivial trivial
  obtain ⟨-, -, v, hv, h1, h2⟩ := C129_store (flatRam_coherent .debug) rfl rfl a1 n1 a2 n2 rfl rfl
    (by simp [view]) (by decide +kernel)
  refine ⟨ops, c1, ops', d1, n1, n2, ?_⟩
  have hv : v = 3 := by simpa [view, modesAt, modesRegs, regs, withRegs] using hv
  subst hv
  rw [h1, h2]
  decide +kernel

/-- `INC $13` and `INC $10,X`. -/
example : ∃ ops c1 ops' d1, next .debug (modesAt [0xe6, 0x13, 0xf6, 0x10] 0x200) = .ok (ops, c1) ∧
    next .debug (modesAt [0xe6, 0x13, 0xf6, 0x10] 0x202) = .ok (ops', d1) ∧
    c1.address_map.mem 0x13 = d1.address_map.mem 0x13 := by
  obtain ⟨ops, c1, ops', d1, a1, n1, a2, n2⟩ := modes_steps [0xe6, 0x13, 0xf6, 0x10] (p := 0x202)
    (.IncZeroPage 0x13) (.IncZeroPageIndexedWithX 0x10) (by decide) (by decide +kernel) (by decide +kernel)
    trivial trivial
  obtain ⟨-, ⟨v, h1, h2⟩, -⟩ := C129_modify (flatRam_coherent .debug) rfl rfl a1 n1 a2 n2 rfl rfl
    (by simp [view]) (by simp [view]) (by simp [view]) (by decide +kernel) (by decide +kernel)
  refine ⟨ops, c1, ops', d1, n1, n2, ?_⟩
  rw [h1, h2]
  exact (upd_self _ _ _).trans (upd_self _ _ _).symm

/-- `ROL A` and `ROL $13`, A being 0x13. -/
example : ∃ ops c1 ops' d1, next .debug (modesAt [0x2a, 0x26, 0x13] 0x200) = .ok (ops, c1) ∧
    next .debug (modesAt [0x2a, 0x26, 0x13] 0x201) = .ok (ops', d1) ∧ d1.ps = c1.ps ∧
    d1.address_map.mem 0x13 = (regs c1).a := by
  obtain ⟨ops, c1, ops', d1, a1, n1, a2, n2⟩ := modes_steps [0x2a, 0x26, 0x13] (p := 0x201)
    .RolAccumulator (.RolZeroPage 0x13) (by decide) (by decide +kernel) (by decide +kernel) trivial trivial
  obtain ⟨h1, -, -, -, h2⟩ := C129_accumulator (flatRam_coherent .debug) rfl rfl a1 n1 a2 n2 rfl rfl
    (by simp [view]) rfl (by simp [view]) (by decide +kernel)
  refine ⟨ops, c1, ops', d1, n1, n2, h1, ?_⟩
  rw [h2]
  exact upd_self _ _ _

/-- `JMP $1110` and `JMP ($0010)`. -/
example : ∃ ops c1 ops' d1, next .debug (modesAt [0x4c, 0x10, 0x11, 0x6c, 0x10, 0] 0x200) = .ok (ops, c1) ∧
    next .debug (modesAt [0x4c, 0x10, 0x11, 0x6c, 0x10, 0] 0x203) = .ok (ops', d1) ∧ regs d1 = regs c1 := by
  obtain ⟨ops, c1, ops', d1, a1, n1, a2, n2⟩ := modes_steps [0x4c, 0x10, 0x11, 0x6c, 0x10, 0] (p := 0x203)
    (.JmpAbsolute 0x1110) (.JmpIndirect 0x10) (by decide) (by decide +kernel) (by decide +kernel)
    trivial (Or.inr (by decide +kernel))
  obtain ⟨h1, -⟩ := C129_jump (flatRam_coherent .debug) rfl rfl a1 n1 a2 n2 rfl rfl rfl (by decide +kernel)
  exact ⟨ops, c1, ops', d1, n1, n2, h1⟩

/-- `TAX` and `LDX $13`, A being 0x13. -/
example : ∃ ops c1 ops' d1, next .debug (modesAt [0xaa, 0xa6, 0x13] 0x200) = .ok (ops, c1) ∧
    next .debug (modesAt [0xaa, 0xa6, 0x13] 0x201) = .ok (ops', d1) ∧ regs d1 = { regs c1 with pc := d1.pc } := by
  obtain ⟨ops, c1, ops', d1, a1, n1, a2, n2⟩ := modes_steps [0xaa, 0xa6, 0x13] (p := 0x201)
    .TaxImplied (.LdxZeroPage 0x13) (by decide) (by decide +kernel) (by decide +kernel) trivial trivial
  obtain ⟨h1, -⟩ := C129_transfer (flatRam_coherent .debug) rfl rfl a1 n1 a2 n2 rfl (by decide +kernel)
  exact ⟨ops, c1, ops', d1, n1, n2, h1⟩

end Verif.Props
