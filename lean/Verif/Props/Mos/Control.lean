import Verif.Proofs.MosControl
import Verif.Spec.MosStack

/-!
# Properties C15, C16, C26, C30, C31, C32: program counter, frames, branches, addresses, timing
-/

namespace Verif.Props

open Verif Verif.Mos Verif.Spec.Mos

variable {B : Type} [Addressable B] {b : Build} {cpu cpu' : Mos6502 B} {mem : Mem}
  {i : InstructionVariant} {mn : Mnemonic} {am : AddrMode} {ops : Operations}

/-! ## C26 Branches -/

/-- What C26 claims. -/
def C26_statement : Prop :=
  ∀ (B : Type) [Addressable B] (b : Build) (cpu : Mos6502 B) (mem : Mem) (i : InstructionVariant)
    (mn : Mnemonic) (d : Byte) (t : Bool), At b cpu i → BusView b cpu.address_map mem →
    view i = (mn, .relative d) → taken mn cpu.ps = some t →
    StepHas b cpu { regs := { regs cpu with
      pc := if t then branchTarget cpu.pc d else nextPc (regs cpu) (.relative d) } }

/-- BCS +0x10 at 0x80fd with carry set goes to 0x810d, not to 0x810f. -/
theorem C26_target_wrong : ¬ C26_statement := by
  intro h
  have h' := h FlatRam .debug (machine sampleRegs 0xb0 0x10 0) _ _ _ _ _
    (machine_at _ _ _ _ _ _ (by decide) rfl) (machine_view _ _ _ _ _ _) rfl rfl
  have h'' := congrArg (fun z => match z with | .ok y => y.pc | .error _ => 0) h'
  revert h''; decide

/-- The branches test the documented flag and change nothing but `pc`; a branch that is not taken
goes to the next instruction; a taken one goes to the documented target minus 2 (modulo 65536), so
never to the documented target. -/
theorem C26_partial {d : Byte} {t : Bool} (hat : At b cpu i) (hv : BusView b cpu.address_map mem)
    (hi : view i = (mn, .relative d)) (ht : taken mn cpu.ps = some t) :
    StepHas b cpu { regs := { regs cpu with
      pc := if t then branchTarget cpu.pc d - 2 else nextPc (regs cpu) (.relative d) } } ∧
    (StepHas b cpu { regs := { regs cpu with
      pc := if t then branchTarget cpu.pc d else nextPc (regs cpu) (.relative d) } } ↔ t = false) := by
  have h := step_has hat hv hi trivial
  rw [taken_branch ht (regs cpu) mem d rfl, codeTarget_eq] at h
  refine ⟨h, ?_⟩
  rw [stepHas_regs_iff h]
  constructor
  · intro e
    cases t
    · rfl
    · have e1 := congrArg Regs.pc e
      simp only [if_true] at e1
      exact absurd ((codeTarget_eq _ _).trans e1) (codeTarget_ne _ _)
  · rintro rfl; rfl

/-- BMI -2 (taken, since N is set in the sample registers) and BVS (not taken). -/
example : ∃ (cpu : Mos6502 FlatRam) (mem : Mem), regs cpu = sampleRegs ∧
    At .debug cpu (.BmiRelative 0xfe) ∧ BusView .debug cpu.address_map mem :=
  exists_at _ _ 0x30 0xfe 0 (by decide) rfl (fun _ => 0)

example : taken .Bmi sampleRegs.p = some true ∧ taken .Bvs sampleRegs.p = some false := ⟨rfl, rfl⟩

/-! ## C32 JMP -/

/-- JMP absolute; and JMP indirect, whose pointer's second byte is at the next address also when
that is in the next page. -/
theorem C32_jmp_absolute {w : Word} (hat : At b cpu i) (hv : BusView b cpu.address_map mem)
    (hi : view i = (.Jmp, .absolute w)) : StepHas b cpu { regs := { regs cpu with pc := w } } :=
  step_has hat hv hi trivial

theorem C32_jmp_indirect {w : Word} (hat : At b cpu i) (hv : BusView b cpu.address_map mem)
    (hi : view i = (.Jmp, .indirect w)) (hok : b.overflowChecks = false ∨ w.toNat ≠ 65535) :
    StepHas b cpu { regs := { regs cpu with
      pc := word ((mem w).toNat + 256 * (mem (w + 1)).toNat) } } := by
  have h := step_has hat hv hi hok
  have e : ea (regs cpu) mem (.indirect w) = word ((mem w).toNat + 256 * (mem (w + 1)).toNat) := by
    simp only [ea, le, word_toNat]
    have : word (w.toNat + 1) = w + 1 := by
      apply BitVec.eq_of_toNat_eq; rw [toNat_word, BitVec.toNat_add]; rfl
    rw [this]
  have h' : StepHas b cpu { regs := { regs cpu with pc := ea (regs cpu) mem (.indirect w) } } := h
  rw [e] at h'
  exact h'

/-- Those are the only two forms of JMP. -/
theorem C32_modes (hi : view i = (.Jmp, am)) : (∃ w, am = .absolute w) ∨ ∃ w, am = .indirect w := by
  cases i <;> simp only [view, Prod.mk.injEq, reduceCtorEq, false_and, true_and] at hi
  · exact .inl ⟨_, hi.symm⟩
  · exact .inr ⟨_, hi.symm⟩

/-- JMP (0x12ff): the pointer lies across a page boundary. -/
example : ∃ (cpu : Mos6502 FlatRam) (mem : Mem), regs cpu = sampleRegs ∧
    At .debug cpu (.JmpIndirect 0x12ff) ∧ BusView .debug cpu.address_map mem :=
  exists_at _ _ 0x6c 0xff 0x12 (by decide) rfl (fun _ => 0)

example : ∃ (cpu : Mos6502 FlatRam) (mem : Mem), regs cpu = sampleRegs ∧
    At .debug cpu (.JmpAbsolute 0x12ff) ∧ BusView .debug cpu.address_map mem :=
  exists_at _ _ 0x4c 0xff 0x12 (by decide) rfl (fun _ => 0)

/-! ## C15 The program counter -/

/-- Jumps, branches, calls, returns and break. -/
def isControlFlow : Mnemonic → Bool
  | .Jmp | .Jsr | .Rts | .Rti | .Brk | .Bcc | .Bcs | .Beq | .Bmi | .Bne | .Bpl | .Bvc | .Bvs => true
  | _ => false

/-- Every other instruction advances `pc` by its length. -/
theorem C15_pc_advances (hat : At b cpu i) (hv : BusView b cpu.address_map mem)
    (hi : view i = (mn, am)) (hc : isControlFlow mn = false) (hn : next b cpu = .ok (ops, cpu')) :
    cpu'.pc = word (cpu.pc.toNat + size am) := by
  obtain ⟨-, -, hr, -⟩ := step_inv hat hv hi hn
  have e : cpu'.pc = (codeEffect (regs cpu) mem mn am).regs.pc := congrArg Regs.pc hr
  rw [e]
  cases mn <;> simp only [isControlFlow, reduceCtorEq] at hc <;> first
    | rfl
    | (simp only [codeEffect, shiftEffect]; split <;> rfl)

/-- The length is the number of bytes the decoder looks at: later bytes do not matter. -/
theorem C15_length (o1 o2 o3 : Byte) (hp : Isa.parseInstruction o1 o2 o3 = some i) :
    (size (view i).2 = 1 → ∀ x y, Isa.parseInstruction o1 x y = some i) ∧
    (size (view i).2 = 2 → ∀ y, Isa.parseInstruction o1 o2 y = some i) ∧
    1 ≤ size (view i).2 ∧ size (view i).2 ≤ 3 := by
  revert hp
  unfold Isa.parseInstruction
  generalize o1.toNat = n
  split <;> intro hp <;> simp only [Option.some.injEq, reduceCtorEq] at hp <;> subst hp <;>
    simp [view, size]

/-- The `pc` of the sample machine crosses a page: STA absolute,X at 0x80fd, and NOP in front of
`pc` wrapping is covered by `word`. -/
example : ∃ (ops : Operations) (cpu' : Mos6502 FlatRam),
    next .debug (machine sampleRegs 0x9d 0x00 0x02) = .ok (ops, cpu') ∧ cpu'.pc = 0x8100 :=
  ⟨_, _, rfl, by decide⟩

/-! ## C16 Frames -/

/-- The registers an instruction may change (besides `pc`): A, X, Y, SP. -/
def changes (am : AddrMode) : Mnemonic → Bool × Bool × Bool × Bool
  | .Adc | .Sbc | .And | .Ora | .Eor | .Lda | .Txa | .Tya => (true, false, false, false)
  | .Asl | .Lsr | .Rol | .Ror => (am = .accumulator, false, false, false)
  | .Pla => (true, false, false, true)
  | .Ldx | .Tax | .Tsx | .Inx | .Dex => (false, true, false, false)
  | .Ldy | .Tay | .Iny | .Dey => (false, false, true, false)
  | .Txs | .Pha | .Php | .Plp | .Jsr | .Rts | .Rti | .Brk => (false, false, false, true)
  | _ => (false, false, false, false)

/-- The flags an instruction may change. -/
def flagsOf : Mnemonic → List ProgramStatusFlags
  | .Adc | .Sbc => [.Negative, .Overflow, .Zero, .Carry]
  | .Asl | .Lsr | .Rol | .Ror | .Cmp | .Cpx | .Cpy => [.Negative, .Zero, .Carry]
  | .And | .Ora | .Eor | .Lda | .Ldx | .Ldy | .Tax | .Tay | .Txa | .Tya | .Tsx | .Inc | .Dec | .Inx
  | .Iny | .Dex | .Dey | .Pla => [.Negative, .Zero]
  | .Bit => [.Negative, .Overflow, .Zero]
  | .Clc | .Sec => [.Carry]
  | .Cld | .Sed => [.Decimal]
  | .Cli | .Sei => [.Interrupt]
  | .Clv => [.Overflow]
  | .Brk => [.Break, .Interrupt]
  | .Plp | .Rti => [.Negative, .Overflow, .Break, .Decimal, .Interrupt, .Zero, .Carry]
  | _ => []

/-- The value of a flag. -/
def flag (p : ProcessorStatus) : ProgramStatusFlags → Bool
  | .Negative => p.negative
  | .Overflow => p.overflow
  | .Break => p.brk
  | .Decimal => p.decimal
  | .Interrupt => p.interrupt_disable
  | .Zero => p.zero
  | .Carry => p.carry

theorem C16_registers (hat : At b cpu i) (hv : BusView b cpu.address_map mem)
    (hi : view i = (mn, am)) (hn : next b cpu = .ok (ops, cpu')) :
    ((changes am mn).1 = false → cpu'.acc = cpu.acc) ∧
    ((changes am mn).2.1 = false → cpu'.x = cpu.x) ∧
    ((changes am mn).2.2.1 = false → cpu'.y = cpu.y) ∧
    ((changes am mn).2.2.2 = false → cpu'.sp = cpu.sp) := by
  obtain ⟨-, -, hr, -⟩ := step_inv hat hv hi hn
  have ea : cpu'.acc = (codeEffect (regs cpu) mem mn am).regs.a := congrArg Regs.a hr
  have ex : cpu'.x = (codeEffect (regs cpu) mem mn am).regs.x := congrArg Regs.x hr
  have ey : cpu'.y = (codeEffect (regs cpu) mem mn am).regs.y := congrArg Regs.y hr
  have es : cpu'.sp = (codeEffect (regs cpu) mem mn am).regs.sp := congrArg Regs.sp hr
  rw [ea, ex, ey, es]
  cases mn <;> (try cases am) <;>
    simp [changes, codeEffect, shiftEffect, branchEffect, arithRegs, compareRegs, regs]

theorem C16_flags (hat : At b cpu i) (hv : BusView b cpu.address_map mem)
    (hi : view i = (mn, am)) (hn : next b cpu = .ok (ops, cpu')) (f : ProgramStatusFlags)
    (hf : f ∉ flagsOf mn) : flag cpu'.ps f = flag cpu.ps f := by
  obtain ⟨-, -, hr, -⟩ := step_inv hat hv hi hn
  have ep : cpu'.ps = (codeEffect (regs cpu) mem mn am).regs.p := congrArg Regs.p hr
  rw [ep]
  cases mn <;> cases f <;> first
    | (exfalso; revert hf; decide)
    | rfl
    | (cases am <;> rfl)

/-- Bit 5 of the status, which no instruction but PLP and RTI can change. -/
theorem C16_unused_bit (hat : At b cpu i) (hv : BusView b cpu.address_map mem)
    (hi : view i = (mn, am)) (hn : next b cpu = .ok (ops, cpu')) (h1 : mn ≠ .Plp) (h2 : mn ≠ .Rti) :
    cpu'.ps.unused = cpu.ps.unused := by
  obtain ⟨-, -, hr, -⟩ := step_inv hat hv hi hn
  have ep : cpu'.ps = (codeEffect (regs cpu) mem mn am).regs.p := congrArg Regs.p hr
  rw [ep]
  cases mn <;> first
    | exact absurd rfl h1
    | exact absurd rfl h2
    | rfl
    | (cases am <;> rfl)

/-- Memory is written only at the documented addresses. -/
theorem C16_writes (hat : At b cpu i) (hv : BusView b cpu.address_map mem)
    (hi : view i = (mn, am)) (hn : next b cpu = .ok (ops, cpu')) :
    ∃ ws : List (Word × Byte), ws.map Prod.fst = writable (regs cpu) mem mn am ∧
      writeAll b cpu.address_map ws = .ok cpu'.address_map := by
  obtain ⟨-, -, -, hw⟩ := step_inv hat hv hi hn
  refine ⟨_, ?_, hw⟩
  have e1 : stack (cpu.sp - 1).toNat = stack (cpu.sp.toNat + 255) := by
    unfold stack; rw [BitVec.toNat_sub]; congr 2; have h1 : (1 : Byte).toNat = 1 := rfl; rw [h1]; omega
  have e2 : stack (cpu.sp - 2).toNat = stack (cpu.sp.toNat + 254) := by
    unfold stack; rw [BitVec.toNat_sub]; congr 2; have h1 : (2 : Byte).toNat = 2 := rfl; rw [h1]; omega
  cases mn
  case Inc | Dec =>
    have ha := rmw_mode hi (by simp)
    simp only [codeEffect, writable, List.map, writesMem, isStore, isRmw, Bool.true_and,
      Bool.false_or, bne_iff_ne, if_pos ha]
  all_goals first
    | rfl
    | (cases am <;> rfl)
    | (simp only [codeEffect, writable, List.map, regs, e1, e2])

/-- Hypotheses of the frame theorems: BRK with the stack pointer at 1, which wraps. -/
example : ∃ (ops : Operations) (cpu' : Mos6502 FlatRam),
    At .debug (machine sampleRegs 0x00 0x00 0x02) .BrkImplied ∧
    next .debug (machine sampleRegs 0x00 0x00 0x02) = .ok (ops, cpu') ∧ cpu'.sp = 0xfe :=
  ⟨_, _, rfl, rfl, by decide⟩

/-! ## C30 Effective addresses -/

/-- Every instruction that addresses memory does to the byte at its effective address what the same
instruction with absolute addressing does to it: apart from `pc`, the step of `i` is the step of
the instruction `j` with the documented address as its absolute operand, placed elsewhere. -/
theorem C30_as_absolute {j : InstructionVariant} {q : Word} (hat : At b cpu i)
    (hv : BusView b cpu.address_map mem) (hi : view i = (mn, am)) (hok : AddrOk b (regs cpu) mem am)
    (hm : size am = 2 ∨ canCross am = true) (hni : ∀ v, am ≠ .immediate v)
    (hnr : ∀ d, am ≠ .relative d)
    (hat' : At b { cpu with pc := q } j) (hj : view j = (mn, .absolute (ea (regs cpu) mem am))) :
    (next b cpu).map (fun p => { p.2 with pc := 0 }) =
      (next b { cpu with pc := q }).map (fun p => { p.2 with pc := 0 }) := by
  have h1 := step_has hat hv hi hok
  have h2 := step_has (cpu := { cpu with pc := q }) (mem := mem) hat' hv hj trivial
  unfold StepHas at h1 h2
  have e1 : (next b cpu).map (fun p => { p.2 with pc := 0 }) =
      ((next b cpu).map Prod.snd).map (fun c => { c with pc := 0 }) := by
    cases next b cpu <;> rfl
  have e2 : (next b { cpu with pc := q }).map (fun p => { p.2 with pc := 0 }) =
      ((next b { cpu with pc := q }).map Prod.snd).map (fun c => { c with pc := 0 }) := by
    cases next b { cpu with pc := q } <;> rfl
  rw [e1, e2, h1, h2]
  have ha : am ≠ .accumulator := by rintro rfl; simp [size, canCross] at hm
  have ho : operand (regs cpu) mem am = mem (ea (regs cpu) mem am) := by
    cases am <;> first
      | rfl
      | exact absurd rfl ha
      | exact absurd rfl (hni _)
  have n1 : mn ≠ .Jsr := by
    rintro rfl; obtain ⟨w, rfl⟩ := jsr_mode hi; simp [size, canCross] at hm
  have n2 : mn ≠ .Brk := by
    rintro rfl; have := brk_mode hi; subst this; simp [size, canCross] at hm
  obtain ⟨w1, w2⟩ := codeEffect_as_absolute (regs cpu) mem mn am q ho ha hnr n1 n2
  have er : regs { cpu with pc := q } = { regs cpu with pc := q } := rfl
  rw [er, ← w1]
  cases writeAll b cpu.address_map (codeEffect (regs cpu) mem mn am).writes with
  | error e => rfl
  | ok bus =>
    have h : ∀ r : Regs, { withRegs r bus with pc := 0 } = withRegs { r with pc := 0 } bus := fun _ => rfl
    simp only [Except.map, h, w2]

/-- The addresses themselves, mode by mode, on loads and stores of A. -/
theorem C30_zero_page_x {z : Byte} (hat : At b cpu i) (hv : BusView b cpu.address_map mem) :
    (view i = (.Lda, .zeroPageX z) → StepHas b cpu { regs := { regs cpu with
      a := mem (word ((z.toNat + cpu.x.toNat) % 256))
      p := setNZ cpu.ps (mem (word ((z.toNat + cpu.x.toNat) % 256)))
      pc := word (cpu.pc.toNat + 2) } }) ∧
    (view i = (.Sta, .zeroPageX z) → StepHas b cpu {
      regs := { regs cpu with pc := word (cpu.pc.toNat + 2) }
      writes := [(word ((z.toNat + cpu.x.toNat) % 256), cpu.acc)] }) :=
  ⟨fun hi => step_has hat hv hi trivial, fun hi => step_has hat hv hi trivial⟩

theorem C30_zero_page_y {z : Byte} (hat : At b cpu i) (hv : BusView b cpu.address_map mem) :
    (view i = (.Ldx, .zeroPageY z) → StepHas b cpu { regs := { regs cpu with
      x := mem (word ((z.toNat + cpu.y.toNat) % 256))
      p := setNZ cpu.ps (mem (word ((z.toNat + cpu.y.toNat) % 256)))
      pc := word (cpu.pc.toNat + 2) } }) ∧
    (view i = (.Stx, .zeroPageY z) → StepHas b cpu {
      regs := { regs cpu with pc := word (cpu.pc.toNat + 2) }
      writes := [(word ((z.toNat + cpu.y.toNat) % 256), cpu.x)] }) :=
  ⟨fun hi => step_has hat hv hi trivial, fun hi => step_has hat hv hi trivial⟩

theorem C30_absolute_x {w : Word} (hat : At b cpu i) (hv : BusView b cpu.address_map mem) :
    (view i = (.Lda, .absoluteX w) → StepHas b cpu { regs := { regs cpu with
      a := mem (word (w.toNat + cpu.x.toNat))
      p := setNZ cpu.ps (mem (word (w.toNat + cpu.x.toNat)))
      pc := word (cpu.pc.toNat + 3) } }) ∧
    (view i = (.Sta, .absoluteX w) → StepHas b cpu {
      regs := { regs cpu with pc := word (cpu.pc.toNat + 3) }
      writes := [(word (w.toNat + cpu.x.toNat), cpu.acc)] }) :=
  ⟨fun hi => step_has hat hv hi trivial, fun hi => step_has hat hv hi trivial⟩

theorem C30_absolute_y {w : Word} (hat : At b cpu i) (hv : BusView b cpu.address_map mem) :
    (view i = (.Lda, .absoluteY w) → StepHas b cpu { regs := { regs cpu with
      a := mem (word (w.toNat + cpu.y.toNat))
      p := setNZ cpu.ps (mem (word (w.toNat + cpu.y.toNat)))
      pc := word (cpu.pc.toNat + 3) } }) ∧
    (view i = (.Sta, .absoluteY w) → StepHas b cpu {
      regs := { regs cpu with pc := word (cpu.pc.toNat + 3) }
      writes := [(word (w.toNat + cpu.y.toNat), cpu.acc)] }) :=
  ⟨fun hi => step_has hat hv hi trivial, fun hi => step_has hat hv hi trivial⟩

/-- What C30 claims of `(zp,X)`, on LDA: no exception for `X = 255`. -/
def C30_indexed_indirect_statement : Prop :=
  ∀ (B : Type) [Addressable B] (b : Build) (cpu : Mos6502 B) (mem : Mem) (i : InstructionVariant)
    (z : Byte) (p : Nat), At b cpu i → BusView b cpu.address_map mem →
    view i = (.Lda, .indexedIndirect z) →
    p = (mem (word ((z.toNat + cpu.x.toNat) % 256))).toNat +
      256 * (mem (word ((z.toNat + cpu.x.toNat + 1) % 256))).toNat →
    StepHas b cpu { regs := { regs cpu with
      a := mem (word p), p := setNZ cpu.ps (mem (word p)), pc := word (cpu.pc.toNat + 2) } }

/-- LDA (0x10,X) with X = 255 panics in a build with overflow checks. -/
theorem C30_indexed_indirect_panics : ¬ C30_indexed_indirect_statement := by
  intro h
  have := h FlatRam .debug (machine { sampleRegs with x := 0xff } 0xa1 0x10 0x00) _
    (.LdaXIndexedIndirect 0x10) 0x10 _ rfl (machine_view _ _ _ _ _ _) rfl rfl
  revert this
  unfold StepHas
  have hn : next .debug (machine { sampleRegs with x := 0xff } 0xa1 0x10 0x00) =
      .error .overflow := rfl
  rw [hn]
  intro this
  cases this

/-- What C30 claims of `(zp),Y`, on LDA: the sum wraps at 65536. -/
def C30_indirect_indexed_statement : Prop :=
  ∀ (B : Type) [Addressable B] (b : Build) (cpu : Mos6502 B) (mem : Mem) (i : InstructionVariant)
    (z : Byte) (p : Nat), At b cpu i → BusView b cpu.address_map mem →
    view i = (.Lda, .indirectIndexed z) →
    p = (mem (word z.toNat)).toNat + 256 * (mem (word ((z.toNat + 1) % 256))).toNat →
    StepHas b cpu { regs := { regs cpu with
      a := mem (word (p + cpu.y.toNat))
      p := setNZ cpu.ps (mem (word (p + cpu.y.toNat)))
      pc := word (cpu.pc.toNat + 2) } }

/-- LDA (0x10),Y with pointer 0xffff panics in a build with overflow checks. -/
theorem C30_indirect_indexed_panics : ¬ C30_indirect_indexed_statement := by
  intro h
  have := h FlatRam .debug (machine sampleRegs 0xb1 0x10 0x00 (fun _ => 0xff)) _
    (.LdaIndirectYIndexed 0x10) 0x10 _ rfl (machine_view _ _ _ _ _ _) rfl rfl
  revert this
  unfold StepHas
  have hn : next .debug (machine sampleRegs 0xb1 0x10 0x00 (fun _ => 0xff)) =
      .error .overflow := rfl
  rw [hn]
  intro this
  cases this

/-- `(zp,X)`, for `X ≠ 255` or a build without overflow checks. -/
theorem C30_indexed_indirect_partial {z : Byte} {p : Nat} (hat : At b cpu i)
    (hv : BusView b cpu.address_map mem) (hok : b.overflowChecks = false ∨ cpu.x.toNat ≠ 255)
    (hp : p = (mem (word ((z.toNat + cpu.x.toNat) % 256))).toNat +
      256 * (mem (word ((z.toNat + cpu.x.toNat + 1) % 256))).toNat) :
    (view i = (.Lda, .indexedIndirect z) → StepHas b cpu { regs := { regs cpu with
      a := mem (word p), p := setNZ cpu.ps (mem (word p)), pc := word (cpu.pc.toNat + 2) } }) ∧
    (view i = (.Sta, .indexedIndirect z) → StepHas b cpu {
      regs := { regs cpu with pc := word (cpu.pc.toNat + 2) }, writes := [(word p, cpu.acc)] }) := by
  subst hp
  exact ⟨fun hi => step_has hat hv hi hok, fun hi => step_has hat hv hi hok⟩

/-- `(zp),Y`, when the sum stays below 65536 or in a build without overflow checks. -/
theorem C30_indirect_indexed_partial {z : Byte} {p : Nat} (hat : At b cpu i)
    (hv : BusView b cpu.address_map mem)
    (hp : p = (mem (word z.toNat)).toNat + 256 * (mem (word ((z.toNat + 1) % 256))).toNat)
    (hok : b.overflowChecks = false ∨ p + cpu.y.toNat < 65536) :
    (view i = (.Lda, .indirectIndexed z) → StepHas b cpu { regs := { regs cpu with
      a := mem (word (p + cpu.y.toNat))
      p := setNZ cpu.ps (mem (word (p + cpu.y.toNat)))
      pc := word (cpu.pc.toNat + 2) } }) ∧
    (view i = (.Sta, .indirectIndexed z) → StepHas b cpu {
      regs := { regs cpu with pc := word (cpu.pc.toNat + 2) }
      writes := [(word (p + cpu.y.toNat), cpu.acc)] }) := by
  subst hp
  exact ⟨fun hi => step_has hat hv hi hok, fun hi => step_has hat hv hi hok⟩

/-- LDA (0xff),Y: the pointer itself wraps within page zero, so its high byte is at address 0; the
pointer is 0x0200 + 0x10, Y = 0xfe, and 0x030e holds 0x42. -/
example : ∃ (ops : Operations) (cpu' : Mos6502 FlatRam),
    next .debug (machine sampleRegs 0xb1 0xff 0x00 (fun a =>
      if a = 0xff then 0x10 else if a = 0 then 0x02 else if a = 0x030e then 0x42 else 0)) =
      .ok (ops, cpu') ∧ cpu'.acc = 0x42 :=
  ⟨_, _, rfl, by decide⟩

/-- ASL zp,X at 0x80fd and ASL absolute at 0x9000 on the same bus meet `C30_as_absolute`. -/
example : ∃ cpu : Mos6502 FlatRam,
    At .debug cpu (.AslZeroPageIndexedWithX 0xff) ∧ AddrOk .debug (regs cpu) cpu.address_map.mem (.zeroPageX 0xff) ∧
    At .debug { cpu with pc := 0x9000 }
      (.AslAbsolute (ea (regs cpu) cpu.address_map.mem (.zeroPageX 0xff))) :=
  ⟨machine sampleRegs 0x16 0xff 0x00 (codeAt 0x9000 0x0e 0x00 0x00 (fun _ => 0x81)), rfl, trivial, rfl⟩

/-! ## C31 Cycle counts -/

/-- What C31 claims. -/
def C31_statement : Prop :=
  ∀ (B : Type) [Addressable B] (b : Build) (cpu cpu' : Mos6502 B) (mem : Mem)
    (i : InstructionVariant) (mn : Mnemonic) (am : AddrMode) (ops : Operations), At b cpu i →
    BusView b cpu.address_map mem → view i = (mn, am) → next b cpu = .ok (ops, cpu') →
    ops.cycles = cycles (regs cpu) mem mn am

/-- LDA (zp),Y with pointer 0x0300 and Y = 0 crosses no page but is counted 6 cycles, not 5. -/
theorem C31_indirect_indexed_wrong : ¬ C31_statement := by
  intro h
  have h' := h FlatRam .debug (machine { sampleRegs with y := 0 } 0xb1 0x10 0x00 (fun a =>
    if a = 0x11 then 0x03 else 0)) _ _ _ _ _ _ rfl (fun _ => rfl) rfl rfl
  revert h'; decide

/-- BCS +1 at 0x80fd: 0x80ff and 0x8100 are in different pages, but no extra cycle is counted. -/
theorem C31_branch_wrong : ∃ (ops : Operations) (cpu' : Mos6502 FlatRam),
    At .debug (machine sampleRegs 0xb0 0x01 0) (.BcsRelative 0x01) ∧
    next .debug (machine sampleRegs 0xb0 0x01 0) = .ok (ops, cpu') ∧ ops.cycles = 3 ∧
    (branchTarget sampleRegs.pc 0x01).toNat = 0x8100 ∧
    cycles sampleRegs (fun _ => 0) .Bcs (.relative 0x01) = 4 :=
  ⟨_, _, rfl, rfl, by decide, by decide, by decide⟩

/-- Every instruction consumes its documented number of cycles, page-crossing penalty included,
except reads through `(zp),Y` and taken branches; the counts of these two are the base count plus a
penalty taken from the wrong pages: for `(zp),Y` one cycle whenever the effective address is not in
page zero, for a taken branch one cycle plus one if the target of the code (documented target minus
2) is in another page than the branch itself. -/
theorem C31_partial (hat : At b cpu i) (hv : BusView b cpu.address_map mem) (hi : view i = (mn, am))
    (hn : next b cpu = .ok (ops, cpu')) :
    ((∀ z, am = .indirectIndexed z → mn = .Sta) → (∀ d, am = .relative d → taken mn cpu.ps ≠ some true) →
      ops.cycles = cycles (regs cpu) mem mn am) ∧
    (∀ z, am = .indirectIndexed z → mn ≠ .Sta →
      ops.cycles = baseCycles mn am + (if (ea (regs cpu) mem am).toNat < 256 then 0 else 1)) ∧
    (∀ d, am = .relative d → taken mn cpu.ps = some true →
      ops.cycles = 3 + crosses (branchTarget cpu.pc d - 2).toNat cpu.pc.toNat) := by
  obtain ⟨hok, -, -, -⟩ := step_inv hat hv hi hn
  have h := step_cycles hat hv hi hok hn
  refine ⟨?_, ?_, ?_⟩
  · intro h1 h2
    rw [h]
    unfold cycles
    congr 1
    cases am <;> try rfl
    · rename_i z
      have := h1 z rfl
      subst this
      rfl
    · rename_i d
      have := h2 d rfl
      simp only [codePenalty, penalty]
      have this : ¬ taken mn (regs cpu).p = some true := this
      rw [if_neg this, if_neg this]
  · rintro z rfl hne
    rw [h]
    simp only [codePenalty, if_neg hne, crosses]
    congr 1
    have := (ea (regs cpu) mem (.indirectIndexed z)).isLt
    by_cases hz : (ea (regs cpu) mem (.indirectIndexed z)).toNat < 256
    · rw [if_pos hz, if_pos (by omega)]
    · rw [if_neg hz, if_neg (by omega)]
  · rintro d rfl ht
    rw [h]
    have hb : baseCycles mn (.relative d) = 2 := by
      have ht' := ht
      revert ht'
      cases mn <;> simp [taken, baseCycles, readCycles, isRmw, writesMem, isStore, canCross]
    have hp : codePenalty (regs cpu) mem mn (.relative d) =
        1 + crosses (codeTarget cpu.pc d).toNat cpu.pc.toNat := by
      simp only [codePenalty]; exact if_pos ht
    rw [hb, hp, codeTarget_eq]
    omega

/-- LDA 0x12ff,X with X = 1 crosses a page and takes 5 cycles; STA there always takes 5. -/
example : ∃ (ops : Operations) (cpu' : Mos6502 FlatRam),
    next .debug (machine sampleRegs 0xbd 0xff 0x12) = .ok (ops, cpu') ∧ ops.cycles = 5 :=
  ⟨_, _, rfl, by decide⟩

example : ∃ (ops : Operations) (cpu' : Mos6502 FlatRam),
    next .debug (machine sampleRegs 0x9d 0x00 0x12) = .ok (ops, cpu') ∧ ops.cycles = 5 :=
  ⟨_, _, rfl, by decide⟩

end Verif.Props
