import Verif.Proofs.MosSample

/-!
# Properties C17 – C22, C33: loads, stores, transfers, logic, shifts, increments, flags

Every theorem has the same hypotheses: `At b cpu i` (the fetch finds instruction `i`),
`BusView b cpu.address_map mem` (reads succeed and show `mem`), `view i = (mnemonic, mode)`, and
`AddrOk` (no overflow in address arithmetic in a build that checks it; see C36). The conclusion
`StepHas` gives every register, every flag and every memory write of the step.
`Verif.Mos.exists_at` shows that every documented instruction can meet these hypotheses in every
register state with `pc < 0xfffe`; the examples below give instances.
-/

namespace Verif.Props

open Verif Verif.Mos Verif.Spec.Mos

variable {B : Type} [Addressable B] {b : Build} {cpu : Mos6502 B} {mem : Mem}
  {i : InstructionVariant} {am : AddrMode}

/-! ## C17 Loads -/

theorem C17_lda (hat : At b cpu i) (hv : BusView b cpu.address_map mem) (hi : view i = (.Lda, am))
    (hok : AddrOk b (regs cpu) mem am) :
    StepHas b cpu { regs := { regs cpu with
      a := operand (regs cpu) mem am
      p := setNZ cpu.ps (operand (regs cpu) mem am)
      pc := nextPc (regs cpu) am } } :=
  step_has hat hv hi hok

theorem C17_ldx (hat : At b cpu i) (hv : BusView b cpu.address_map mem) (hi : view i = (.Ldx, am))
    (hok : AddrOk b (regs cpu) mem am) :
    StepHas b cpu { regs := { regs cpu with
      x := operand (regs cpu) mem am
      p := setNZ cpu.ps (operand (regs cpu) mem am)
      pc := nextPc (regs cpu) am } } :=
  step_has hat hv hi hok

theorem C17_ldy (hat : At b cpu i) (hv : BusView b cpu.address_map mem) (hi : view i = (.Ldy, am))
    (hok : AddrOk b (regs cpu) mem am) :
    StepHas b cpu { regs := { regs cpu with
      y := operand (regs cpu) mem am
      p := setNZ cpu.ps (operand (regs cpu) mem am)
      pc := nextPc (regs cpu) am } } :=
  step_has hat hv hi hok

/-- LDA absolute,X across a page boundary; LDX zp,Y with wrap; LDY immediate. -/
example : ∃ (cpu : Mos6502 FlatRam) (mem : Mem), regs cpu = sampleRegs ∧
    At .debug cpu (.LdaAbsoluteIndexedWithX 0x12ff) ∧ BusView .debug cpu.address_map mem :=
  exists_at _ _ 0xbd 0xff 0x12 (by decide) rfl (fun _ => 0x80)

example : ∃ (cpu : Mos6502 FlatRam) (mem : Mem), regs cpu = sampleRegs ∧
    At .release cpu (.LdxZeroPageIndexedWithY 0x10) ∧ BusView .release cpu.address_map mem :=
  exists_at _ _ 0xb6 0x10 0 (by decide) rfl (fun _ => 0x80)

example : ∃ (cpu : Mos6502 FlatRam) (mem : Mem), regs cpu = sampleRegs ∧
    At .debug cpu (.LdyImmediate 0) ∧ BusView .debug cpu.address_map mem :=
  exists_at _ _ 0xa0 0 0 (by decide) rfl (fun _ => 0x80)

/-! ## C18 Stores -/

theorem C18_sta (hat : At b cpu i) (hv : BusView b cpu.address_map mem) (hi : view i = (.Sta, am))
    (hok : AddrOk b (regs cpu) mem am) :
    StepHas b cpu { regs := { regs cpu with pc := nextPc (regs cpu) am }
                    writes := [(ea (regs cpu) mem am, cpu.acc)] } :=
  step_has hat hv hi hok

theorem C18_stx (hat : At b cpu i) (hv : BusView b cpu.address_map mem) (hi : view i = (.Stx, am))
    (hok : AddrOk b (regs cpu) mem am) :
    StepHas b cpu { regs := { regs cpu with pc := nextPc (regs cpu) am }
                    writes := [(ea (regs cpu) mem am, cpu.x)] } :=
  step_has hat hv hi hok

theorem C18_sty (hat : At b cpu i) (hv : BusView b cpu.address_map mem) (hi : view i = (.Sty, am))
    (hok : AddrOk b (regs cpu) mem am) :
    StepHas b cpu { regs := { regs cpu with pc := nextPc (regs cpu) am }
                    writes := [(ea (regs cpu) mem am, cpu.y)] } :=
  step_has hat hv hi hok

/-- STA (zp),Y: pointer 0x3434 in every word, Y = 0xfe; the address arithmetic does not overflow. -/
example : ∃ (cpu : Mos6502 FlatRam) (mem : Mem), regs cpu = sampleRegs ∧
    At .debug cpu (.StaIndirectYIndexed 0xff) ∧ BusView .debug cpu.address_map mem ∧
    AddrOk .debug (regs cpu) mem (.indirectIndexed 0xff) :=
  ⟨machine sampleRegs 0x91 0xff 0 (fun _ => 0x34), _, rfl,
    machine_at _ _ _ _ _ _ (by decide) rfl, machine_view _ _ _ _ _ _, by right; decide⟩

/-! ## C19 Transfers -/

theorem C19_tax (hat : At b cpu i) (hv : BusView b cpu.address_map mem) (hi : view i = (.Tax, am))
    (hok : AddrOk b (regs cpu) mem am) :
    StepHas b cpu { regs := { regs cpu with
      x := cpu.acc, p := setNZ cpu.ps cpu.acc, pc := nextPc (regs cpu) am } } :=
  step_has hat hv hi hok

theorem C19_tay (hat : At b cpu i) (hv : BusView b cpu.address_map mem) (hi : view i = (.Tay, am))
    (hok : AddrOk b (regs cpu) mem am) :
    StepHas b cpu { regs := { regs cpu with
      y := cpu.acc, p := setNZ cpu.ps cpu.acc, pc := nextPc (regs cpu) am } } :=
  step_has hat hv hi hok

theorem C19_txa (hat : At b cpu i) (hv : BusView b cpu.address_map mem) (hi : view i = (.Txa, am))
    (hok : AddrOk b (regs cpu) mem am) :
    StepHas b cpu { regs := { regs cpu with
      a := cpu.x, p := setNZ cpu.ps cpu.x, pc := nextPc (regs cpu) am } } :=
  step_has hat hv hi hok

theorem C19_tya (hat : At b cpu i) (hv : BusView b cpu.address_map mem) (hi : view i = (.Tya, am))
    (hok : AddrOk b (regs cpu) mem am) :
    StepHas b cpu { regs := { regs cpu with
      a := cpu.y, p := setNZ cpu.ps cpu.y, pc := nextPc (regs cpu) am } } :=
  step_has hat hv hi hok

theorem C19_tsx (hat : At b cpu i) (hv : BusView b cpu.address_map mem) (hi : view i = (.Tsx, am))
    (hok : AddrOk b (regs cpu) mem am) :
    StepHas b cpu { regs := { regs cpu with
      x := cpu.sp, p := setNZ cpu.ps cpu.sp, pc := nextPc (regs cpu) am } } :=
  step_has hat hv hi hok

/-- TXS sets no flag. -/
theorem C19_txs (hat : At b cpu i) (hv : BusView b cpu.address_map mem) (hi : view i = (.Txs, am))
    (hok : AddrOk b (regs cpu) mem am) :
    StepHas b cpu { regs := { regs cpu with sp := cpu.x, pc := nextPc (regs cpu) am } } :=
  step_has hat hv hi hok

example : ∃ (cpu : Mos6502 FlatRam) (mem : Mem), regs cpu = sampleRegs ∧
    At .debug cpu .TxsImplied ∧ BusView .debug cpu.address_map mem :=
  exists_at _ _ 0x9a 0 0 (by decide) rfl (fun _ => 0)

example : ∃ (cpu : Mos6502 FlatRam) (mem : Mem), regs cpu = sampleRegs ∧
    At .debug cpu .TsxImplied ∧ BusView .debug cpu.address_map mem :=
  exists_at _ _ 0xba 0 0 (by decide) rfl (fun _ => 0)

/-! ## C20 Bitwise operations -/

theorem C20_and (hat : At b cpu i) (hv : BusView b cpu.address_map mem) (hi : view i = (.And, am))
    (hok : AddrOk b (regs cpu) mem am) :
    StepHas b cpu { regs := { regs cpu with
      a := cpu.acc &&& operand (regs cpu) mem am
      p := setNZ cpu.ps (cpu.acc &&& operand (regs cpu) mem am)
      pc := nextPc (regs cpu) am } } :=
  step_has hat hv hi hok

theorem C20_ora (hat : At b cpu i) (hv : BusView b cpu.address_map mem) (hi : view i = (.Ora, am))
    (hok : AddrOk b (regs cpu) mem am) :
    StepHas b cpu { regs := { regs cpu with
      a := cpu.acc ||| operand (regs cpu) mem am
      p := setNZ cpu.ps (cpu.acc ||| operand (regs cpu) mem am)
      pc := nextPc (regs cpu) am } } :=
  step_has hat hv hi hok

theorem C20_eor (hat : At b cpu i) (hv : BusView b cpu.address_map mem) (hi : view i = (.Eor, am))
    (hok : AddrOk b (regs cpu) mem am) :
    StepHas b cpu { regs := { regs cpu with
      a := cpu.acc ^^^ operand (regs cpu) mem am
      p := setNZ cpu.ps (cpu.acc ^^^ operand (regs cpu) mem am)
      pc := nextPc (regs cpu) am } } :=
  step_has hat hv hi hok

/-- BIT: Z from A & M, N and V from bits 7 and 6 of M, A unchanged. -/
theorem C20_bit (hat : At b cpu i) (hv : BusView b cpu.address_map mem) (hi : view i = (.Bit, am))
    (hok : AddrOk b (regs cpu) mem am) :
    StepHas b cpu { regs := { regs cpu with
      p := { cpu.ps with
        zero := decide ((cpu.acc &&& operand (regs cpu) mem am).toNat = 0)
        negative := (operand (regs cpu) mem am).getLsbD 7
        overflow := (operand (regs cpu) mem am).getLsbD 6 }
      pc := nextPc (regs cpu) am } } := by
  have h7 : ∀ v : Byte, v.getLsbD 7 = decide (128 ≤ v.toNat) := by decide +kernel
  have h6 : ∀ v : Byte, v.getLsbD 6 = decide (64 ≤ v.toNat % 128) := by decide +kernel
  rw [h7, h6]
  exact step_has hat hv hi hok

example : ∃ (cpu : Mos6502 FlatRam) (mem : Mem), regs cpu = sampleRegs ∧
    At .debug cpu (.BitAbsolute 0x4000) ∧ BusView .debug cpu.address_map mem :=
  exists_at _ _ 0x2c 0x00 0x40 (by decide) rfl (fun _ => 0xc0)

/-- EOR (zp,X) with X = 1 in a checked build. -/
example : ∃ (cpu : Mos6502 FlatRam) (mem : Mem), regs cpu = sampleRegs ∧
    At .debug cpu (.EorXIndexedIndirect 0xff) ∧ BusView .debug cpu.address_map mem ∧
    AddrOk .debug (regs cpu) mem (.indexedIndirect 0xff) :=
  ⟨machine sampleRegs 0x41 0xff 0 (fun _ => 0x34), _, rfl,
    machine_at _ _ _ _ _ _ (by decide) rfl, machine_view _ _ _ _ _ _, by right; decide⟩

/-! ## C21 Shifts and rotates -/

/-- ASL, LSR, ROL and ROR on the accumulator. `shift` gives the textbook result and carry. -/
theorem C21_accumulator {mn : Mnemonic} {res : Byte} {c : Bool} (hat : At b cpu i)
    (hv : BusView b cpu.address_map mem) (hi : view i = (mn, .accumulator))
    (hs : shift mn cpu.acc cpu.ps.carry = some (res, c)) :
    StepHas b cpu { regs := { regs cpu with
      a := res
      p := { setNZ cpu.ps res with carry := c }
      pc := nextPc (regs cpu) .accumulator } } := by
  have h := step_has hat hv hi trivial
  cases mn <;> simp only [shift, Option.some.injEq, Prod.mk.injEq, reduceCtorEq] at hs <;>
    (obtain ⟨rfl, rfl⟩ := hs; exact h)

/-- ASL, LSR, ROL and ROR on memory. -/
theorem C21_memory {mn : Mnemonic} {res : Byte} {c : Bool} (hat : At b cpu i)
    (hv : BusView b cpu.address_map mem) (hi : view i = (mn, am)) (ham : am ≠ .accumulator)
    (hok : AddrOk b (regs cpu) mem am)
    (hs : shift mn (mem (ea (regs cpu) mem am)) cpu.ps.carry = some (res, c)) :
    StepHas b cpu { regs := { regs cpu with
                      p := { setNZ cpu.ps res with carry := c }
                      pc := nextPc (regs cpu) am }
                    writes := [(ea (regs cpu) mem am, res)] } := by
  have h := step_has hat hv hi hok
  have hm : shift mn (operand (regs cpu) mem am) cpu.ps.carry = some (res, c) := by
    have hni : ∀ v, am ≠ .immediate v := by
      rintro v rfl
      cases i <;> simp only [view, Prod.mk.injEq, reduceCtorEq, and_false] at hi <;>
        (obtain ⟨rfl, -⟩ := hi; simp [shift] at hs)
    have e : operand (regs cpu) mem am = mem (ea (regs cpu) mem am) := by
      cases am <;> first | rfl | exact absurd rfl ham | exact absurd rfl (hni _)
    rw [e]; exact hs
  have hse : ∀ e s c', shiftEffect (regs cpu) am e s c' =
      { regs := { regs cpu with p := { setNZ cpu.ps s with carry := c' }, pc := nextPc (regs cpu) am }
        writes := [(e, s)] } := by
    intro e s c'
    cases am <;> first | rfl | exact absurd rfl ham
  cases mn <;> simp only [shift, Option.some.injEq, Prod.mk.injEq, reduceCtorEq] at hm <;>
    (obtain ⟨rfl, rfl⟩ := hm; rw [← hse]; exact h)

/-- The four mnemonics are exactly the ones `shift` describes. -/
example (v : Byte) (c : Bool) : (shift .Ror v c).isSome ∧ (shift .Adc v c).isNone := ⟨rfl, rfl⟩

/-- Every bit moves one place; the carry takes the place of the missing bit. -/
theorem C21_rol_bits (v : Byte) (c : Bool) : ∃ res c', shift .Rol v c = some (res, c') ∧
    c' = v.getLsbD 7 ∧ res.getLsbD 0 = c ∧ ∀ k, k < 7 → res.getLsbD (k + 1) = v.getLsbD k := by
  refine ⟨_, _, rfl, ?_⟩
  revert v c; decide +kernel

theorem C21_ror_bits (v : Byte) (c : Bool) : ∃ res c', shift .Ror v c = some (res, c') ∧
    c' = v.getLsbD 0 ∧ res.getLsbD 7 = c ∧ ∀ k, k < 7 → res.getLsbD k = v.getLsbD (k + 1) := by
  refine ⟨_, _, rfl, ?_⟩
  revert v c; decide +kernel

/-- ASL and LSR shift in a zero. -/
theorem C21_asl_lsr_bits (v : Byte) (c : Bool) :
    shift .Asl v c = shift .Rol v false ∧ shift .Lsr v c = shift .Ror v false := by
  simp [shift, bit]

/-- ROR undoes ROL and ROL undoes ROR, carry included. -/
theorem C21_inverse (v : Byte) (c : Bool) :
    (∀ w d, shift .Rol v c = some (w, d) → shift .Ror w d = some (v, c)) ∧
    (∀ w d, shift .Ror v c = some (w, d) → shift .Rol w d = some (v, c)) := by
  have h1 : ∀ (v : Byte) (c : Bool), (shift .Rol v c).bind (fun z => shift .Ror z.1 z.2) =
      some (v, c) := by decide +kernel
  have h2 : ∀ (v : Byte) (c : Bool), (shift .Ror v c).bind (fun z => shift .Rol z.1 z.2) =
      some (v, c) := by decide +kernel
  constructor
  · intro w d h; have := h1 v c; rw [h] at this; exact this
  · intro w d h; have := h2 v c; rw [h] at this; exact this

/-- Two steps of the emulator: `ROL A` then `ROR A` restores A and C. -/
theorem C21_rol_ror_step {cpu₁ cpu₂ : Mos6502 B} {ops₁ ops₂ : Operations} {mem₁ mem₂ : Mem}
    (hat : At b cpu .RolAccumulator) (hv : BusView b cpu.address_map mem₁)
    (h₁ : next b cpu = .ok (ops₁, cpu₁))
    (hat₁ : At b cpu₁ .RorAccumulator) (hv₁ : BusView b cpu₁.address_map mem₂)
    (h₂ : next b cpu₁ = .ok (ops₂, cpu₂)) :
    cpu₂.acc = cpu.acc ∧ cpu₂.ps.carry = cpu.ps.carry := by
  obtain ⟨w, d, hs, -⟩ := C21_rol_bits cpu.acc cpu.ps.carry
  have hr := (C21_inverse cpu.acc cpu.ps.carry).1 w d hs
  have s₁ := C21_accumulator hat hv rfl hs
  unfold StepHas at s₁
  rw [h₁] at s₁
  simp only [writeAll, Except.map, Except.ok.injEq] at s₁
  have ea : cpu₁.acc = w := by rw [s₁]; rfl
  have ec : cpu₁.ps.carry = d := by rw [s₁]; rfl
  have s₂ := C21_accumulator hat₁ hv₁ rfl (by rw [ea, ec]; exact hr)
  unfold StepHas at s₂
  rw [h₂] at s₂
  simp only [writeAll, Except.map, Except.ok.injEq] at s₂
  rw [s₂]
  exact ⟨rfl, rfl⟩

/-- `ROL A; ROR A` in memory, in front of A = 0x8f, C = 1. -/
example : ∃ (cpu : Mos6502 FlatRam) (ops₁ ops₂ : Operations) (cpu₁ cpu₂ : Mos6502 FlatRam),
    At .debug cpu .RolAccumulator ∧ next .debug cpu = .ok (ops₁, cpu₁) ∧
    At .debug cpu₁ .RorAccumulator ∧ next .debug cpu₁ = .ok (ops₂, cpu₂) ∧ cpu₁.acc ≠ cpu.acc := by
  refine ⟨machine sampleRegs 0x2a 0x6a 0, _, _, _, _, rfl, rfl, rfl, rfl, ?_⟩
  decide

example : ∃ (cpu : Mos6502 FlatRam) (mem : Mem), regs cpu = sampleRegs ∧
    At .debug cpu (.LsrAbsoluteIndexedWithX 0xffff) ∧ BusView .debug cpu.address_map mem :=
  exists_at _ _ 0x5e 0xff 0xff (by decide) rfl (fun _ => 0x81)

/-! ## C22 Increments and decrements -/

theorem C22_inc (hat : At b cpu i) (hv : BusView b cpu.address_map mem) (hi : view i = (.Inc, am))
    (hok : AddrOk b (regs cpu) mem am) :
    StepHas b cpu
      { regs := { regs cpu with
          p := setNZ cpu.ps (byte ((mem (ea (regs cpu) mem am)).toNat + 1))
          pc := nextPc (regs cpu) am }
        writes := [(ea (regs cpu) mem am, byte ((mem (ea (regs cpu) mem am)).toNat + 1))] } := by
  have h := step_has hat hv hi hok
  have hp : ∀ v : Byte, v + 1 = byte (v.toNat + 1) := by decide +kernel
  have e : operand (regs cpu) mem am = mem (ea (regs cpu) mem am) := by
    cases i <;> simp only [view, Prod.mk.injEq, reduceCtorEq, false_and] at hi <;>
      (obtain ⟨-, rfl⟩ := hi; rfl)
  simp only [codeEffect, e, hp] at h
  exact h

theorem C22_dec (hat : At b cpu i) (hv : BusView b cpu.address_map mem) (hi : view i = (.Dec, am))
    (hok : AddrOk b (regs cpu) mem am) :
    StepHas b cpu
      { regs := { regs cpu with
          p := setNZ cpu.ps (byte ((mem (ea (regs cpu) mem am)).toNat + 255))
          pc := nextPc (regs cpu) am }
        writes := [(ea (regs cpu) mem am, byte ((mem (ea (regs cpu) mem am)).toNat + 255))] } := by
  have h := step_has hat hv hi hok
  have hp : ∀ v : Byte, v - 1 = byte (v.toNat + 255) := by decide +kernel
  have e : operand (regs cpu) mem am = mem (ea (regs cpu) mem am) := by
    cases i <;> simp only [view, Prod.mk.injEq, reduceCtorEq, false_and] at hi <;>
      (obtain ⟨-, rfl⟩ := hi; rfl)
  simp only [codeEffect, e, hp] at h
  exact h

theorem C22_inx (hat : At b cpu i) (hv : BusView b cpu.address_map mem) (hi : view i = (.Inx, am))
    (hok : AddrOk b (regs cpu) mem am) :
    StepHas b cpu { regs := { regs cpu with
      x := byte (cpu.x.toNat + 1)
      p := setNZ cpu.ps (byte (cpu.x.toNat + 1))
      pc := nextPc (regs cpu) am } } := by
  have hp : ∀ v : Byte, byte (v.toNat + 1) = v + 1 := by decide +kernel
  rw [hp]; exact step_has hat hv hi hok

theorem C22_iny (hat : At b cpu i) (hv : BusView b cpu.address_map mem) (hi : view i = (.Iny, am))
    (hok : AddrOk b (regs cpu) mem am) :
    StepHas b cpu { regs := { regs cpu with
      y := byte (cpu.y.toNat + 1)
      p := setNZ cpu.ps (byte (cpu.y.toNat + 1))
      pc := nextPc (regs cpu) am } } := by
  have hp : ∀ v : Byte, byte (v.toNat + 1) = v + 1 := by decide +kernel
  rw [hp]; exact step_has hat hv hi hok

theorem C22_dex (hat : At b cpu i) (hv : BusView b cpu.address_map mem) (hi : view i = (.Dex, am))
    (hok : AddrOk b (regs cpu) mem am) :
    StepHas b cpu { regs := { regs cpu with
      x := byte (cpu.x.toNat + 255)
      p := setNZ cpu.ps (byte (cpu.x.toNat + 255))
      pc := nextPc (regs cpu) am } } := by
  have hp : ∀ v : Byte, byte (v.toNat + 255) = v - 1 := by decide +kernel
  rw [hp]; exact step_has hat hv hi hok

/-- What C22 claims of DEY. -/
def C22_dey_statement : Prop :=
  ∀ (B : Type) [Addressable B] (b : Build) (cpu : Mos6502 B) (mem : Mem),
    At b cpu .DeyImplied → BusView b cpu.address_map mem →
    StepHas b cpu { regs := { regs cpu with
      y := byte (cpu.y.toNat + 255)
      p := setNZ cpu.ps (byte (cpu.y.toNat + 255))
      pc := nextPc (regs cpu) .implied } }

/-- DEY takes N and Z from X - 1: false of the code. -/
theorem C22_dey_wrong : ¬ C22_dey_statement := by
  intro h
  have h' := h FlatRam .debug (machine sampleRegs 0x88 0 0) _
    (machine_at _ _ _ _ _ _ (by decide) rfl) (machine_view _ _ _ _ _ _)
  have h'' := congrArg (fun z => match z with | .ok y => y.ps.zero | .error _ => false) h'
  revert h''; decide

/-- What does hold: Y is decremented, N and Z are those of X - 1; so the documented effect holds
exactly when Y - 1 and X - 1 agree on N and Z. -/
theorem C22_dey_partial (hat : At b cpu i) (hv : BusView b cpu.address_map mem)
    (hi : view i = (.Dey, am)) (hok : AddrOk b (regs cpu) mem am) :
    StepHas b cpu { regs := { regs cpu with
      y := byte (cpu.y.toNat + 255)
      p := setNZ cpu.ps (byte (cpu.x.toNat + 255))
      pc := nextPc (regs cpu) am } } ∧
    (StepHas b cpu { regs := { regs cpu with
      y := byte (cpu.y.toNat + 255)
      p := setNZ cpu.ps (byte (cpu.y.toNat + 255))
      pc := nextPc (regs cpu) am } } ↔
      setNZ cpu.ps (byte (cpu.x.toNat + 255)) = setNZ cpu.ps (byte (cpu.y.toNat + 255))) := by
  have hp : ∀ v : Byte, byte (v.toNat + 255) = v - 1 := by decide +kernel
  have h : StepHas b cpu _ := step_has hat hv hi hok
  rw [hp, hp]
  refine ⟨h, fun h' => ?_, fun e => e ▸ h⟩
  unfold StepHas at h h'
  rw [h] at h'
  simp only [codeEffect, writeAll, Except.map, Except.ok.injEq] at h'
  exact congrArg Mos6502.ps h'

example : ∃ (cpu : Mos6502 FlatRam) (mem : Mem), regs cpu = sampleRegs ∧
    At .debug cpu (.IncZeroPage 0x40) ∧ BusView .debug cpu.address_map mem :=
  exists_at _ _ 0xe6 0x40 0 (by decide) rfl (fun _ => 0xff)

example : ∃ (cpu : Mos6502 FlatRam) (mem : Mem), regs cpu = sampleRegs ∧
    At .debug cpu .DeyImplied ∧ BusView .debug cpu.address_map mem :=
  exists_at _ _ 0x88 0 0 (by decide) rfl (fun _ => 0)

/-! ## C33 Flag instructions -/

/-- The flag an instruction sets and its value, per the documentation. -/
def flagEffect : Mnemonic → ProcessorStatus → Option ProcessorStatus
  | .Clc, p => some { p with carry := false }
  | .Sec, p => some { p with carry := true }
  | .Cli, p => some { p with interrupt_disable := false }
  | .Sei, p => some { p with interrupt_disable := true }
  | .Cld, p => some { p with decimal := false }
  | .Sed, p => some { p with decimal := true }
  | .Clv, p => some { p with overflow := false }
  | _, _ => none

theorem C33_flags {mn : Mnemonic} {p' : ProcessorStatus} (hat : At b cpu i)
    (hv : BusView b cpu.address_map mem) (hi : view i = (mn, am))
    (hok : AddrOk b (regs cpu) mem am) (hp : flagEffect mn cpu.ps = some p') :
    StepHas b cpu { regs := { regs cpu with p := p', pc := nextPc (regs cpu) am } } := by
  have h := step_has hat hv hi hok
  cases mn <;> simp only [flagEffect, Option.some.injEq, reduceCtorEq] at hp <;>
    (subst hp; exact h)

example : ∃ (cpu : Mos6502 FlatRam) (mem : Mem), regs cpu = sampleRegs ∧
    At .debug cpu .ClvImplied ∧ BusView .debug cpu.address_map mem ∧
    (flagEffect .Clv cpu.ps).isSome := by
  obtain ⟨cpu, mem, h⟩ := exists_at .debug sampleRegs 0xb8 0 0 (by decide) rfl (fun _ => 0)
  exact ⟨cpu, mem, h.1, h.2.1, h.2.2, rfl⟩

end Verif.Props
