import Verif.Proofs.MosCanon

/-!
# Every `generate` implementation produces `code`
-/

namespace Verif.Mos

open Verif Verif.Spec.Mos

set_option linter.unusedSimpArgs false

section
variable {B : Type} [Addressable B] {b : Build} {cpu : Mos6502 B} {mem : Mem}

theorem deref_zero (h : BusView b cpu.address_map mem) (a : Word) :
    dereferenceAddressToOperand b cpu a 0 = .ok (Operand.new (mem a)) := by
  simp only [dereferenceAddressToOperand, h _, addIndexToAddress_zero, Res.ok_bind]

theorem zp_zero (z : Byte) : (z.toNat + (0 : Byte).toNat) % 256 = z.toNat := by
  have := z.isLt
  simp; omega

theorem deref_index (h : BusView b cpu.address_map mem) (a : Word) (i : Byte) :
    dereferenceAddressToOperand b cpu a i =
      .ok (Operand.new (mem (addIndexToAddress a i))) := by
  simp [dereferenceAddressToOperand, h _]

theorem penalty_not_contains (w a : Word) :
    usizeFromBool (!(pageOf w).contains a) = crosses w.toNat a.toNat := by
  rw [pageOf_contains]; unfold usizeFromBool crosses
  by_cases h : w.toNat / 256 = a.toNat / 256
  · simp [h]
  · simp [h, Ne.symm h]

theorem penalty_zero_page (z : Byte) (a : Word) :
    usizeFromBool (!(Page.ofU8 z).contains a) = crosses a.toNat 0 := by
  rw [pageU8_contains]; unfold usizeFromBool crosses
  by_cases h : a.toNat / 256 = 0 <;> simp [h]

omit [Addressable B] in
theorem branchOnCase_eq (cond : Bool) (d : Byte) (n c : Nat) :
    branchOnCase b cond d n c cpu = .ok ⟨0, c + (if cond then
        1 + crosses (codeTarget cpu.pc d).toNat cpu.pc.toNat else 0),
      if cond then [.Write16bitRegister .Pc (codeTarget cpu.pc d)]
      else [.Write16bitRegister .Pc (cpu.pc + BitVec.ofNat 16 n)]⟩ := by
  have e : crosses (codeTarget cpu.pc d).toNat cpu.pc.toNat =
      if (pageOf cpu.pc).contains (codeTarget cpu.pc d) then 0 else 1 := by
    rw [pageOf_contains]; unfold crosses; simp
  unfold branchOnCase
  rw [page_ofU16, e]
  simp only [Res.ok_bind]
  change Except.ok (Operations.mk _ _ _) = _
  cases cond
  · rfl
  · unfold codeTarget
    cases (pageOf cpu.pc).contains (cpu.pc + d.signExtend 16) <;> rfl

theorem deref_indirect (h : BusView b cpu.address_map mem) (w : Word)
    (hok : AddrOk b (regs cpu) mem (.indirect w)) : jmpIndirect b cpu w =
      .ok ⟨0, Isa.cycles .Jmp .Indirect,
        [.Write16bitRegister .Pc (ea (regs cpu) mem (.indirect w))]⟩ := by
  unfold jmpIndirect
  simp only [h _, addU16_one hok, Res.ok_bind, u16FromLeBytes_eq, ea, le, word_toNat]

end

section
variable {B : Type} [Addressable B] {b : Build} {cpu : Mos6502 B} {mem : Mem}

set_option maxHeartbeats 1600000 in
/-- Every instruction produces the operations of `code`. -/
theorem generate_code (hv : BusView b cpu.address_map mem) (i : InstructionVariant)
    (hok : AddrOk b (regs cpu) mem (view i).2) :
    i.generate b cpu = .ok (code (regs cpu) mem (view i).1 (view i).2) := by
  cases i <;> simp only [view] at hok
  all_goals
    simp only [InstructionVariant.generate, view,
    adcAbsolute, adcAbsoluteIndexedWithX, adcAbsoluteIndexedWithY, adcIndirectYIndexed,
    adcImmediate, adcXIndexedIndirect, adcZeroPage, adcZeroPageIndexedWithX, sbcAbsolute,
    sbcAbsoluteIndexedWithX, sbcAbsoluteIndexedWithY, sbcIndirectYIndexed, sbcImmediate,
    sbcXIndexedIndirect, sbcZeroPage, sbcZeroPageIndexedWithX, bccRelative, bcsRelative,
    beqRelative, bmiRelative, bneRelative, bplRelative, bvcRelative, bvsRelative,
    cmpAbsolute, cmpAbsoluteIndexedWithX, cmpAbsoluteIndexedWithY, cmpIndirectYIndexed,
    cmpImmediate, cmpXIndexedIndirect, cmpZeroPage, cmpZeroPageIndexedWithX, cpxAbsolute,
    cpxImmediate, cpxZeroPage, cpyAbsolute, cpyImmediate, cpyZeroPage, clcImplied,
    cldImplied, cliImplied, clvImplied, secImplied, sedImplied, seiImplied, decAbsolute,
    decAbsoluteIndexedWithX, decZeroPage, decZeroPageIndexedWithX, dexImplied, deyImplied,
    incAbsolute, incAbsoluteIndexedWithX, incZeroPage, incZeroPageIndexedWithX, inxImplied,
    inyImplied, jmpAbsolute, jsrAbsolute, rtsImplied, rtiImplied, brkImplied, nopImplied,
    ldaImmediate, ldaZeroPage, ldaZeroPageIndexedWithX, ldaAbsolute,
    ldaAbsoluteIndexedWithX, ldaAbsoluteIndexedWithY, ldaIndirectYIndexed,
    ldaXIndexedIndirect, ldxAbsolute, ldxAbsoluteIndexedWithY, ldxImmediate, ldxZeroPage,
    ldxZeroPageIndexedWithY, ldyAbsolute, ldyAbsoluteIndexedWithX, ldyImmediate,
    ldyZeroPage, ldyZeroPageIndexedWithX, andAbsolute, andAbsoluteIndexedWithX,
    andAbsoluteIndexedWithY, andIndirectYIndexed, andImmediate, andXIndexedIndirect,
    andZeroPage, andZeroPageIndexedWithX, bitAbsolute, bitZeroPage, eorAbsolute,
    eorAbsoluteIndexedWithX, eorAbsoluteIndexedWithY, eorIndirectYIndexed, eorImmediate,
    eorXIndexedIndirect, eorZeroPage, eorZeroPageIndexedWithX, oraAbsolute,
    oraAbsoluteIndexedWithX, oraAbsoluteIndexedWithY, oraIndirectYIndexed, oraImmediate,
    oraXIndexedIndirect, oraZeroPage, oraZeroPageIndexedWithX, aslAbsolute,
    aslAbsoluteIndexedWithX, aslAccumulator, aslZeroPage, aslZeroPageIndexedWithX,
    lsrAbsolute, lsrAbsoluteIndexedWithX, lsrAccumulator, lsrZeroPage,
    lsrZeroPageIndexedWithX, rolAbsolute, rolAbsoluteIndexedWithX, rolAccumulator,
    rolZeroPage, rolZeroPageIndexedWithX, rorAbsolute, rorAbsoluteIndexedWithX,
    rorAccumulator, rorZeroPage, rorZeroPageIndexedWithX, phaImplied, phpImplied,
    plaImplied, plpImplied, staAbsolute, staAbsoluteIndexedWithX, staAbsoluteIndexedWithY,
    staIndirectYIndexed, staXIndexedIndirect, staZeroPage, staZeroPageIndexedWithX,
    stxAbsolute, stxZeroPage, stxZeroPageIndexedWithY, styAbsolute, styZeroPage,
    styZeroPageIndexedWithX, taxImplied, tayImplied, tsxImplied, txaImplied, txsImplied,
    tyaImplied,
      branchOnCase_eq, deref_indirect hv, deref_indexed_indirect hv, deref_indirect_indexed hv,
      deref_zero hv, deref_index hv, page_ofU16, hok, hv _, Res.ok_bind, Except.ok.injEq,
      penalty_not_contains, penalty_zero_page, zp_zero, addIndexToAddress_eq,
      addIndexToZeropageAddress_eq,
      u16OfU8_eq, Operand.shl, Operand.shr, Operand.rol, Operand.ror, Operand.unwrap, Operand.new,
      shlU8_one, shrU8_one, or_carry_in, or_carry_in_high, Operand.twosComplementSub, subU8_255,
      Isa.cycles, Isa.offset, IRQ_VECTOR_LL, IRQ_VECTOR_HH]
  all_goals
    first
    | rfl
    | (simp [code, codeOffset, codePenalty, codeMcs, size, baseCycles, readCycles, isRmw, isStore,
        writesMem, canCross, operand, ea, baseAddr, branchCode, taken]; done)
    | (obtain ⟨_, _, _, _, _, _, ⟨c, z, _, _, _, _, o, n⟩⟩ := cpu
       first
       | (cases c <;> rfl)
       | (cases z <;> rfl)
       | (cases o <;> rfl)
       | (cases n <;> rfl))


end

end Verif.Mos
