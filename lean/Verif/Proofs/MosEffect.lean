import Verif.Proofs.MosGenerate

/-!
# The effect of executing `code`
-/

namespace Verif.Mos

open Verif Verif.Spec.Mos

set_option linter.unusedSimpArgs false

/-- Registers after the addition performed by ADC and SBC. -/
def arithRegs (r : Regs) (am : AddrMode) (p : Operand × Bool) : Regs :=
  { r with
    a := p.1.inner
    p := { r.p with carry := p.1.carry, negative := p.1.negative, overflow := p.2, zero := p.1.zero }
    pc := nextPc r am }

/-- Registers after the comparison performed by CMP, CPX and CPY. -/
def compareRegs (r : Regs) (am : AddrMode) (x v : Byte) : Regs :=
  { r with
    p := { setNZ r.p (x - v) with carry := (Operand.new x).ge (Operand.new v) }
    pc := nextPc r am }

/-- Effect of a shift with result `s` and carry `c`. -/
def shiftEffect (r : Regs) (am : AddrMode) (e : Word) (s : Byte) (c : Bool) : Effect :=
  match am with
  | .accumulator =>
    { regs := { r with a := s, p := { setNZ r.p s with carry := c }, pc := nextPc r am } }
  | _ =>
    { regs := { r with p := { setNZ r.p s with carry := c }, pc := nextPc r am }
      writes := [(e, s)] }

/-- Effect of a branch. -/
def branchEffect (r : Regs) (am : AddrMode) (t : Bool) : Effect :=
  match am with
  | .relative d => { regs := { r with pc := if t then codeTarget r.pc d else nextPc r am } }
  | _ => { regs := r }

/-- The effect the code has, by mnemonic and addressing mode. -/
def codeEffect (r : Regs) (mem : Mem) (mn : Mnemonic) (am : AddrMode) : Effect :=
  let v := operand r mem am
  let e := ea r mem am
  let pc := nextPc r am
  match mn with
  | .Adc => { regs := arithRegs r am ((Operand.new r.a).twosComplementAdd (Operand.new v) r.p.carry) }
  | .Sbc => { regs := arithRegs r am ((Operand.new r.a).twosComplementAdd
      ((Operand.new (255 - v)).add (Operand.new (boolAsU8 r.p.carry))) r.p.carry) }
  | .And => { regs := { r with a := r.a &&& v, p := setNZ r.p (r.a &&& v), pc := pc } }
  | .Ora => { regs := { r with a := r.a ||| v, p := setNZ r.p (r.a ||| v), pc := pc } }
  | .Eor => { regs := { r with a := r.a ^^^ v, p := setNZ r.p (r.a ^^^ v), pc := pc } }
  | .Bit => { regs := { r with
      p := { r.p with
        negative := decide (128 ≤ v.toNat)
        overflow := decide (64 ≤ v.toNat % 128)
        zero := decide ((r.a &&& v).toNat = 0) }
      pc := pc } }
  | .Asl => shiftEffect r am e (byte (2 * v.toNat)) (decide (128 ≤ v.toNat))
  | .Lsr => shiftEffect r am e (byte (v.toNat / 2)) (decide (v.toNat % 2 = 1))
  | .Rol => shiftEffect r am e (byte (2 * v.toNat + bit r.p.carry)) (decide (128 ≤ v.toNat))
  | .Ror => shiftEffect r am e (byte (v.toNat / 2 + 128 * bit r.p.carry)) (decide (v.toNat % 2 = 1))
  | .Bcc => branchEffect r am (!r.p.carry)
  | .Bcs => branchEffect r am r.p.carry
  | .Bne => branchEffect r am (!r.p.zero)
  | .Beq => branchEffect r am r.p.zero
  | .Bpl => branchEffect r am (!r.p.negative)
  | .Bmi => branchEffect r am r.p.negative
  | .Bvc => branchEffect r am (!r.p.overflow)
  | .Bvs => branchEffect r am r.p.overflow
  | .Clc => { regs := { r with p := { r.p with carry := false }, pc := pc } }
  | .Cld => { regs := { r with p := { r.p with decimal := false }, pc := pc } }
  | .Cli => { regs := { r with p := { r.p with interrupt_disable := false }, pc := pc } }
  | .Clv => { regs := { r with p := { r.p with overflow := false }, pc := pc } }
  | .Sec => { regs := { r with p := { r.p with carry := true }, pc := pc } }
  | .Sed => { regs := { r with p := { r.p with decimal := true }, pc := pc } }
  | .Sei => { regs := { r with p := { r.p with interrupt_disable := true }, pc := pc } }
  | .Cmp => { regs := compareRegs r am r.a v }
  | .Cpx => { regs := compareRegs r am r.x v }
  | .Cpy => { regs := compareRegs r am r.y v }
  | .Dec => { regs := { r with p := setNZ r.p (v - 1), pc := pc }, writes := [(e, v - 1)] }
  | .Inc => { regs := { r with p := setNZ r.p (v + 1), pc := pc }, writes := [(e, v + 1)] }
  | .Dex => { regs := { r with x := r.x - 1, p := setNZ r.p (r.x - 1), pc := pc } }
  | .Dey => { regs := { r with y := r.y - 1, p := setNZ r.p (r.x - 1), pc := pc } }
  | .Inx => { regs := { r with x := r.x + 1, p := setNZ r.p (r.x + 1), pc := pc } }
  | .Iny => { regs := { r with y := r.y + 1, p := setNZ r.p (r.y + 1), pc := pc } }
  | .Jmp => { regs := { r with pc := e } }
  | .Jsr => { regs := { r with sp := r.sp - 2, pc := e }
              writes := [(stack r.sp.toNat, (u16ToLeBytes (r.pc + 2)).2),
                (stack (r.sp - 1).toNat, (u16ToLeBytes (r.pc + 2)).1)] }
  | .Lda => { regs := { r with a := v, p := setNZ r.p v, pc := pc } }
  | .Ldx => { regs := { r with x := v, p := setNZ r.p v, pc := pc } }
  | .Ldy => { regs := { r with y := v, p := setNZ r.p v, pc := pc } }
  | .Nop => { regs := { r with pc := pc } }
  | .Pha => { regs := { r with sp := r.sp - 1, pc := pc }, writes := [(stack r.sp.toNat, r.a)] }
  | .Php => { regs := { r with sp := r.sp - 1, pc := pc }, writes := [(stack r.sp.toNat, r.p.read)] }
  | .Pla =>
    { regs := { r with
        a := mem (stack (r.sp + 1).toNat)
        sp := r.sp + 1
        p := setNZ r.p (mem (stack (r.sp + 1).toNat))
        pc := pc } }
  | .Plp =>
    { regs := { r with
        sp := r.sp + 1
        p := ProcessorStatus.withValue (mem (stack (r.sp + 1).toNat))
        pc := pc } }
  | .Rts =>
    { regs := { r with
        sp := r.sp + 2
        pc := u16FromLeBytes (mem (stack (r.sp + 1).toNat)) (mem (stack (r.sp + 2).toNat)) +
          BitVec.ofNat 16 (size am) } }
  | .Rti =>
    { regs := { r with
        sp := r.sp + 3
        p := ProcessorStatus.withValue (mem (stack (r.sp + 1).toNat))
        pc := u16FromLeBytes (mem (stack (r.sp + 2).toNat)) (mem (stack (r.sp + 3).toNat)) +
          BitVec.ofNat 16 (size am) } }
  | .Brk =>
    { regs := { r with
        sp := r.sp - 3
        p := { r.p with brk := true, interrupt_disable := true }
        pc := u16FromLeBytes (mem 0xfffe) (mem 0xffff) }
      writes := [(stack r.sp.toNat, (u16ToLeBytes (r.pc + 1)).1),
        (stack (r.sp - 1).toNat, (u16ToLeBytes (r.pc + 1)).2),
        (stack (r.sp - 2).toNat, r.p.read)] }
  | .Sta => { regs := { r with pc := pc }, writes := [(e, r.a)] }
  | .Stx => { regs := { r with pc := pc }, writes := [(e, r.x)] }
  | .Sty => { regs := { r with pc := pc }, writes := [(e, r.y)] }
  | .Tax => { regs := { r with x := r.a, p := setNZ r.p r.a, pc := pc } }
  | .Tay => { regs := { r with y := r.a, p := setNZ r.p r.a, pc := pc } }
  | .Tsx => { regs := { r with x := r.sp, p := setNZ r.p r.sp, pc := pc } }
  | .Txa => { regs := { r with a := r.x, p := setNZ r.p r.x, pc := pc } }
  | .Txs => { regs := { r with sp := r.x, pc := pc } }
  | .Tya => { regs := { r with a := r.y, p := setNZ r.p r.y, pc := pc } }

section
variable {B : Type} [Addressable B] {b : Build} {cpu : Mos6502 B} {mem : Mem}

theorem exec_write (cpu : Mos6502 B) (a : Word) (v : Byte) (mcs : List Microcode) :
    executeAll b (.WriteMemory a v :: mcs) cpu =
      (writeAll b cpu.address_map [(a, v)]).bind
        (fun bus => executeAll b mcs { cpu with address_map := bus }) := by
  simp only [executeAll, executeMut, writeMemory, writeAll]
  rcases Addressable.write b cpu.address_map a v with p | ⟨_ | _, bus⟩ <;> rfl

theorem writeAll_cons (bus : B) (a : Word) (v : Byte) (w : Word × Byte) (ws : List (Word × Byte)) :
    writeAll b bus ((a, v) :: w :: ws) =
      (writeAll b bus [(a, v)]).bind (fun bus' => writeAll b bus' (w :: ws)) := by
  simp only [writeAll]
  rcases Addressable.write b bus a v with p | ⟨_ | _, bus'⟩ <;> rfl

theorem bind_ok_map {α β : Type} (x : Res α) (f : α → β) :
    x.bind (fun y => Except.ok (f y)) = x.map f := by cases x <;> rfl

theorem map_bind {α β γ : Type} (x : Res α) (f : α → Res β) (g : β → γ) :
    (x.bind f).map g = x.bind (fun y => (f y).map g) := by cases x <;> rfl

theorem add_size (w : Word) (n : Nat) : w + BitVec.ofNat 16 n = word (w.toNat + n) := by
  apply BitVec.eq_of_toNat_eq
  rw [toNat_word, BitVec.toNat_add, BitVec.toNat_ofNat]; omega

theorem exec_branch (r : Regs) (bus : B) (am : AddrMode) (t : Bool) :
    executeAll b (branchCode r am t ++ [.Inc16bitRegister .Pc (BitVec.ofNat 16 0)]) (withRegs r bus) =
      (writeAll b bus (branchEffect r am t).writes).map (withRegs (branchEffect r am t).regs) := by
  have e : r.pc + 2 = word (r.pc.toNat + 2) := add_size r.pc 2
  cases am <;> cases t <;>
    simp only [branchCode, branchEffect, executeAll, executeMut, Res.ok_bind, List.cons_append,
      List.nil_append, BitVec.add_zero, withRegs, writeAll, Except.map, nextPc, size, ite_true,
      e, Bool.false_eq_true, if_false]

theorem exec_shift (r : Regs) (bus : B) (am : AddrMode) (e : Word) (s : Byte) (c : Bool) :
    executeAll b (shiftCode am e (Operand.withFlags s c (Operand.new s).negative
        (Operand.new s).zero) ++ [.Inc16bitRegister .Pc (BitVec.ofNat 16 (size am))])
        (withRegs r bus) =
      (writeAll b bus (shiftEffect r am e s c).writes).map
        (withRegs (shiftEffect r am e s c).regs) := by
  cases am
  all_goals
    simp only [shiftCode, shiftEffect, List.cons_append, List.nil_append, exec_write, executeAll,
      executeMut, write8, setFlag, withRegs, bind_ok_map, Res.ok_bind, Except.map, Operand.new,
      Operand.unwrap, Operand.withFlags, setNZ, msbSet_eq, beq_zero_eq, add_size, nextPc, writeAll,
      writeMemory]
  all_goals rcases Addressable.write b bus e s with _ | ⟨_ | _, _⟩ <;> rfl

theorem sp_sub_2 (v : Byte) : v - 1 - 1 = v - 2 := by revert v; decide +kernel

theorem sp_sub_3 (v : Byte) : v - 1 - 1 - 1 = v - 3 := by revert v; decide +kernel

theorem sp_add_3 (v : Byte) : v + 1 + 2 = v + 3 := by revert v; decide +kernel

theorem exec_code (r : Regs) (bus : B) (mem : Mem) (mn : Mnemonic) (am : AddrMode) :
    executeAll b ((code r mem mn am).microcode ++
        [.Inc16bitRegister .Pc (BitVec.ofNat 16 (code r mem mn am).offset)]) (withRegs r bus) =
      (writeAll b bus (codeEffect r mem mn am).writes).map
        (withRegs (codeEffect r mem mn am).regs) := by
  cases mn
  all_goals
    simp only [code, codeMcs, codeOffset, codeEffect, nzCode, arithCode, arithRegs, compareCode,
      compareRegs, List.cons_append, List.nil_append, exec_write, writeAll_cons, executeAll,
      executeMut, write8, inc8, dec8, setFlag, withRegs, map_bind, bind_ok_map, Res.ok_bind, Except.map,
      Operand.new, Operand.unwrap, Operand.sub, Operand.withFlags, setNZ, msbSet_eq, beq_zero_eq,
      add_size, nextPc, stackPointerFromByteValue_eq, BitVec.add_zero, bitIsSet_6, bitIsSet_7,
      writeAll]
  case Bcc => exact exec_branch r bus am _
  case Bcs => exact exec_branch r bus am _
  case Beq => exact exec_branch r bus am _
  case Bmi => exact exec_branch r bus am _
  case Bne => exact exec_branch r bus am _
  case Bpl => exact exec_branch r bus am _
  case Bvc => exact exec_branch r bus am _
  case Bvs => exact exec_branch r bus am _
  case Asl => rw [← bitIsSet_7]; exact exec_shift r bus am _ _ _
  case Lsr => rw [← bitIsSet_0]; exact exec_shift r bus am _ _ _
  case Rol => rw [← bitIsSet_7]; exact exec_shift r bus am _ _ _
  case Ror => rw [← bitIsSet_0]; exact exec_shift r bus am _ _ _
  case Rti => rw [sp_add_3]
  case Dec =>
    simp only [writeMemory]
    rcases Addressable.write b bus (ea r mem am) (operand r mem am - 1) with _ | ⟨_ | _, _⟩ <;> rfl
  case Inc =>
    simp only [writeMemory]
    rcases Addressable.write b bus (ea r mem am) (operand r mem am + 1) with _ | ⟨_ | _, _⟩ <;> rfl
  case Jsr =>
    simp only [writeMemory]
    rcases Addressable.write b bus (stack r.sp.toNat) (u16ToLeBytes (r.pc + 2)).2 with _ | ⟨_ | _, s1⟩
    · rfl
    · rfl
    · simp only [Except.bind]
      rcases Addressable.write b s1 (stack (r.sp - 1).toNat) (u16ToLeBytes (r.pc + 2)).1 with
        _ | ⟨_ | _, s2⟩
      · rfl
      · rfl
      · simp only [unwrapResult, Res.ok_bind, sp_sub_2]
  case Brk =>
    simp only [writeMemory]
    rcases Addressable.write b bus (stack r.sp.toNat) (u16ToLeBytes (r.pc + 1)).1 with _ | ⟨_ | _, s1⟩
    · rfl
    · rfl
    · simp only [unwrapResult, Res.ok_bind, Except.bind]
      rcases Addressable.write b s1 (stack (r.sp - 1).toNat) (u16ToLeBytes (r.pc + 1)).2 with
        _ | ⟨_ | _, s2⟩
      · rfl
      · rfl
      · simp only [unwrapResult, Res.ok_bind]
        rcases Addressable.write b s2 (stack (r.sp - 2).toNat) r.p.read with _ | ⟨_ | _, s3⟩
        · rfl
        · rfl
        · simp only [unwrapResult, Res.ok_bind, sp_sub_3]

end

end Verif.Mos
