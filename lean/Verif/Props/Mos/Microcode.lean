import Verif.Spec.MosMicrocode
import Verif.Props.Mos.Status

/-!
# Property C89: what the microcode operations of the 6502 do
-/

namespace Verif.Props

open Verif Verif.Mos Verif.Spec.Mos

variable {B : Type} [Addressable B] {b : Build} {cpu : Mos6502 B}

omit [Addressable B] in
private theorem byteOf_ps (cpu : Mos6502 B) : byteOf cpu .Ps = cpu.ps.read.toNat :=
  (C11_layout cpu.ps).symm

omit [Addressable B] in
/-- The bus, the program counter and the numbers in the byte registers are the whole CPU: a
statement about them says everything. -/
theorem C89_complete {cpu cpu' : Mos6502 B} (h₁ : cpu'.address_map = cpu.address_map)
    (h₂ : cpu'.pc = cpu.pc) (h₃ : ∀ q, byteOf cpu' q = byteOf cpu q) : cpu' = cpu := by
  obtain ⟨m, a, x, y, s, p, f⟩ := cpu
  obtain ⟨m', a', x', y', s', p', f'⟩ := cpu'
  have ha := BitVec.eq_of_toNat_eq (h₃ .Acc)
  have hx := BitVec.eq_of_toNat_eq (h₃ .X)
  have hy := BitVec.eq_of_toNat_eq (h₃ .Y)
  have hs := BitVec.eq_of_toNat_eq (h₃ .Sp)
  have hf : f' = f := C11_bijection.1 (BitVec.eq_of_toNat_eq (by
    rw [C11_layout, C11_layout]; exact h₃ .Ps))
  simp only at h₁ h₂ ha hx hy hs
  subst h₁ h₂ ha hx hy hs hf
  rfl

/-- A write puts the value in the register and changes nothing else. -/
theorem C89_write8 (r : ByteRegisters) (v : Byte) :
    ∃ cpu', executeMut b cpu (.Write8bitRegister r v) = .ok cpu' ∧
      byteOf cpu' r = v.toNat ∧ OnlyByte r cpu cpu' := by
  refine ⟨_, rfl, ?_⟩
  cases r <;> refine ⟨?_, rfl, rfl, fun q hq => by cases q <;> first | rfl | exact absurd rfl hq⟩
  case Ps => rw [byteOf_ps]; exact congrArg _ (C11_byte_round_trip v)
  all_goals rfl

/-- An increment adds modulo 256 and changes nothing else. -/
theorem C89_inc8 (r : ByteRegisters) (v : Byte) :
    ∃ cpu', executeMut b cpu (.Inc8bitRegister r v) = .ok cpu' ∧
      byteOf cpu' r = (byteOf cpu r + v.toNat) % 256 ∧ OnlyByte r cpu cpu' := by
  refine ⟨_, rfl, ?_⟩
  cases r <;> refine ⟨?_, rfl, rfl, fun q hq => by cases q <;> first | rfl | exact absurd rfl hq⟩
  case Ps =>
    rw [byteOf_ps, byteOf_ps, ← BitVec.toNat_add]
    exact congrArg _ (C11_byte_round_trip _)
  all_goals exact BitVec.toNat_add _ _

/-- A decrement subtracts modulo 256 and changes nothing else. -/
theorem C89_dec8 (r : ByteRegisters) (v : Byte) :
    ∃ cpu', executeMut b cpu (.Dec8bitRegister r v) = .ok cpu' ∧
      (byteOf cpu' r + v.toNat) % 256 = byteOf cpu r ∧ OnlyByte r cpu cpu' := by
  refine ⟨_, rfl, ?_⟩
  have key : ∀ x : Byte, ((x - v).toNat + v.toNat) % 256 = x.toNat := fun x => by
    have := x.isLt
    have := v.isLt
    rw [BitVec.toNat_sub]
    omega
  cases r <;> refine ⟨?_, rfl, rfl, fun q hq => by cases q <;> first | rfl | exact absurd rfl hq⟩
  case Ps =>
    rw [byteOf_ps, byteOf_ps]
    exact (congrArg (fun x : Byte => (x.toNat + v.toNat) % 256) (C11_byte_round_trip _)).trans (key _)
  all_goals exact key _

/-- Setting a flag sets its bit of the status byte and keeps the other seven. -/
theorem C89_flag (f : ProgramStatusFlags) (v : Bool) :
    ∃ cpu', executeMut b cpu (.SetProgramStatusFlagState f v) = .ok cpu' ∧ OnlyByte .Ps cpu cpu' ∧
      ∀ k < 8, (byteOf cpu' .Ps).testBit k =
        if k = flagPlace f then v else (byteOf cpu .Ps).testBit k := by
  refine ⟨_, rfl, ?_, ?_⟩
  · cases f <;> refine ⟨rfl, rfl, fun q hq => by cases q <;> first | rfl | exact absurd rfl hq⟩
  · obtain ⟨m, a, x, y, s, p, ⟨c, z, i, d, k, u, o, n⟩⟩ := cpu
    have : ∀ (f : ProgramStatusFlags) (v c z i d k u o n : Bool), ∀ j < 8,
        (byteOf (setFlag (⟨(), 0, 0, 0, 0, 0, ⟨c, z, i, d, k, u, o, n⟩⟩ : Mos6502 Unit) f v) .Ps).testBit j
          = if j = flagPlace f then v else
            (byteOf (⟨(), 0, 0, 0, 0, 0, ⟨c, z, i, d, k, u, o, n⟩⟩ : Mos6502 Unit) .Ps).testBit j := by
      intro f v
      cases f <;> revert v <;> decide +kernel
    intro j hj
    have := this f v c z i d k u o n j hj
    cases f <;> exact this

/-- The program counter is written, and counts modulo 65536. -/
theorem C89_pc (v : Word) :
    (∃ cpu', executeMut b cpu (.Write16bitRegister .Pc v) = .ok cpu' ∧
      cpu'.pc.toNat = v.toNat ∧ OnlyPc cpu cpu') ∧
    (∃ cpu', executeMut b cpu (.Inc16bitRegister .Pc v) = .ok cpu' ∧
      cpu'.pc.toNat = (cpu.pc.toNat + v.toNat) % 65536 ∧ OnlyPc cpu cpu') ∧
    (∃ cpu', executeMut b cpu (.Dec16bitRegister .Pc v) = .ok cpu' ∧
      (cpu'.pc.toNat + v.toNat) % 65536 = cpu.pc.toNat ∧ OnlyPc cpu cpu') := by
  have hf : ∀ w : Word, OnlyPc cpu { cpu with pc := w } := fun w => ⟨rfl, fun q => by cases q <;> rfl⟩
  refine ⟨⟨_, rfl, rfl, hf _⟩, ⟨_, rfl, BitVec.toNat_add _ _, hf _⟩, ⟨_, rfl, ?_, hf _⟩⟩
  have := cpu.pc.isLt
  have := v.isLt
  show ((cpu.pc - v).toNat + v.toNat) % 65536 = _
  rw [BitVec.toNat_sub]
  omega

/-- A memory write asks the bus once and keeps the registers; when the bus refuses or panics, so
does the operation. -/
theorem C89_memory (a : Word) (v : Byte) :
    match Addressable.write b cpu.address_map a v with
    | .error p => executeMut b cpu (.WriteMemory a v) = .error p
    | .ok (.error e, _) => executeMut b cpu (.WriteMemory a v) = .error (.unwrapErr e)
    | .ok (.ok _, bus) => ∃ cpu', executeMut b cpu (.WriteMemory a v) = .ok cpu' ∧
        cpu'.address_map = bus ∧ OnlyBus cpu cpu' := by
  simp only [executeMut, writeMemory]
  cases Addressable.write b cpu.address_map a v with
  | error p => rfl
  | ok x =>
    obtain ⟨r, bus⟩ := x
    cases r with
    | error e => rfl
    | ok u => exact ⟨_, rfl, rfl, rfl, fun q => by cases q <;> rfl⟩

/-- Adding and then taking away the same number restores the CPU. -/
theorem C89_inc_dec (r : ByteRegisters) (v : Byte) (w : Word) :
    executeAll b [.Inc8bitRegister r v, .Dec8bitRegister r v, .Inc16bitRegister .Pc w,
      .Dec16bitRegister .Pc w] cpu = .ok cpu := by
  obtain ⟨c₁, h₁, e₁, o₁⟩ := C89_inc8 (b := b) (cpu := cpu) r v
  obtain ⟨c₂, h₂, e₂, o₂⟩ := C89_dec8 (b := b) (cpu := c₁) r v
  have hlt : ∀ (c : Mos6502 B) q, byteOf c q < 256 := fun c q => by
    cases q
    case Ps => rw [byteOf_ps]; exact BitVec.isLt _
    all_goals exact BitVec.isLt _
  have h : c₂ = cpu := by
    refine C89_complete (o₂.1.trans o₁.1) (o₂.2.1.trans o₁.2.1) fun q => ?_
    by_cases hq : q = r
    · subst hq
      have := hlt c₂ q
      have := hlt cpu q
      have := v.isLt
      omega
    · rw [o₂.2.2 q hq, o₁.2.2 q hq]
  subst h
  simp only [executeAll]
  rw [h₁, Res.ok_bind, h₂, Res.ok_bind]
  show Except.ok { c₂ with pc := c₂.pc + w - w } = _
  rw [BitVec.add_sub_cancel]

/-- What a list of operations does not name stays, if the list completes. -/
theorem C89_frame {mcs : List Microcode} {cpu' : Mos6502 B} (h : executeAll b mcs cpu = .ok cpu') :
    ((∀ mc ∈ mcs, target mc ≠ .memory) → cpu'.address_map = cpu.address_map) ∧
    ((∀ mc ∈ mcs, target mc ≠ .pc) → cpu'.pc = cpu.pc) ∧
    (∀ r, (∀ mc ∈ mcs, ¬ Clash (target mc) (.byte r)) → byteOf cpu' r = byteOf cpu r) ∧
    (∀ f, (∀ mc ∈ mcs, ¬ Clash (target mc) (.flag f)) →
      (byteOf cpu' .Ps).testBit (flagPlace f) = (byteOf cpu .Ps).testBit (flagPlace f)) := by
  induction mcs generalizing cpu with
  | nil => cases h; exact ⟨fun _ => rfl, fun _ => rfl, fun _ _ => rfl, fun _ _ => rfl⟩
  | cons mc mcs ih =>
    simp only [executeAll] at h
    cases h₁ : executeMut b cpu mc with
    | error p => rw [h₁] at h; cases h
    | ok c =>
      rw [h₁] at h
      obtain ⟨i₁, i₂, i₃, i₄⟩ := ih h
      have step : ((target mc ≠ .memory) → c.address_map = cpu.address_map) ∧
          ((target mc ≠ .pc) → c.pc = cpu.pc) ∧
          (∀ r, ¬ Clash (target mc) (.byte r) → byteOf c r = byteOf cpu r) ∧
          (∀ f, ¬ Clash (target mc) (.flag f) →
            (byteOf c .Ps).testBit (flagPlace f) = (byteOf cpu .Ps).testBit (flagPlace f)) := by
        have hbyte : ∀ {r : ByteRegisters}, target mc = .byte r → OnlyByte r cpu c →
            ((target mc ≠ .memory) → c.address_map = cpu.address_map) ∧
            ((target mc ≠ .pc) → c.pc = cpu.pc) ∧
            (∀ r, ¬ Clash (target mc) (.byte r) → byteOf c r = byteOf cpu r) ∧
            (∀ f, ¬ Clash (target mc) (.flag f) →
              (byteOf c .Ps).testBit (flagPlace f) = (byteOf cpu .Ps).testBit (flagPlace f)) := by
          intro r ht o
          rw [ht]
          refine ⟨fun _ => o.1, fun _ => o.2.1, fun q hq => o.2.2 q fun e => hq ?_, fun f hf => ?_⟩
          · subst e; cases q <;> rfl
          · rw [o.2.2 .Ps]
            intro e
            subst e
            exact hf trivial
        have hpc : target mc = .pc → OnlyPc cpu c →
            ((target mc ≠ .memory) → c.address_map = cpu.address_map) ∧
            ((target mc ≠ .pc) → c.pc = cpu.pc) ∧
            (∀ r, ¬ Clash (target mc) (.byte r) → byteOf c r = byteOf cpu r) ∧
            (∀ f, ¬ Clash (target mc) (.flag f) →
              (byteOf c .Ps).testBit (flagPlace f) = (byteOf cpu .Ps).testBit (flagPlace f)) := by
          intro ht o
          refine ⟨fun _ => o.1, fun hne => absurd ht hne, fun q _ => o.2 q, fun f _ => by rw [o.2]⟩
        cases mc with
        | WriteMemory a v =>
          have := C89_memory (b := b) (cpu := cpu) a v
          rw [h₁] at this
          split at this
          · cases this
          · cases this
          · obtain ⟨c', hc, -, o⟩ := this
            cases hc
            exact ⟨fun hne => absurd rfl hne, fun _ => o.1, fun q _ => o.2 q, fun f _ => by rw [o.2]⟩
        | SetProgramStatusFlagState f v =>
          obtain ⟨c', hc, o, hb⟩ := C89_flag (b := b) (cpu := cpu) f v
          cases h₁.symm.trans hc
          refine ⟨fun _ => o.1, fun _ => o.2.1, fun q hq => o.2.2 q fun e => hq ?_, fun g hg => ?_⟩
          · subst e; trivial
          · rw [hb _ (by cases g <;> decide), if_neg]
            intro e
            apply hg
            cases f <;> cases g <;> first | rfl | exact absurd e (by decide)
        | Write8bitRegister r v =>
          obtain ⟨c', hc, -, o⟩ := C89_write8 (b := b) (cpu := cpu) r v
          cases h₁.symm.trans hc
          exact hbyte rfl o
        | Inc8bitRegister r v =>
          obtain ⟨c', hc, -, o⟩ := C89_inc8 (b := b) (cpu := cpu) r v
          cases h₁.symm.trans hc
          exact hbyte rfl o
        | Dec8bitRegister r v =>
          obtain ⟨c', hc, -, o⟩ := C89_dec8 (b := b) (cpu := cpu) r v
          cases h₁.symm.trans hc
          exact hbyte rfl o
        | Write16bitRegister r v =>
          cases r
          obtain ⟨⟨c', hc, -, o⟩, -, -⟩ := C89_pc (b := b) (cpu := cpu) v
          cases h₁.symm.trans hc
          exact hpc rfl o
        | Inc16bitRegister r v =>
          cases r
          obtain ⟨-, ⟨c', hc, -, o⟩, -⟩ := C89_pc (b := b) (cpu := cpu) v
          cases h₁.symm.trans hc
          exact hpc rfl o
        | Dec16bitRegister r v =>
          cases r
          obtain ⟨-, -, ⟨c', hc, -, o⟩⟩ := C89_pc (b := b) (cpu := cpu) v
          cases h₁.symm.trans hc
          exact hpc rfl o
      obtain ⟨s₁, s₂, s₃, s₄⟩ := step
      refine ⟨fun hm => (i₁ fun m hm' => hm m (List.mem_cons_of_mem _ hm')).trans (s₁ (hm mc List.mem_cons_self)),
        fun hm => (i₂ fun m hm' => hm m (List.mem_cons_of_mem _ hm')).trans (s₂ (hm mc List.mem_cons_self)),
        fun r hm => (i₃ r fun m hm' => hm m (List.mem_cons_of_mem _ hm')).trans (s₃ r (hm mc List.mem_cons_self)),
        fun f hm => (i₄ f fun m hm' => hm m (List.mem_cons_of_mem _ hm')).trans (s₄ f (hm mc List.mem_cons_self))⟩

/-- Operations on different targets can be swapped, also when the bus refuses one. -/
theorem C89_commute {m₁ m₂ : Microcode} (h : ¬ Clash (target m₁) (target m₂)) :
    executeAll b [m₁, m₂] cpu = executeAll b [m₂, m₁] cpu := by
  have hmem : ∀ (a : Word) (v : Byte) (g : Mos6502 B → Mos6502 B)
      (_ : ∀ (c : Mos6502 B) (m : B), g { c with address_map := m } = { g c with address_map := m })
      (_ : ∀ c, (g c).address_map = c.address_map),
      ((writeMemory b cpu a v).bind fun c => Except.ok (g c)) = writeMemory b (g cpu) a v := by
    intro a v g hg hg'
    simp only [writeMemory, hg']
    cases Addressable.write b cpu.address_map a v with
    | error p => rfl
    | ok x =>
      obtain ⟨r, bus⟩ := x
      cases r with
      | error e => rfl
      | ok u => exact congrArg Except.ok (hg _ _)
  have hbind : ∀ (x : Res (Mos6502 B)), (x.bind fun c => Except.ok c) = x := fun x => by
    cases x <;> rfl
  have L : ∀ (a : Word) (v : Byte) (m : Microcode) (g : Mos6502 B → Mos6502 B)
      (_ : ∀ c, executeMut b c m = .ok (g c))
      (_ : ∀ (c : Mos6502 B) (m : B), g { c with address_map := m } = { g c with address_map := m })
      (_ : ∀ c, (g c).address_map = c.address_map),
      executeAll b [.WriteMemory a v, m] cpu = executeAll b [m, .WriteMemory a v] cpu := by
    intro a v m g hm hg hg'
    have h₁ : executeAll b [.WriteMemory a v, m] cpu =
        (writeMemory b cpu a v).bind fun c => Except.ok (g c) := by
      simp only [executeAll, hm]
      show (writeMemory b cpu a v).bind _ = _
      cases writeMemory b cpu a v <;> rfl
    have h₂ : executeAll b [m, .WriteMemory a v] cpu = writeMemory b (g cpu) a v := by
      simp only [executeAll, hm, Res.ok_bind]
      exact hbind _
    rw [h₁, h₂, hmem a v g hg hg']
  cases m₁ with
  | WriteMemory a v =>
    cases m₂ with
    | WriteMemory a' v' => exact absurd rfl h
    | SetProgramStatusFlagState f w => refine L a v _ _ (fun c => rfl) ?_ ?_ <;> cases f <;> intros <;> rfl
    | Write8bitRegister r w => refine L a v _ _ (fun c => rfl) ?_ ?_ <;> cases r <;> intros <;> rfl
    | Inc8bitRegister r w => refine L a v _ _ (fun c => rfl) ?_ ?_ <;> cases r <;> intros <;> rfl
    | Dec8bitRegister r w => refine L a v _ _ (fun c => rfl) ?_ ?_ <;> cases r <;> intros <;> rfl
    | Write16bitRegister r w => cases r; exact L a v _ (fun c => { c with pc := w }) (fun c => rfl) (fun _ _ => rfl) (fun _ => rfl)
    | Inc16bitRegister r w => cases r; exact L a v _ (fun c => { c with pc := c.pc + w }) (fun c => rfl) (fun _ _ => rfl) (fun _ => rfl)
    | Dec16bitRegister r w => cases r; exact L a v _ (fun c => { c with pc := c.pc - w }) (fun c => rfl) (fun _ _ => rfl) (fun _ => rfl)
  | SetProgramStatusFlagState f w =>
    cases m₂ with
    | WriteMemory a v => symm; refine L a v _ _ (fun c => rfl) ?_ ?_ <;> cases f <;> intros <;> rfl
    | SetProgramStatusFlagState f' w' => cases f <;> cases f' <;> first | rfl | exact absurd rfl h
    | Write8bitRegister r _ => cases f <;> cases r <;> first | rfl | exact absurd trivial h
    | Inc8bitRegister r _ => cases f <;> cases r <;> first | rfl | exact absurd trivial h
    | Dec8bitRegister r _ => cases f <;> cases r <;> first | rfl | exact absurd trivial h
    | Write16bitRegister r _ => cases r; cases f <;> rfl
    | Inc16bitRegister r _ => cases r; cases f <;> rfl
    | Dec16bitRegister r _ => cases r; cases f <;> rfl
  | Write8bitRegister r w =>
    cases m₂ with
    | WriteMemory a v => symm; refine L a v _ _ (fun c => rfl) ?_ ?_ <;> cases r <;> intros <;> rfl
    | SetProgramStatusFlagState f _ => cases f <;> cases r <;> first | rfl | exact absurd trivial h
    | Write8bitRegister r' _ => cases r <;> cases r' <;> first | rfl | exact absurd rfl h
    | Inc8bitRegister r' _ => cases r <;> cases r' <;> first | rfl | exact absurd rfl h
    | Dec8bitRegister r' _ => cases r <;> cases r' <;> first | rfl | exact absurd rfl h
    | Write16bitRegister r' _ => cases r'; cases r <;> rfl
    | Inc16bitRegister r' _ => cases r'; cases r <;> rfl
    | Dec16bitRegister r' _ => cases r'; cases r <;> rfl
  | Inc8bitRegister r w =>
    cases m₂ with
    | WriteMemory a v => symm; refine L a v _ _ (fun c => rfl) ?_ ?_ <;> cases r <;> intros <;> rfl
    | SetProgramStatusFlagState f _ => cases f <;> cases r <;> first | rfl | exact absurd trivial h
    | Write8bitRegister r' _ => cases r <;> cases r' <;> first | rfl | exact absurd rfl h
    | Inc8bitRegister r' _ => cases r <;> cases r' <;> first | rfl | exact absurd rfl h
    | Dec8bitRegister r' _ => cases r <;> cases r' <;> first | rfl | exact absurd rfl h
    | Write16bitRegister r' _ => cases r'; cases r <;> rfl
    | Inc16bitRegister r' _ => cases r'; cases r <;> rfl
    | Dec16bitRegister r' _ => cases r'; cases r <;> rfl
  | Dec8bitRegister r w =>
    cases m₂ with
    | WriteMemory a v => symm; refine L a v _ _ (fun c => rfl) ?_ ?_ <;> cases r <;> intros <;> rfl
    | SetProgramStatusFlagState f _ => cases f <;> cases r <;> first | rfl | exact absurd trivial h
    | Write8bitRegister r' _ => cases r <;> cases r' <;> first | rfl | exact absurd rfl h
    | Inc8bitRegister r' _ => cases r <;> cases r' <;> first | rfl | exact absurd rfl h
    | Dec8bitRegister r' _ => cases r <;> cases r' <;> first | rfl | exact absurd rfl h
    | Write16bitRegister r' _ => cases r'; cases r <;> rfl
    | Inc16bitRegister r' _ => cases r'; cases r <;> rfl
    | Dec16bitRegister r' _ => cases r'; cases r <;> rfl
  | Write16bitRegister r w =>
    cases r
    cases m₂ with
    | WriteMemory a v => symm; exact L a v _ (fun c => { c with pc := w }) (fun c => rfl) (fun _ _ => rfl) (fun _ => rfl)
    | SetProgramStatusFlagState f _ => cases f <;> rfl
    | Write8bitRegister r' _ => cases r' <;> rfl
    | Inc8bitRegister r' _ => cases r' <;> rfl
    | Dec8bitRegister r' _ => cases r' <;> rfl
    | Write16bitRegister r' _ => cases r'; exact absurd rfl h
    | Inc16bitRegister r' _ => cases r'; exact absurd rfl h
    | Dec16bitRegister r' _ => cases r'; exact absurd rfl h
  | Inc16bitRegister r w =>
    cases r
    cases m₂ with
    | WriteMemory a v => symm; exact L a v _ (fun c => { c with pc := c.pc + w }) (fun c => rfl) (fun _ _ => rfl) (fun _ => rfl)
    | SetProgramStatusFlagState f _ => cases f <;> rfl
    | Write8bitRegister r' _ => cases r' <;> rfl
    | Inc8bitRegister r' _ => cases r' <;> rfl
    | Dec8bitRegister r' _ => cases r' <;> rfl
    | Write16bitRegister r' _ => cases r'; exact absurd rfl h
    | Inc16bitRegister r' _ => cases r'; exact absurd rfl h
    | Dec16bitRegister r' _ => cases r'; exact absurd rfl h
  | Dec16bitRegister r w =>
    cases r
    cases m₂ with
    | WriteMemory a v => symm; exact L a v _ (fun c => { c with pc := c.pc - w }) (fun c => rfl) (fun _ _ => rfl) (fun _ => rfl)
    | SetProgramStatusFlagState f _ => cases f <;> rfl
    | Write8bitRegister r' _ => cases r' <;> rfl
    | Inc8bitRegister r' _ => cases r' <;> rfl
    | Dec8bitRegister r' _ => cases r' <;> rfl
    | Write16bitRegister r' _ => cases r'; exact absurd rfl h
    | Inc16bitRegister r' _ => cases r'; exact absurd rfl h
    | Dec16bitRegister r' _ => cases r'; exact absurd rfl h

/-- A CPU with an empty bus, which refuses every write; the status byte is 0xb0. -/
private def bare : Mos6502 (AddressMap Memory) :=
  ⟨AddressMap.new, 0x12, 0xff, 0, 0xfd, 0xffff, ⟨false, false, false, false, true, true, false, true⟩⟩

/-- Increments and decrements around the end of the range. -/
example : byteOf bare .Ps = 0xb0 ∧
    (executeAll .debug [.Inc8bitRegister .Ps 0x90, .Inc8bitRegister .X 2, .Dec8bitRegister .Y 1,
      .Inc16bitRegister .Pc 3, .SetProgramStatusFlagState .Carry true] bare).map
        (fun c => (byteOf c .Ps, c.acc, c.x, c.y, c.sp, c.pc)) =
      .ok (0x41, 0x12, 0x01, 0xff, 0xfd, 0x0002) := by
  constructor <;> decide +kernel

/-- A refused write, and its swap with an operation on another target. -/
example : ¬ Clash (target (.WriteMemory 0x0200 1)) (target (.Inc8bitRegister .Ps 1)) ∧
    (executeAll .debug [.WriteMemory 0x0200 1, .Inc8bitRegister .Ps 1] bare).map (byteOf · .Ps) =
      .error (.unwrapErr "address space 512 unallocated") := by
  constructor
  · exact fun h => nomatch h
  · decide +kernel

/-- Operations on the status register and on a flag do not commute: they clash. -/
example : Clash (target (.Inc8bitRegister .Ps 1)) (target (.SetProgramStatusFlagState .Carry true)) ∧
    (executeAll .debug [.Inc8bitRegister .Ps 1, .SetProgramStatusFlagState .Carry true] bare).map
      (byteOf · .Ps) = .ok 0xb1 ∧
    (executeAll .debug [.SetProgramStatusFlagState .Carry true, .Inc8bitRegister .Ps 1] bare).map
      (byteOf · .Ps) = .ok 0xb2 :=
  ⟨trivial, by decide +kernel, by decide +kernel⟩

end Verif.Props
