import Verif.Proofs.MosStack
import Verif.Spec.MosRef

/-!
# The emulator's effects against the reference machine's
-/

namespace Verif.Mos

open Verif Verif.Spec.Mos

set_option linter.unusedSimpArgs false

theorem operand_chip (r : Regs) (mem : Mem) (am : AddrMode) :
    operand (chip r) mem am = operand r mem am := by cases am <;> rfl

theorem ea_chip (r : Regs) (mem : Mem) (am : AddrMode) : ea (chip r) mem am = ea r mem am := by
  cases am <;> rfl

theorem nextPc_chip (r : Regs) (am : AddrMode) : nextPc (chip r) am = nextPc r am := rfl

theorem byte_sub (x : Byte) (n : Nat) (hn : n ≤ 255) :
    x - BitVec.ofNat 8 n = byte (x.toNat + (256 - n)) := by
  apply BitVec.eq_of_toNat_eq; rw [toNat_sub_byte x n hn, toNat_byte]

theorem byte_plus (x : Byte) (n : Nat) (hn : n ≤ 255) :
    x + BitVec.ofNat 8 n = byte (x.toNat + n) := by
  apply BitVec.eq_of_toNat_eq; rw [toNat_add_byte x n hn, toNat_byte]

theorem stack_sub (x : Byte) (n : Nat) (hn : n ≤ 255) :
    stack (x - BitVec.ofNat 8 n).toNat = stack (x.toNat + (256 - n)) := by
  rw [toNat_sub_byte x n hn]; exact stack_congr (by omega)

theorem stack_plus (x : Byte) (n : Nat) (hn : n ≤ 255) :
    stack (x + BitVec.ofNat 8 n).toNat = stack (x.toNat + n) := by
  rw [toNat_add_byte x n hn]; exact stack_congr (by omega)

theorem withValue_chip (v : Byte) :
    { ProcessorStatus.withValue v with brk := true, unused := true } = ofStatusByte v := by
  revert v; decide +kernel

theorem read_status (p : ProcessorStatus) :
    p.read = statusByte p ↔ p.brk = true ∧ p.unused = true := by
  obtain ⟨c, z, i, d, k, u, o, n⟩ := p
  revert c z i d k u o n; decide +kernel

theorem decide_lsb7 (v : Byte) : decide (128 ≤ v.toNat) = v.getLsbD 7 := by
  revert v; decide +kernel

theorem decide_lsb6 (v : Byte) : decide (64 ≤ v.toNat % 128) = v.getLsbD 6 := by
  revert v; decide +kernel

theorem ret_hi (w : Word) (n : Nat) (hn : n < 65536) :
    (u16ToLeBytes (w + BitVec.ofNat 16 n)).2 = byte ((w.toNat + n) % 65536 / 256) := by
  rw [(hi_lo_word _).1, BitVec.toNat_add, BitVec.toNat_ofNat, Nat.mod_eq_of_lt (a := n) (by omega)]

theorem ret_lo (w : Word) (n : Nat) (hn : n < 65536) :
    (u16ToLeBytes (w + BitVec.ofNat 16 n)).1 = byte (w.toNat + n) := by
  rw [(hi_lo_word _).2, BitVec.toNat_add, BitVec.toNat_ofNat, Nat.mod_eq_of_lt (a := n) (by omega)]
  apply BitVec.eq_of_toNat_eq; rw [toNat_byte, toNat_byte]; omega

theorem dey_nz (x y : Byte) (p : ProcessorStatus) :
    setNZ p (byte (x.toNat + 255)) = setNZ p (byte (y.toNat + 255)) ↔
      (x.toNat = 1 ↔ y.toNat = 1) ∧
      (x.toNat = 0 ∨ 129 ≤ x.toNat ↔ y.toNat = 0 ∨ 129 ≤ y.toNat) := by
  have hx := x.isLt
  have hy := y.isLt
  simp only [setNZ, ProcessorStatus.mk.injEq, toNat_byte, true_and, decide_eq_decide]
  omega

theorem le_word (mem : Mem) (a c : Nat) (h : Word) (l : Word) (hl : l = word a) (hh : h = word c) :
    u16FromLeBytes (mem l) (mem h) = word (le mem a c) := by
  subst hl hh
  apply BitVec.eq_of_toNat_eq
  rw [toNat_u16FromLeBytes, toNat_word]
  have := (mem (word a)).isLt
  have := (mem (word c)).isLt
  simp only [le]
  omega

theorem u16_word (lo hi : Byte) (n : Nat) :
    u16FromLeBytes lo hi + BitVec.ofNat 16 n = word (lo.toNat + 256 * hi.toNat + n) := by
  apply BitVec.eq_of_toNat_eq
  rw [BitVec.toNat_add, toNat_u16FromLeBytes, toNat_word, BitVec.toNat_ofNat]
  omega

theorem word_succ_ne (n : Nat) : word (n + 1) ≠ word n := by
  intro h
  have := congrArg BitVec.toNat h
  rw [toNat_word, toNat_word] at this
  omega

/-- BRK never stores the documented return address. -/
theorem brk_return_ne (w : Nat) (h1 : byte (w + 1) = byte ((w + 2) % 65536 / 256))
    (h2 : byte ((w + 1) % 65536 / 256) = byte (w + 2)) : False := by
  have e1 := congrArg BitVec.toNat h1
  have e2 := congrArg BitVec.toNat h2
  rw [toNat_byte, toNat_byte] at e1 e2
  generalize hv : (w + 1) % 65536 = v at e2
  have f1 : (w + 1) % 256 = v % 256 := by omega
  have f2 : (w + 2) % 256 = (v + 1) % 256 := by omega
  have f3 : (w + 2) % 65536 = (v + 1) % 65536 := by omega
  rw [f1, f3] at e1
  rw [f2] at e2
  by_cases hl : v = 65535
  · subst hl; simp at e1
  · rw [Nat.mod_eq_of_lt (by omega : v + 1 < 65536)] at e1
    have hlt : v < 65536 := by omega
    have g1 : (v + 1) / 256 < 256 := by omega
    have g2 : v / 256 < 256 := by omega
    rw [Nat.mod_eq_of_lt g1] at e1
    rw [Nat.mod_eq_of_lt g2] at e2
    clear f1 f2 f3 hv
    by_cases hl : v % 256 = 255 <;> omega

theorem view_implied {i : InstructionVariant} {mn : Mnemonic} {am : AddrMode}
    (hi : view i = (mn, am)) (h : mn = .Rti ∨ mn = .Rts ∨ mn = .Brk) : am = .implied := by
  rcases h with rfl | rfl | rfl <;> cases i <;>
    simp only [view, Prod.mk.injEq, reduceCtorEq, false_and, true_and] at hi <;> exact hi.symm

theorem shiftTo_eq {r : Regs} {mem : Mem} {am : AddrMode} {v : Byte} {c : Bool} {e : Effect}
    (h : shiftTo (chip r) mem am (some (v, c)) = some e) :
    chip (shiftEffect r am (ea r mem am) v c).regs = e.regs ∧
      (shiftEffect r am (ea r mem am) v c).writes = e.writes := by
  simp only [shiftTo] at h
  by_cases ha : am = .accumulator
  · subst ha
    rw [if_pos rfl, Option.some.injEq] at h
    subst h
    exact ⟨rfl, rfl⟩
  · rw [if_neg ha, Option.some.injEq] at h
    subst h
    rw [shiftEffect_mem ha, ea_chip]
    exact ⟨rfl, rfl⟩

theorem branchTo_iff {r : Regs} {mem : Mem} {am : AddrMode} {t : Bool} {e : Effect}
    (h : branchTo (chip r) am (some t) = some e) :
    (chip (branchEffect r am t).regs = e.regs ∧
      store mem (branchEffect r am t).writes = store mem e.writes) ↔ t = false := by
  cases am <;> simp only [branchTo, Option.some.injEq, reduceCtorEq] at h
  subst h
  cases t
  · exact ⟨fun _ => rfl, fun _ => ⟨rfl, rfl⟩⟩
  · constructor
    · intro h
      exact absurd (congrArg Regs.pc h.1) (codeTarget_ne r.pc _)
    · intro h; cases h

theorem chip_inj {r s : Regs} (h1 : r.p.brk = s.p.brk) (h2 : r.p.unused = s.p.unused) :
    chip r = chip s ↔ r = s := by
  constructor
  · intro h
    obtain ⟨a, x, y, sp, pc, ⟨c, z, i, d, k, u, o, n⟩⟩ := r
    obtain ⟨a', x', y', sp', pc', ⟨c', z', i', d', k', u', o', n'⟩⟩ := s
    simp only [chip, Regs.mk.injEq, ProcessorStatus.mk.injEq] at h h1 h2 ⊢
    simp [h, h1, h2]
  · rintro rfl; rfl

theorem adc_regs_iff (r : Regs) (am : AddrMode) (v : Byte) :
    arithRegs r am ((Operand.new r.a).twosComplementAdd (Operand.new v) r.p.carry) = adcRegs r v am ↔
      r.p.carry = false ∧ (r.a.toNat < 128 → v.toNat < 128 → r.a.toNat + v.toNat < 128) ∧
        (128 ≤ r.a.toNat → 128 ≤ v.toNat → r.a.toNat + v.toNat < 384) := by
  rw [adc_regs]
  constructor
  · intro e
    have e1 : byte (r.a.toNat + v.toNat) = byte (r.a.toNat + v.toNat + bit r.p.carry) :=
      congrArg Regs.a e
    have e2 : codeOverflow r.a v r.p.carry = _ := congrArg (fun r => r.p.overflow) e
    have hc : r.p.carry = false := by
      cases hc : r.p.carry
      · rfl
      · rw [hc] at e1
        have := congrArg BitVec.toNat e1
        rw [toNat_byte, toNat_byte] at this
        simp only [bit, ite_true] at this
        omega
    rw [hc] at e2
    exact ⟨hc, (adc_overflow_iff r.a v).mp (e2.trans (by simp only [adcRegs, hc]))⟩
  · rintro ⟨hc, hcond⟩
    have e2 := (adc_overflow_iff r.a v).mpr hcond
    simp only [adcRegs, hc, e2]
    simp only [addWithCarry, bit, Bool.false_eq_true, if_false, Nat.add_zero]

theorem sbc_regs_iff (r : Regs) (am : AddrMode) (v : Byte) :
    arithRegs r am ((Operand.new r.a).twosComplementAdd
        ((Operand.new (255 - v)).add (Operand.new (boolAsU8 r.p.carry))) r.p.carry) = sbcRegs r v am ↔
      ¬(v.toNat = 0 ∧ r.p.carry = true) ∧
        codeOverflow r.a (byte (255 - v.toNat + bit r.p.carry)) r.p.carry =
          (subWithBorrow r.a v r.p.carry).2.2 := by
  rw [sbc_regs]
  constructor
  · intro e
    have e1 : ((subWithBorrow r.a v r.p.carry).2.1 && !(decide (v.toNat = 0) && r.p.carry)) =
        (subWithBorrow r.a v r.p.carry).2.1 := congrArg (fun r => r.p.carry) e
    have e2 : codeOverflow r.a (byte (255 - v.toNat + bit r.p.carry)) r.p.carry =
      (subWithBorrow r.a v r.p.carry).2.2 := congrArg (fun r => r.p.overflow) e
    refine ⟨?_, e2⟩
    rintro ⟨h0, hc⟩
    rw [hc] at e1
    simp [subWithBorrow, h0, bit] at e1
  · rintro ⟨hne, e2⟩
    have e1 : (decide (v.toNat = 0) && r.p.carry) = false := by
      rw [Bool.eq_false_iff]; simpa using hne
    simp only [sbcRegs, e1, e2, Bool.not_false, Bool.and_true]

theorem compare_regs_iff (r : Regs) (am : AddrMode) (x v : Byte) :
    compareRegs r am x v = { r with p := compare r.p x v, pc := nextPc r am } ↔
      ¬((x.toNat = 0 ∧ 1 ≤ v.toNat ∧ v.toNat < 128) ∨ (v.toNat = 0 ∧ 1 ≤ x.toNat ∧ x.toNat < 128)) := by
  rw [compare_regs]
  constructor
  · intro e hc
    have e1 : xor (compare r.p x v).carry (decide ((x.toNat = 0 ∧ 1 ≤ v.toNat ∧ v.toNat < 128) ∨
        (v.toNat = 0 ∧ 1 ≤ x.toNat ∧ x.toNat < 128))) = (compare r.p x v).carry :=
      congrArg (fun r => r.p.carry) e
    rw [decide_eq_true hc] at e1
    cases h : (compare r.p x v).carry <;> rw [h] at e1 <;> cases e1
  · intro hc
    rw [decide_eq_false hc, Bool.xor_false]

/-- The effect of the code is the textbook's exactly in the faithful states. -/
theorem effect_iff {r : Regs} {mem : Mem} {i : InstructionVariant} {mn : Mnemonic} {am : AddrMode}
    {e : Effect} (hi : view i = (mn, am)) (ht : textbook (chip r) mem mn am = some e) :
    (chip (codeEffect r mem mn am).regs = e.regs ∧
      store mem (codeEffect r mem mn am).writes = store mem e.writes) ↔ Faithful r mem mn am := by
  have s1 : stack (r.sp - 1).toNat = stack (r.sp.toNat + 255) := stack_sub r.sp 1 (by omega)
  have s2 : stack (r.sp - 2).toNat = stack (r.sp.toNat + 254) := stack_sub r.sp 2 (by omega)
  have t1 : stack (r.sp + 1).toNat = stack (r.sp.toNat + 1) := stack_plus r.sp 1 (by omega)
  have t2 : stack (r.sp + 2).toNat = stack (r.sp.toNat + 2) := stack_plus r.sp 2 (by omega)
  have t3 : stack (r.sp + 3).toNat = stack (r.sp.toNat + 3) := stack_plus r.sp 3 (by omega)
  have u1 : r.sp - 1 = byte (r.sp.toNat + 255) := byte_sub r.sp 1 (by omega)
  have u2 : r.sp - 2 = byte (r.sp.toNat + 254) := byte_sub r.sp 2 (by omega)
  have u3 : r.sp - 3 = byte (r.sp.toNat + 253) := byte_sub r.sp 3 (by omega)
  have w1 : r.sp + 1 = byte (r.sp.toNat + 1) := byte_plus r.sp 1 (by omega)
  have w2 : r.sp + 2 = byte (r.sp.toNat + 2) := byte_plus r.sp 2 (by omega)
  have w3 : r.sp + 3 = byte (r.sp.toNat + 3) := byte_plus r.sp 3 (by omega)
  have x1 (v : Byte) : v - 1 = byte (v.toNat + 255) := byte_sub v 1 (by omega)
  have x2 (v : Byte) : v + 1 = byte (v.toNat + 1) := byte_plus v 1 (by omega)
  have y1 : (u16ToLeBytes (r.pc + 2)).2 = byte ((r.pc.toNat + 2) % 65536 / 256) :=
    ret_hi r.pc 2 (by omega)
  have y2 : (u16ToLeBytes (r.pc + 2)).1 = byte (r.pc.toNat + 2) := ret_lo r.pc 2 (by omega)
  have z1 : (u16ToLeBytes (r.pc + 1)).2 = byte ((r.pc.toNat + 1) % 65536 / 256) :=
    ret_hi r.pc 1 (by omega)
  have z2 : (u16ToLeBytes (r.pc + 1)).1 = byte (r.pc.toNat + 1) := ret_lo r.pc 1 (by omega)
  simp only [textbook, operand_chip, ea_chip, nextPc_chip] at ht
  cases mn
  case Adc =>
    by_cases hd : (chip r).p.decimal = true
    · simp [hd] at ht
    simp only [hd, Bool.false_eq_true, if_false, Option.some.injEq] at ht
    subst ht
    have : chip (codeEffect r mem .Adc am).regs = adcRegs (chip r) (operand r mem am) am ↔ _ :=
      (chip_inj (r := (codeEffect r mem .Adc am).regs) (s := adcRegs r (operand r mem am) am)
        (by rfl) (by rfl)).trans (adc_regs_iff r am (operand r mem am))
    exact ⟨fun h => this.mp h.1, fun h => ⟨this.mpr h, rfl⟩⟩
  case Sbc =>
    by_cases hd : (chip r).p.decimal = true
    · simp [hd] at ht
    simp only [hd, Bool.false_eq_true, if_false, Option.some.injEq] at ht
    subst ht
    have : chip (codeEffect r mem .Sbc am).regs = sbcRegs (chip r) (operand r mem am) am ↔ _ :=
      (chip_inj (r := (codeEffect r mem .Sbc am).regs) (s := sbcRegs r (operand r mem am) am)
        (by rfl) (by rfl)).trans (sbc_regs_iff r am (operand r mem am))
    exact ⟨fun h => this.mp h.1, fun h => ⟨this.mpr h, rfl⟩⟩
  case Cmp =>
    simp only [Option.some.injEq] at ht
    subst ht
    have : chip (codeEffect r mem .Cmp am).regs =
        chip { r with p := compare r.p r.a (operand r mem am), pc := nextPc r am } ↔ _ :=
      (chip_inj (r := compareRegs r am r.a (operand r mem am)) (by rfl) (by rfl)).trans
        (compare_regs_iff r am r.a (operand r mem am))
    exact ⟨fun h => this.mp h.1, fun h => ⟨this.mpr h, rfl⟩⟩
  case Cpx =>
    simp only [Option.some.injEq] at ht
    subst ht
    have : chip (codeEffect r mem .Cpx am).regs =
        chip { r with p := compare r.p r.x (operand r mem am), pc := nextPc r am } ↔ _ :=
      (chip_inj (r := compareRegs r am r.x (operand r mem am)) (by rfl) (by rfl)).trans
        (compare_regs_iff r am r.x (operand r mem am))
    exact ⟨fun h => this.mp h.1, fun h => ⟨this.mpr h, rfl⟩⟩
  case Cpy =>
    simp only [Option.some.injEq] at ht
    subst ht
    have : chip (codeEffect r mem .Cpy am).regs =
        chip { r with p := compare r.p r.y (operand r mem am), pc := nextPc r am } ↔ _ :=
      (chip_inj (r := compareRegs r am r.y (operand r mem am)) (by rfl) (by rfl)).trans
        (compare_regs_iff r am r.y (operand r mem am))
    exact ⟨fun h => this.mp h.1, fun h => ⟨this.mpr h, rfl⟩⟩
  case Dey =>
    simp only [Option.some.injEq] at ht
    subst ht
    simp only [codeEffect, x1]
    refine Iff.trans ?_ (dey_nz r.x r.y (chip r).p)
    constructor
    · intro h; exact congrArg Regs.p h.1
    · intro h
      refine ⟨?_, trivial⟩
      show ({ chip r with y := _, p := setNZ (chip r).p _, pc := _ } : Regs) = _
      rw [h]; rfl
  case Php =>
    simp only [Option.some.injEq] at ht
    subst ht
    simp only [codeEffect, u1, s1]
    have hb : statusByte (chip r).p = statusByte r.p := rfl
    refine Iff.trans ?_ (read_status r.p)
    constructor
    · intro h
      have := congrFun h.2 (stack r.sp.toNat)
      simpa [store, upd, chip, statusByte] using this
    · intro h
      refine ⟨rfl, ?_⟩
      rw [h]; rfl
  case Brk =>
    simp only [Option.some.injEq] at ht
    subst ht
    refine ⟨fun h => ?_, False.elim⟩
    have hne1 : stack r.sp.toNat ≠ stack (r.sp.toNat + 255) := fun h => by
      have := stack_inj h; omega
    have hne2 : stack r.sp.toNat ≠ stack (r.sp.toNat + 254) := fun h => by
      have := stack_inj h; omega
    have hne3 : stack (r.sp.toNat + 255) ≠ stack (r.sp.toNat + 254) := fun h => by
      have := stack_inj h; omega
    have h1 := congrFun h.2 (stack r.sp.toNat)
    have h2 := congrFun h.2 (stack (r.sp.toNat + 255))
    have e1 : (chip r).sp = r.sp := rfl
    have e2 : (chip r).pc = r.pc := rfl
    simp only [codeEffect, store, List.foldl, s1, s2, z1, z2, upd, e1, e2, if_neg hne1, if_neg hne2,
      if_neg hne3, if_true] at h1 h2
    exact brk_return_ne _ h1 h2
  case Rti =>
    obtain rfl := view_implied hi (.inl rfl)
    simp only [Option.some.injEq] at ht
    subst ht
    refine ⟨fun h => ?_, False.elim⟩
    have := congrArg Regs.pc h.1
    simp only [codeEffect, chip, t2, t3, u16_word] at this
    exact word_succ_ne _ this
  case Asl | Lsr | Rol | Ror =>
    obtain ⟨h1, h2⟩ := shiftTo_eq ht
    refine ⟨fun _ => trivial, fun _ => ⟨h1, ?_⟩⟩
    rw [← h2]; rfl
  case Bcc | Bcs | Bne | Beq | Bpl | Bmi | Bvc | Bvs =>
    simp only [taken] at ht
    simp only [Faithful, taken, Option.some.injEq]
    exact branchTo_iff ht
  case Bit =>
    simp only [Option.some.injEq] at ht
    subst ht
    refine ⟨fun _ => trivial, fun _ => ⟨?_, rfl⟩⟩
    simp only [codeEffect, decide_lsb7, decide_lsb6]
    rfl
  case Plp =>
    simp only [Option.some.injEq] at ht
    subst ht
    refine ⟨fun _ => trivial, fun _ => ⟨?_, rfl⟩⟩
    simp only [codeEffect, chip, withValue_chip, t1]; simp only [w1]
  case Rts =>
    obtain rfl := view_implied hi (.inr (.inl rfl))
    simp only [Option.some.injEq] at ht
    subst ht
    refine ⟨fun _ => trivial, fun _ => ⟨?_, rfl⟩⟩
    simp only [codeEffect, chip, t1, t2, u16_word]; simp only [w2]
    rfl
  all_goals
    simp only [Option.some.injEq] at ht
    subst ht
    refine ⟨fun _ => trivial, fun _ => ⟨?_, ?_⟩⟩
    · simp only [codeEffect, chip, t1] <;> first
        | done
        | rfl
        | (simp only [x1, x2, u2] <;> first | done | rfl)
    · simp only [codeEffect, s1, y1, y2] <;> first
        | done
        | rfl
        | (simp only [x1, x2] <;> first | done | rfl)

theorem read_through_y {i : InstructionVariant} {mn : Mnemonic} {z : Byte}
    (hi : view i = (mn, .indirectIndexed z)) (h : mn ≠ .Sta) :
    writesMem mn (.indirectIndexed z) = false := by
  cases i <;> simp only [view, Prod.mk.injEq, reduceCtorEq, and_false] at hi <;>
    (obtain ⟨rfl, -⟩ := hi; first | exact absurd rfl h | rfl)

theorem crosses_eq (a c d : Nat) : crosses a c = crosses d 0 ↔ (a / 256 = c / 256 ↔ d < 256) := by
  unfold crosses
  by_cases h1 : a / 256 = c / 256 <;> by_cases h2 : d < 256 <;>
    simp only [h1, h2, if_true, if_false] <;>
    (first
      | rw [if_pos (by omega)]
      | rw [if_neg (by omega)]) <;> simp

/-- The cycle counts agree exactly in the cycle-faithful states. -/
theorem cycles_iff {r : Regs} {mem : Mem} {i : InstructionVariant} {mn : Mnemonic} {am : AddrMode}
    (hi : view i = (mn, am)) :
    baseCycles mn am + codePenalty r mem mn am = cycles (chip r) mem mn am ↔
      CycleFaithful (chip r) mem mn am := by
  have ht : ∀ q, taken q (chip r).p = taken q r.p := by intro q; cases q <;> rfl
  unfold cycles
  rw [Nat.add_left_cancel_iff]
  cases am <;> try exact ⟨fun _ => trivial, fun _ => rfl⟩
  · rename_i z
    simp only [CycleFaithful, codePenalty, penalty, canCross, Bool.true_and]
    by_cases h : mn = .Sta
    · subst h; simp [writesMem, isStore]
    · rw [read_through_y hi h, if_neg h, if_pos (by rfl), eq_comm, ea_chip, crosses_eq]
      simp [h]
  · rename_i d
    simp only [CycleFaithful, codePenalty, penalty, ht]
    by_cases h : taken mn r.p = some true
    · rw [if_pos h, if_pos h, codeTarget_eq, Nat.add_left_cancel_iff]
      exact ⟨fun e _ => e, fun e => e h⟩
    · rw [if_neg h, if_neg h]
      exact ⟨fun _ e => absurd e h, fun _ => rfl⟩

end Verif.Mos
