import Verif.Proofs.Checksum
import Verif.Props.Mos.Copy

/-!
# C131 on the 6502: table-driven checksums
-/

namespace Verif.Mos

open Verif Verif.Spec Verif.Spec.Mos

section
variable {B : Type} [Addressable B] {b : Build} {I : B → Mem → Prop} {mem : Mem} {d : Byte} {p src t n : Nat}
  {s : Regs}

/-- One instruction that stores nothing. -/
theorem quiet_step (hI : Coherent b I) {q : Nat} (i : InstructionVariant) {mn : Mnemonic} {am : AddrMode}
    {s' : Regs} (hpc : s.pc = word q) (hq : q < 65534)
    (hp : Isa.parseInstruction (mem (word q)) (mem (word q + 1)) (mem (word q + 2)) = some i)
    (hi : view i = (mn, am)) (hok : AddrOk b s mem am)
    (hw : codeEffect s mem mn am = { regs := s' }) :
    Reaches b I s mem 1 (baseCycles mn am + codePenalty s mem mn am) s' mem := by
  have := reaches_one (b := b) (I := I) (r := s) (mem := mem) hI (W := fun _ => False)
    (fun _ _ _ _ h => h.elim) (i := i) (pcOk_of hpc hq) (by rw [hpc]; exact hp) hi hok
    (fun w h => by rw [hw] at h; cases h)
  rw [hw] at this
  exact this

/-- The bytes of the loop, instruction by instruction. -/
structure ChecksumCode (mem : Mem) (d : Byte) (p src t n : Nat) : Prop where
  eor : mem (word p) = 0x59 ∧ mem (word p + 1) = byte src ∧ mem (word p + 2) = byte (src / 256)
  tax : mem (word (p + 3)) = 0xaa
  lda : mem (word (p + 4)) = 0xbd ∧ mem (word (p + 4) + 1) = byte t ∧ mem (word (p + 4) + 2) = byte (t / 256)
  iny : mem (word (p + 7)) = 0xc8
  cpy : mem (word (p + 8)) = 0xc0 ∧ mem (word (p + 8) + 1) = byte n
  bne : mem (word (p + 10)) = 0xd0 ∧ mem (word (p + 10) + 1) = d

theorem checksumCode (h : CodeAt mem p (mosChecksum d src t n)) : ChecksumCode mem d p src t n := by
  obtain ⟨h1, h⟩ := codeAt_append h
  obtain ⟨h2, h⟩ := codeAt_append h
  obtain ⟨h3, h⟩ := codeAt_append h
  obtain ⟨h4, h⟩ := codeAt_append h
  obtain ⟨h5, h6⟩ := codeAt_append h
  have two : ∀ {q : Nat} {o1 o2 : Byte}, CodeAt mem q [o1, o2] →
      mem (word q) = o1 ∧ mem (word q + 1) = o2 := fun {q o1 o2} h => by
    refine ⟨h 0 (by simp), ?_⟩
    have := h 1 (by simp); rwa [← word_add] at this
  exact ⟨code3 h1, h2 0 (by simp), code3 h3, h4 0 (by simp), two h5, two h6⟩

/-- The displacement with which this emulator gets from the `BNE` back to the `EOR`. -/
def back10 : Byte := 0xf6

theorem codeTarget_back10 (p : Nat) : codeTarget (word (p + 10)) back10 = word p := by
  have e : back10.signExtend 16 = BitVec.ofNat 16 65526 := by decide
  unfold codeTarget
  rw [e, word_add]
  exact word_congr (by omega)

theorem crosses_le (x y : Nat) : crosses x y ≤ 1 := by unfold crosses; split <;> omega

theorem word_indexed (w : Nat) (v : Byte) : word ((word w).toNat + v.toNat) = word (w + v.toNat) :=
  word_congr (by rw [toNat_word]; omega)

/-- The registers after one round. -/
def checksumNext (mem : Mem) (p src t n i : Nat) (s : Regs) : Regs :=
  { s with
    a := tableAt mem t (s.a ^^^ mem (word (src + i)))
    x := s.a ^^^ mem (word (src + i))
    y := byte (i + 1)
    p := { setNZ s.p (byte (i + 1) - byte n) with carry := (Operand.new (byte (i + 1))).ge (Operand.new (byte n)) }
    pc := if i + 1 = n then word (p + 12) else word p }

/-- One round of the loop. -/
theorem checksum_round (hI : Coherent b I) (hc : ChecksumCode mem back10 p src t n) (hp : p + 12 < 65534)
    (hpc : s.pc = word p) {i : Nat} (hy : s.y = byte i) (hi : i < n) (hn : n ≤ 256) :
    ∃ c, (if i + 1 = n then 16 ≤ c ∧ c ≤ 18 else 17 ≤ c ∧ c ≤ 20) ∧
      Reaches b I s mem 6 c (checksumNext mem p src t n i s) mem := by
  have hyi : s.y.toNat = i := by rw [hy, toNat_byte]; omega
  have hv : mem (ea s mem (.absoluteY (word src))) = mem (word (src + i)) := by
    show mem (word ((word src).toNat + s.y.toNat)) = _
    rw [word_indexed, hyi]
  generalize hg : s.a ^^^ mem (word (src + i)) = v
  have r1 : Reaches b I s mem 1 _ { s with a := v, p := setNZ s.p v, pc := word (p + 3) } mem :=
    quiet_step hI (.EorAbsoluteIndexedWithY (word src)) (am := .absoluteY (word src)) (mn := .Eor) hpc (by omega)
      (by rw [hc.eor.1, hc.eor.2.1, hc.eor.2.2]
          show some (InstructionVariant.EorAbsoluteIndexedWithY _) = _
          rw [word_lohi]) rfl trivial (by
        rw [← hg, ← hv]
        show ({ regs := { s with
          a := s.a ^^^ mem (ea s mem (.absoluteY (word src)))
          p := setNZ s.p (s.a ^^^ mem (ea s mem (.absoluteY (word src))))
          pc := nextPc s (.absoluteY (word src)) } } : Effect) = _
        rw [nextPc_of hpc (by omega)]; rfl)
  have r2 := quiet_step (b := b) hI (s := { s with a := v, p := setNZ s.p v, pc := word (p + 3) }) (mem := mem)
    (s' := { s with a := v, x := v, p := setNZ s.p v, pc := word (p + 4) })
    .TaxImplied (am := .implied) (mn := .Tax) rfl (by omega) (by rw [hc.tax]; rfl) rfl trivial (by
      show ({ regs := { s with a := v, x := v, p := setNZ s.p v, pc := nextPc { s with pc := word (p + 3) } .implied } } : Effect) = _
      rw [nextPc_of rfl (by omega)]; rfl)
  have r3 := quiet_step (b := b) hI (s := { s with a := v, x := v, p := setNZ s.p v, pc := word (p + 4) }) (mem := mem)
    (s' := { s with a := tableAt mem t v, x := v, p := setNZ s.p (tableAt mem t v), pc := word (p + 7) })
    (.LdaAbsoluteIndexedWithX (word t)) (am := .absoluteX (word t)) (mn := .Lda) rfl (by omega)
    (by rw [hc.lda.1, hc.lda.2.1, hc.lda.2.2]
        show some (InstructionVariant.LdaAbsoluteIndexedWithX _) = _
        rw [word_lohi]) rfl trivial (by
      show ({ regs := { s with
        a := mem (word ((word t).toNat + v.toNat)), x := v, p := setNZ s.p (mem (word ((word t).toNat + v.toNat)))
        pc := nextPc { s with pc := word (p + 4) } (.absoluteX (word t)) } } : Effect) = _
      rw [nextPc_of rfl (by omega), word_indexed]; rfl)
  have r4 := quiet_step (b := b) hI
    (s := { s with a := tableAt mem t v, x := v, p := setNZ s.p (tableAt mem t v), pc := word (p + 7) }) (mem := mem)
    (s' := { s with a := tableAt mem t v, x := v, y := s.y + 1, p := setNZ s.p (s.y + 1), pc := word (p + 8) })
    .InyImplied (am := .implied) (mn := .Iny) rfl (by omega) (by rw [hc.iny]; rfl) rfl trivial (by
      show ({ regs := { s with
        a := tableAt mem t v, x := v, y := s.y + 1, p := setNZ s.p (s.y + 1)
        pc := nextPc { s with pc := word (p + 7) } .implied } } : Effect) = _
      rw [nextPc_of rfl (by omega)]; rfl)
  have r5 := quiet_step (b := b) hI
    (s := { s with a := tableAt mem t v, x := v, y := s.y + 1, p := setNZ s.p (s.y + 1), pc := word (p + 8) }) (mem := mem)
    (s' := { s with
      a := tableAt mem t v, x := v, y := s.y + 1
      p := { setNZ s.p (s.y + 1 - byte n) with carry := (Operand.new (s.y + 1)).ge (Operand.new (byte n)) }
      pc := word (p + 10) })
    (.CpyImmediate (byte n)) (am := .immediate (byte n)) (mn := .Cpy) rfl (by omega)
    (by rw [hc.cpy.1, hc.cpy.2]; rfl) rfl trivial (by
      show ({ regs := { s with
        a := tableAt mem t v, x := v, y := s.y + 1
        p := { setNZ s.p (s.y + 1 - byte n) with carry := (Operand.new (s.y + 1)).ge (Operand.new (byte n)) }
        pc := nextPc { s with pc := word (p + 8) } (.immediate (byte n)) } } : Effect) = _
      rw [nextPc_of rfl (by omega)]; rfl)
  have ey : s.y + 1 = byte (i + 1) := by
    apply BitVec.eq_of_toNat_eq
    rw [BitVec.toNat_add, hyi, toNat_byte]; rfl
  have ez : (s.y + 1 - byte n).toNat = 0 ↔ i + 1 = n := by
    rw [ey, BitVec.toNat_sub, toNat_byte, toNat_byte]; omega
  have r6 := quiet_step (b := b) hI
    (s := { s with
      a := tableAt mem t v, x := v, y := s.y + 1
      p := { setNZ s.p (s.y + 1 - byte n) with carry := (Operand.new (s.y + 1)).ge (Operand.new (byte n)) }
      pc := word (p + 10) }) (mem := mem)
    (s' := { s with
      a := tableAt mem t v, x := v, y := s.y + 1
      p := { setNZ s.p (s.y + 1 - byte n) with carry := (Operand.new (s.y + 1)).ge (Operand.new (byte n)) }
      pc := if i + 1 = n then word (p + 12) else word p })
    (.BneRelative back10) (am := .relative back10) (mn := .Bne) rfl (by omega)
    (by rw [hc.bne.1, hc.bne.2]; rfl) rfl trivial (by
      show ({ regs := { s with
        a := tableAt mem t v, x := v, y := s.y + 1
        p := { setNZ s.p (s.y + 1 - byte n) with carry := (Operand.new (s.y + 1)).ge (Operand.new (byte n)) }
        pc := if !(decide ((s.y + 1 - byte n).toNat = 0)) then codeTarget (word (p + 10)) back10
          else nextPc { s with pc := word (p + 10) } (.relative back10) } } : Effect) = _
      rw [nextPc_of rfl (by omega), codeTarget_back10]
      by_cases h : i + 1 = n
      · rw [if_pos h, decide_eq_true (ez.2 h)]; rfl
      · rw [if_neg h, decide_eq_false (fun h' => h (ez.1 h'))]; rfl)
  have e : checksumNext mem p src t n i s = { s with
      a := tableAt mem t v, x := v, y := s.y + 1
      p := { setNZ s.p (s.y + 1 - byte n) with carry := (Operand.new (s.y + 1)).ge (Operand.new (byte n)) }
      pc := if i + 1 = n then word (p + 12) else word p } := by
    unfold checksumNext
    rw [hg, ey]
  have r := ((((r1.trans r2).trans r3).trans r4).trans r5).trans r6
  rw [← e] at r
  refine ⟨_, ?_, r⟩
  · have c1 := crosses_le (baseAddr mem (.absoluteY (word src))) (ea s mem (.absoluteY (word src))).toNat
    have e1 : codePenalty s mem .Eor (.absoluteY (word src)) =
      crosses (baseAddr mem (.absoluteY (word src))) (ea s mem (.absoluteY (word src))).toNat := rfl
    have c3 : ∀ s' : Regs, codePenalty s' mem .Lda (.absoluteX (word t)) ≤ 1 := fun s' => crosses_le _ _
    have c6 : ∀ s' : Regs, s'.p.zero = decide ((s.y + 1 - byte n).toNat = 0) →
        if i + 1 = n then codePenalty s' mem .Bne (.relative back10) = 0
        else 1 ≤ codePenalty s' mem .Bne (.relative back10) ∧ codePenalty s' mem .Bne (.relative back10) ≤ 2 := by
      intro s' hz
      have e6 : codePenalty s' mem .Bne (.relative back10) =
        if some (!s'.p.zero) = some true then 1 + crosses (codeTarget s'.pc back10).toNat s'.pc.toNat else 0 := rfl
      rw [e6, hz]
      by_cases h : i + 1 = n
      · rw [if_pos h, decide_eq_true (ez.2 h)]; rfl
      · rw [if_neg h, decide_eq_false (fun h' => h (ez.1 h')),
          if_pos (show (some !false) = some true from rfl)]
        have := crosses_le (codeTarget s'.pc back10).toNat s'.pc.toNat
        omega
    rw [e1]
    have c6' := c6 { s with
      a := tableAt mem t v, x := v, y := s.y + 1
      p := { setNZ s.p (s.y + 1 - byte n) with carry := (Operand.new (s.y + 1)).ge (Operand.new (byte n)) }
      pc := word (p + 10) } rfl
    have c3' := c3 { s with a := v, x := v, p := setNZ s.p v, pc := word (p + 4) }
    have b1 : baseCycles .Eor (.absoluteY (word src)) = 4 := rfl
    have b2 : ∀ s', baseCycles .Tax .implied + codePenalty s' mem .Tax .implied = 2 := fun _ => rfl
    have b3 : baseCycles .Lda (.absoluteX (word t)) = 4 := rfl
    have b4 : ∀ s', baseCycles .Iny .implied + codePenalty s' mem .Iny .implied = 2 := fun _ => rfl
    have b5 : ∀ s', baseCycles .Cpy (.immediate (byte n)) + codePenalty s' mem .Cpy (.immediate (byte n)) = 2 :=
      fun _ => rfl
    have b6 : baseCycles .Bne (.relative back10) = 2 := rfl
    rw [b1, b2, b3, b4, b5, b6]
    split <;> rename_i h
    · rw [if_pos h] at c6'; omega
    · rw [if_neg h] at c6'; omega

/-- C131 on the 6502: the loop leaves in A the checksum of the `n` bytes from `src` on, for every table, every
number of bytes from 1 to 256 and every starting value, after `6 n` instructions and `17 n - 1` to `20 n - 2` cycles.
It uses X and Y, and leaves memory, the stack pointer and the other flags as they were. -/
theorem C131_mos (hI : Coherent b I) (hp : p + 12 < 65534) (hcode : CodeAt mem p (mosChecksum back10 src t n))
    (hn : 1 ≤ n ∧ n ≤ 256) (hpc : s.pc = word p) (hy : s.y = 0) :
    ∃ c s', 17 * n - 1 ≤ c ∧ c ≤ 20 * n - 2 ∧ Reaches b I s mem (6 * n) c s' mem ∧
      s'.a = checksum (tableAt mem t) s.a (bytesFrom mem src n) ∧ s'.y = byte n ∧ s'.sp = s.sp ∧
      s'.pc = word (p + 12) ∧ s'.p = { s.p with negative := false, zero := true, carry := true } := by
  have hc := checksumCode hcode
  have key : ∀ i, i < n → ∃ c s', 17 * i ≤ c ∧ c ≤ 20 * i ∧ Reaches b I s mem (6 * i) c s' mem ∧
      s'.a = checksum (tableAt mem t) s.a (bytesFrom mem src i) ∧ s'.y = byte i ∧ s'.sp = s.sp ∧
      s'.pc = word p ∧ ∃ ng z cy, s'.p = { s.p with negative := ng, zero := z, carry := cy } := by
    intro i
    induction i with
    | zero => exact fun _ => ⟨0, s, by omega, by omega, .refl, rfl, hy, rfl, hpc, _, _, _, rfl⟩
    | succ i ih =>
      intro hi
      obtain ⟨c, s1, h1, h2, r, ha, hy1, hs, hpc1, ng, z, cy, hf⟩ := ih (by omega)
      obtain ⟨c', h3, r'⟩ := checksum_round hI hc hp hpc1 hy1 (by omega) hn.2
      rw [if_neg (by omega)] at h3
      refine ⟨c + c', checksumNext mem p src t n i s1, by omega, by omega, ?_, ?_, rfl, hs, if_neg (by omega),
        (checksumNext mem p src t n i s1).p.negative, (checksumNext mem p src t n i s1).p.zero,
        (checksumNext mem p src t n i s1).p.carry, ?_⟩
      · have := r.trans r'
        rwa [show 6 * i + 6 = 6 * (i + 1) by omega] at this
      · show tableAt mem t (s1.a ^^^ _) = _
        rw [ha, bytesFrom_succ, checksum_append]
      · simp only [checksumNext, hf, setNZ]
  obtain ⟨m, rfl⟩ : ∃ m, n = m + 1 := ⟨n - 1, by omega⟩
  obtain ⟨c, s1, h1, h2, r, ha, hy1, hs, hpc1, ng, z, cy, hf⟩ := key m (by omega)
  obtain ⟨c', h3, r'⟩ := checksum_round hI hc hp hpc1 hy1 (by omega) hn.2
  rw [if_pos rfl] at h3
  refine ⟨c + c', checksumNext mem p src t (m + 1) m s1, by omega, by omega, ?_, ?_, rfl, hs, if_pos rfl, ?_⟩
  · have := r.trans r'
    rwa [show 6 * m + 6 = 6 * (m + 1) by omega] at this
  · show tableAt mem t (s1.a ^^^ _) = _
    rw [ha, bytesFrom_succ, checksum_append]
  · show ({ setNZ s1.p (byte (m + 1) - byte (m + 1)) with
      carry := (Operand.new (byte (m + 1))).ge (Operand.new (byte (m + 1))) } : ProcessorStatus) = _
    rw [hf, BitVec.sub_self]
    have : (Operand.new (byte (m + 1))).ge (Operand.new (byte (m + 1))) = true := by
      generalize byte (m + 1) = x
      revert x
      decide +kernel
    rw [this]
    rfl

/-- C131 on the 6502: with the table of a CRC of eight bits it computes the CRC of the message, bit by bit from the
most significant bit of its first byte on. -/
theorem C131_mos_crc (hI : Coherent b I) (hp : p + 12 < 65534) (hcode : CodeAt mem p (mosChecksum back10 src t n))
    (hn : 1 ≤ n ∧ n ≤ 256) (hpc : s.pc = word p) (hy : s.y = 0) {poly : Byte}
    (ht : ∀ v, tableAt mem t v = crcTable poly v) :
    ∃ c s', Reaches b I s mem (6 * n) c s' mem ∧ s'.pc = word (p + 12) ∧
      s'.a = crcBits poly s.a ((bytesFrom mem src n).flatMap bitsOf) := by
  obtain ⟨c, s', -, -, r, ha, -, -, hpc', -⟩ := C131_mos hI hp hcode hn hpc hy
  refine ⟨c, s', r, hpc', ?_⟩
  rw [ha, crc_checksum, show tableAt mem t = crcTable poly from funext ht]

end

/-! ### Concrete cases -/

/-- The memory of the cases: the loop for nine bytes at 0x300 with a table at 0x400 lies at 0x200; the table is that of
the CRC-8 with the polynomial x^8 + x^2 + x + 1; the message is "123456789". -/
def crcRam : Mem := loaded 0x200 (mosChecksum back10 0x300 0x400 9) fun a =>
  if 0x400 ≤ a.toNat then crcTable 7 (byte (a.toNat - 0x400)) else byte (0x31 + (a.toNat - 0x300))

/-- The check value of this CRC, that of "123456789", is 0xF4. -/
example : ∃ c s', Reaches .debug (fun (d : FlatRam) mem => d.mem = mem)
    { sampleRegs with a := 0, y := 0, pc := word 0x200 } crcRam 54 c s' crcRam ∧ s'.a = 0xf4 := by
  have ht : ∀ v, tableAt crcRam 0x400 v = crcTable 7 v := by decide +kernel
  obtain ⟨c, s', r, -, ha⟩ := C131_mos_crc (b := .debug) (s := { sampleRegs with a := 0, y := 0, pc := word 0x200 })
    (n := 9) (flatRam_coherent .debug) (by decide) (loaded_code (by decide)) (by decide) rfl rfl ht
  exact ⟨c, s', r, ha.trans (by decide +kernel)⟩

/-- With the displacement an assembler would emit, `D0 F4`, the branch leads in front of the loop. -/
example : codeTarget (word 0x20a) 0xf4 = word 0x1fe := by decide

end Verif.Mos
