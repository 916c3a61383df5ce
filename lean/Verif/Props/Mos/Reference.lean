import Verif.Proofs.MosRef
import Verif.Props.Mos.Opcodes
import Verif.Props.Mos.Run

/-!
# Properties C65, C66: the emulator against a complete reference 6502
-/

namespace Verif.Props

open Verif Verif.Mos Verif.Spec.Mos

section
variable {B : Type} [Addressable B] {b : Build} {I : B → Mem → Prop}

/-- A bus that accepts writes lets every list of writes through. -/
theorem accepts_writeAll (hI : Coherent b I) (hacc : Accepts b I) (ws : List (Word × Byte)) :
    ∀ {bus : B} {mem : Mem}, I bus mem → ∃ bus', writeAll b bus ws = .ok bus' := by
  induction ws with
  | nil => intro bus mem _; exact ⟨bus, rfl⟩
  | cons w ws ih =>
    intro bus mem h
    obtain ⟨a, v⟩ := w
    obtain ⟨r, bus', hw⟩ := hacc bus mem h a v
    obtain ⟨bus'', h2⟩ := ih ((hI _ _ h).2 a v r bus' hw)
    exact ⟨bus'', by simp only [writeAll, hw, h2]⟩

theorem word_add (w : Word) (n : Nat) : w + BitVec.ofNat 16 n = word (w.toNat + n) := by
  apply BitVec.eq_of_toNat_eq
  rw [BitVec.toNat_add, toNat_word, BitVec.toNat_ofNat]; omega

/-- The emulator finds the instruction of the reference machine. -/
theorem instr_at {cpu : Mos6502 B} {s : Chip} {mn : Mnemonic} {am : AddrMode}
    (hv : BusView b cpu.address_map s.mem) (hr : chip (regs cpu) = s.regs) (hpc : PcOk b (regs cpu))
    (h : s.instr = some (mn, am)) : ∃ i, At b cpu i ∧ view i = (mn, am) := by
  refine C64_all hv hpc ?_
  have e : s.regs.pc = cpu.pc := by rw [← hr]; rfl
  unfold Chip.instr at h
  rw [e] at h
  rw [← h]
  have e1 : cpu.pc + 1 = word (cpu.pc.toNat + 1) := word_add cpu.pc 1
  have e2 : cpu.pc + 2 = word (cpu.pc.toNat + 2) := word_add cpu.pc 2
  rw [e1, e2]

theorem step_parts {s s' : Chip} {n : Nat} {mn : Mnemonic} {am : AddrMode}
    (hi : s.instr = some (mn, am)) (hs : s.step = some (s', n)) :
    ∃ e, textbook s.regs s.mem mn am = some e ∧ s' = ⟨e.regs, store s.mem e.writes⟩ ∧
      n = cycles s.regs s.mem mn am := by
  unfold Chip.step at hs
  rw [hi] at hs
  simp only at hs
  cases ht : textbook s.regs s.mem mn am with
  | none => rw [ht] at hs; cases hs
  | some e =>
    rw [ht] at hs
    simp only [Option.some.injEq, Prod.mk.injEq] at hs
    exact ⟨e, rfl, hs.1.symm, hs.2.symm⟩

/-! ## C65 One instruction -/

/-- What C65 claims: from equal states, the emulator's instruction leads to the state of the reference
machine in the documented number of cycles. -/
def C65_statement : Prop :=
  ∀ (B : Type) [Addressable B] (b : Build) (I : B → Mem → Prop) (cpu : Mos6502 B) (s s' : Chip)
    (n : Nat), Coherent b I → Accepts b I → Agrees I cpu s → s.step = some (s', n) →
    ∃ ops cpu', next b cpu = .ok (ops, cpu') ∧ Agrees I cpu' s' ∧ ops.cycles = n

/-- What holds: the states agree after the instruction exactly if the address arithmetic does not
overflow in a checked build and the state is `Faithful`, a condition that only concerns ADC, SBC,
the compares, DEY, taken branches, PHP, BRK and RTI; and then, and only in the `CycleFaithful`
states, the number of cycles is the documented one as well. -/
theorem C65_partial {cpu : Mos6502 B} {s s' : Chip} {n : Nat} {mn : Mnemonic} {am : AddrMode}
    (hI : Coherent b I) (hacc : Accepts b I) (h : Agrees I cpu s) (hi : s.instr = some (mn, am))
    (hs : s.step = some (s', n)) :
    ((∃ ops cpu', next b cpu = .ok (ops, cpu') ∧ Agrees I cpu' s') ↔
      PcOk b s.regs ∧ AddrOk b s.regs s.mem am ∧ Faithful (regs cpu) s.mem mn am) ∧
    (∀ ops cpu', next b cpu = .ok (ops, cpu') →
      (ops.cycles = n ↔ CycleFaithful s.regs s.mem mn am)) := by
  obtain ⟨hr, hm⟩ := h
  have hv := (hI _ _ hm).1
  have epc : s.regs.pc = (regs cpu).pc := by rw [← hr]; rfl
  have eok : AddrOk b s.regs s.mem am ↔ AddrOk b (regs cpu) s.mem am := by
    rw [← hr]; cases am <;> rfl
  obtain ⟨e, ht, rfl, rfl⟩ := step_parts hi hs
  rw [← hr] at ht
  by_cases hpc : PcOk b (regs cpu)
  · obtain ⟨i, hat, hvi⟩ := instr_at hv hr hpc hi
    have key := effect_iff hvi ht
    constructor
    · constructor
      · rintro ⟨ops, cpu', hn, hr', hm'⟩
        obtain ⟨hok, -, hregs, hw⟩ := step_inv hat hv hvi hn
        refine ⟨by unfold PcOk; rw [epc]; exact hpc, eok.mpr hok, key.mp ⟨?_, ?_⟩⟩
        · rw [← hregs]; exact hr'
        · have h1 := (hI _ _ (writeAll_coherent hI _ hm hw)).1
          exact busView_unique h1 (hI _ _ hm').1
      · rintro ⟨-, hok, hf⟩
        have hstep := step_ok hat hv (by rw [hvi]; exact eok.mp hok)
        rw [hvi] at hstep
        obtain ⟨bus', hw⟩ := accepts_writeAll hI hacc (codeEffect (regs cpu) s.mem mn am).writes hm
        rw [hw] at hstep
        refine ⟨_, _, hstep, ?_, ?_⟩
        · exact (key.mpr hf).1
        · have h1 := writeAll_coherent hI _ hm hw
          have h2 := (key.mpr hf).2
          unfold store at h2
          rw [h2] at h1
          exact h1
    · intro ops cpu' hn
      obtain ⟨hok, -, -, -⟩ := step_inv hat hv hvi hn
      rw [step_cycles hat hv hvi hok hn, ← hr]
      exact cycles_iff hvi
  · constructor
    · constructor
      · rintro ⟨ops, cpu', hn, -⟩
        exfalso
        unfold next at hn
        rw [fetch_eq hv, if_pos] at hn
        · cases hn
        · unfold PcOk at hpc
          obtain ⟨h1, h2⟩ := not_or_checks hpc
          exact ⟨h1, by have h2 : ¬ cpu.pc.toNat < 65534 := h2; omega⟩
      · rintro ⟨h1, -, -⟩
        unfold PcOk at h1 hpc
        rw [epc] at h1
        exact absurd h1 hpc
    · intro ops cpu' hn
      exfalso
      unfold next at hn
      rw [fetch_eq hv, if_pos] at hn
      · cases hn
      · unfold PcOk at hpc
        obtain ⟨h1, h2⟩ := not_or_checks hpc
        exact ⟨h1, by have h2 : ¬ cpu.pc.toNat < 65534 := h2; omega⟩

/-- The emulator against the reference machine over `k` instructions, with an invariant `J`. -/
theorem follow {J : Mos6502 B → Prop} (hI : Coherent b I) (hacc : Accepts b I) (k : Nat) :
    ∀ {cpu : Mos6502 B} {s s' : Chip} {n : Nat}, Agrees I cpu s → J cpu →
    s.steps k = some (s', n) →
    (∀ j t m c mn am, j < k → s.steps j = some (t, m) → Agrees I c t → J c →
      t.instr = some (mn, am) →
      PcOk b t.regs ∧ AddrOk b t.regs t.mem am ∧ Faithful (regs c) t.mem mn am ∧
      CycleFaithful t.regs t.mem mn am ∧ ∀ ops c', next b c = .ok (ops, c') → J c') →
    ∃ l cpu', Instructions b cpu l cpu' ∧ l.length = k ∧ totalCycles l = n ∧ Agrees I cpu' s' ∧
      J cpu' := by
  induction k with
  | zero =>
    intro cpu s s' n h hJ hs _
    simp only [Chip.steps, Option.some.injEq, Prod.mk.injEq] at hs
    obtain ⟨rfl, rfl⟩ := hs
    exact ⟨[], cpu, .nil _, rfl, rfl, h, hJ⟩
  | succ k ih =>
    intro cpu s s' n h hJ hs hall
    simp only [Chip.steps] at hs
    cases h1 : s.step with
    | none => rw [h1] at hs; cases hs
    | some q =>
      obtain ⟨s1, n1⟩ := q
      rw [h1] at hs
      simp only at hs
      cases h2 : s1.steps k with
      | none => rw [h2] at hs; cases hs
      | some q =>
        obtain ⟨s2, n2⟩ := q
        rw [h2] at hs
        simp only [Option.some.injEq, Prod.mk.injEq] at hs
        obtain ⟨rfl, rfl⟩ := hs
        cases hi : s.instr with
        | none => unfold Chip.step at h1; rw [hi] at h1; cases h1
        | some q =>
          obtain ⟨mn, am⟩ := q
          obtain ⟨c1, c2, c3, c4, c5⟩ := hall 0 s 0 cpu mn am (by omega) rfl h hJ hi
          obtain ⟨key, hcyc⟩ := C65_partial hI hacc h hi h1
          obtain ⟨ops, cpu1, hn, ha⟩ := key.mpr ⟨c1, c2, c3⟩
          obtain ⟨l, cpu', hl, hlen, htot, hag, hJ'⟩ := ih ha (c5 ops cpu1 hn) h2 (by
            intro j t m c mn' am' hj ht
            refine hall (j + 1) t (n1 + m) c mn' am' (by omega) ?_
            simp only [Chip.steps, h1, ht])
          refine ⟨ops :: l, cpu', .cons hn hl, by simp [hlen], ?_, hag, hJ'⟩
          rw [totalCycles_cons, htot, (hcyc ops cpu1 hn).mpr c4]

/-- In a followed state bits 4 and 5 of the emulator's status stay set. -/
theorem keeps_bits {r : Regs} {mem : Mem} {mn : Mnemonic} {am : AddrMode}
    (hf : Faithful r mem mn am) (h1 : r.p.brk = true) (h2 : r.p.unused = true)
    (hplp : mn = .Plp → (mem (stack (r.sp.toNat + 1))).toNat / 16 % 4 = 3) :
    (codeEffect r mem mn am).regs.p.brk = true ∧ (codeEffect r mem mn am).regs.p.unused = true := by
  have hb : ∀ v : Byte, v.toNat / 16 % 4 = 3 →
      (ProcessorStatus.withValue v).brk = true ∧ (ProcessorStatus.withValue v).unused = true := by
    decide +kernel
  cases mn <;> first
    | exact hf.elim
    | exact ⟨h1, h2⟩
    | (have := hplp rfl
       have e : stack (r.sp + 1).toNat = stack (r.sp.toNat + 1) := stack_plus r.sp 1 (by omega)
       rw [← e] at this
       exact hb _ this)
    | exact ⟨rfl, h2⟩
    | (cases am <;> exact ⟨h1, h2⟩)

/-! ## C66 Whole executions -/

/-- As long as the reference machine stays in followed states, `k` instructions of the emulator lead
to the same registers and the same memory in the same number of cycles. -/
theorem C66_instructions {cpu : Mos6502 B} {s s' : Chip} {k n : Nat} (hI : Coherent b I)
    (hacc : Accepts b I) (h : Agrees I cpu s) (hbrk : cpu.ps.brk = true) (hun : cpu.ps.unused = true)
    (hs : s.steps k = some (s', n))
    (hf : ∀ j t m, j < k → s.steps j = some (t, m) → t.Followed b) :
    ∃ l cpu', Instructions b cpu l cpu' ∧ l.length = k ∧ totalCycles l = n ∧
      regs cpu' = s'.regs ∧ I cpu'.address_map s'.mem := by
  obtain ⟨l, cpu', hl, hlen, htot, hag, hJ⟩ := follow (J := fun c => c.ps.brk = true ∧ c.ps.unused = true)
    hI hacc k h ⟨hbrk, hun⟩ hs (by
      intro j t m c mn am hj ht ha hJ hi
      obtain ⟨c1, c2, c3, c4, c5⟩ := hf j t m hj ht mn am hi
      have er : regs c = t.regs := by
        rw [← ha.1]
        unfold chip
        rw [show (regs c).p = c.ps from rfl]
        obtain ⟨h1, h2⟩ := hJ
        generalize hp : c.ps = p at *
        obtain ⟨x1, x2, x3, x4, x5, x6, x7, x8⟩ := p
        simp only at h1 h2
        subst h1 h2
        rw [← hp]; rfl
      rw [← er] at c3
      refine ⟨c1, c2, c3, c4, ?_⟩
      intro ops c' hn
      have hv := (hI _ _ ha.2).1
      obtain ⟨i, hat, hvi⟩ := instr_at hv ha.1 (by rw [er]; exact c1) hi
      obtain ⟨-, -, hregs, -⟩ := step_inv hat hv hvi hn
      have := keeps_bits c3 hJ.1 hJ.2 (by rw [er]; exact c5)
      rw [← hregs] at this
      exact this)
  refine ⟨l, cpu', hl, hlen, htot, ?_, hag.2⟩
  rw [← hag.1]
  unfold chip
  rw [show (regs cpu').p = cpu'.ps from rfl]
  obtain ⟨h1, h2⟩ := hJ
  generalize hp : cpu'.ps = p at *
  obtain ⟨x1, x2, x3, x4, x5, x6, x7, x8⟩ := p
  simp only at h1 h2
  subst h1 h2
  rw [← hp]; rfl

/-- Running the emulator for the cycles the reference machine takes leads to the same state. -/
theorem C66_run {cpu : Mos6502 B} {s s' : Chip} {k n : Nat} (hI : Coherent b I)
    (hacc : Accepts b I) (h : Agrees I cpu s) (hbrk : cpu.ps.brk = true) (hun : cpu.ps.unused = true)
    (hs : s.steps k = some (s', n))
    (hf : ∀ j t m, j < k → s.steps j = some (t, m) → t.Followed b) :
    ∃ cpu', run b cpu n = .ok (.ready cpu') ∧ regs cpu' = s'.regs ∧ I cpu'.address_map s'.mem := by
  obtain ⟨l, cpu', hl, -, htot, h1, h2⟩ := C66_instructions hI hacc h hbrk hun hs hf
  exact ⟨cpu', C12_run_eq hl (by omega) (.inl htot), h1, h2⟩

/-- Programs of plain instructions only: no condition on registers, flags or memory is left, except
that a checked build must not reach an address overflow. -/
theorem C66_plain {cpu : Mos6502 B} {s s' : Chip} {k n : Nat} (hI : Coherent b I)
    (hacc : Accepts b I) (h : Agrees I cpu s) (hs : s.steps k = some (s', n))
    (hp : ∀ j t m mn am, j < k → s.steps j = some (t, m) → t.instr = some (mn, am) →
      plain mn am = true ∧ PcOk b t.regs ∧ AddrOk b t.regs t.mem am) :
    ∃ l cpu', Instructions b cpu l cpu' ∧ l.length = k ∧ totalCycles l = n ∧ Agrees I cpu' s' ∧
      run b cpu n = .ok (.ready cpu') := by
  obtain ⟨l, cpu', hl, hlen, htot, hag, -⟩ := follow (J := fun _ => True) hI hacc k h trivial hs (by
    intro j t m c mn am hj ht ha _ hi
    obtain ⟨h1, h2, h3⟩ := hp j t m mn am hj ht hi
    refine ⟨h2, h3, ?_, ?_, fun _ _ _ => trivial⟩
    · cases mn <;> first
        | exact trivial
        | (exfalso; revert h1; simp [plain])
    · cases am <;> first
        | exact trivial
        | (simp only [plain, Bool.and_eq_true, decide_eq_true_eq] at h1; exact .inl h1.2)
        | (intro htk; exfalso; revert htk h1
           cases mn <;> simp [plain, taken]))
  exact ⟨l, cpu', hl, hlen, htot, hag, C12_run_eq hl (by omega) (.inl htot)⟩

end

/-- BCS taken: the emulator arrives two bytes before the target. -/
theorem C65_refuted : ¬ C65_statement := by
  intro h
  have hI := flatRam_coherent .debug
  have hacc : Accepts .debug (fun (d : FlatRam) mem => d.mem = mem) :=
    fun _ _ _ _ _ => ⟨_, _, rfl⟩
  have hag : Agrees (fun (d : FlatRam) mem => d.mem = mem) (machine sampleRegs 0xb0 0x10 0)
      ⟨chip sampleRegs, codeAt sampleRegs.pc 0xb0 0x10 0 (fun _ => 0)⟩ := ⟨rfl, rfl⟩
  obtain ⟨ops, cpu', hn, ha, -⟩ := h FlatRam .debug _ _ _ _ _ hI hacc hag rfl
  have := (C65_partial hI hacc hag rfl rfl).1.mp ⟨ops, cpu', hn, ha⟩
  have ht : taken .Bcs sampleRegs.p = some false := this.2.2
  revert ht
  decide

/-- LDA #0x80 at 0x80fd is faithful: the hypotheses of `C65_partial` and its condition hold. -/
example : ∃ s' n, (⟨chip sampleRegs, codeAt sampleRegs.pc 0xa9 0x80 0 (fun _ => 0)⟩ : Chip).step =
      some (s', n) ∧ n = 2 ∧ s'.regs.a = 0x80 ∧ s'.regs.p.negative = true ∧
    Agrees (fun (d : FlatRam) mem => d.mem = mem) (machine sampleRegs 0xa9 0x80 0)
      ⟨chip sampleRegs, codeAt sampleRegs.pc 0xa9 0x80 0 (fun _ => 0)⟩ :=
  ⟨_, _, rfl, rfl, rfl, by decide, rfl, rfl⟩

/-- A program with instructions that can deviate but do not here: LDA #0x90, CMP #0x80, PHP, PLP,
BEQ (not taken), DEX. -/
def sampleProgram : Mem := fun a =>
  ([0xa9, 0x90, 0xc9, 0x80, 0x08, 0x28, 0xf0, 0x04, 0xca][a.toNat - 0x8000]?).getD 0

/-- The reference machine at its start. -/
def sampleStart : Chip := ⟨{ chip sampleRegs with pc := 0x8000 }, sampleProgram⟩

instance (b : Build) (r : Regs) (mem : Mem) (am : AddrMode) : Decidable (AddrOk b r mem am) := by
  cases am <;> (unfold AddrOk; infer_instance)

instance (r : Regs) (mem : Mem) (mn : Mnemonic) (am : AddrMode) : Decidable (Faithful r mem mn am) := by
  cases mn <;> (unfold Faithful; infer_instance)

instance (r : Regs) (mem : Mem) (mn : Mnemonic) (am : AddrMode) :
    Decidable (CycleFaithful r mem mn am) := by
  cases am <;> (unfold CycleFaithful; infer_instance)

instance (b : Build) (r : Regs) : Decidable (PcOk b r) := by unfold PcOk; infer_instance

/-- `Chip.Followed` as a check. -/
def followedCheck (b : Build) (s : Chip) : Bool :=
  match s.instr with
  | none => true
  | some (mn, am) => decide (PcOk b s.regs ∧ AddrOk b s.regs s.mem am ∧ Faithful s.regs s.mem mn am ∧
    CycleFaithful s.regs s.mem mn am ∧
    (mn = .Plp → (s.mem (stack (s.regs.sp.toNat + 1))).toNat / 16 % 4 = 3))

theorem followed_of_check {b : Build} {s : Chip} (h : followedCheck b s = true) : s.Followed b := by
  intro mn am hi
  unfold followedCheck at h
  rw [hi] at h
  exact of_decide_eq_true h

/-- The hypotheses of `C66_instructions` and `C66_run` hold for its six instructions, 15 cycles. -/
example : (sampleStart.steps 6).map (fun p => (p.1.regs.x, p.1.regs.p.zero, p.2)) =
      some (0, true, 15) ∧
    ∀ j t m, j < 6 → sampleStart.steps j = some (t, m) → t.Followed .debug := by
  refine ⟨by decide +kernel, ?_⟩
  have h : ∀ j < 6, ((sampleStart.steps j).map fun p => followedCheck .debug p.1) = some true := by
    decide +kernel
  intro j t m hj ht
  have := h j hj
  rw [ht] at this
  exact followed_of_check (Option.some.inj this)

theorem inx_documented : documented (0xe8 : Byte).toNat 0xe8 0xe8 = some (.Inx, .implied) := by decide

/-- All of memory is INX: the hypotheses of `C66_plain` hold for every number of steps. -/
theorem inx_steps (k : Nat) : ∀ r : Regs, ∃ s' n, (⟨r, fun _ => 0xe8⟩ : Chip).steps k = some (s', n) ∧
    s'.mem = fun _ => 0xe8 := by
  induction k with
  | zero => intro r; exact ⟨_, _, rfl, rfl⟩
  | succ k ih =>
    intro r
    obtain ⟨s', n, h, hm⟩ := ih { r with
      x := byte (r.x.toNat + 1), p := setNZ r.p (byte (r.x.toNat + 1)), pc := nextPc r .implied }
    refine ⟨s', 2 + n, ?_, hm⟩
    have h1 : (⟨r, fun _ => 0xe8⟩ : Chip).step = some (⟨{ r with
      x := byte (r.x.toNat + 1), p := setNZ r.p (byte (r.x.toNat + 1)), pc := nextPc r .implied },
      fun _ => 0xe8⟩, 2) := by
      unfold Chip.step Chip.instr
      rw [show documented _ _ _ = _ from inx_documented]
      rfl
    simp only [Chip.steps, h1, h]

example (k : Nat) (r : Regs) : (∃ s' n, (⟨r, fun _ => 0xe8⟩ : Chip).steps k = some (s', n)) ∧
    ∀ j t m mn am, j < k → (⟨r, fun _ => 0xe8⟩ : Chip).steps j = some (t, m) →
      t.instr = some (mn, am) → plain mn am = true ∧ PcOk .release t.regs ∧
      AddrOk .release t.regs t.mem am := by
  obtain ⟨s', n, h, -⟩ := inx_steps k r
  refine ⟨⟨s', n, h⟩, ?_⟩
  intro j t m mn am hj ht hi
  obtain ⟨s'', n', h', hm⟩ := inx_steps j r
  rw [ht] at h'
  simp only [Option.some.injEq, Prod.mk.injEq] at h'
  obtain ⟨rfl, rfl⟩ := h'
  unfold Chip.instr at hi
  rw [hm] at hi
  obtain ⟨rfl, rfl⟩ := Prod.mk.inj (Option.some.inj (inx_documented.symm.trans hi))
  exact ⟨rfl, .inl rfl, trivial⟩

end Verif.Props
