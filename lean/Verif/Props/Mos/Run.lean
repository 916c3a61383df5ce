import Verif.Proofs.MosRel
import Verif.Props.Mos.Control

/-!
# Properties C12, C13, C14, C36, C37: execution over many instructions
-/

namespace Verif.Props

open Verif Verif.Mos Verif.Spec.Mos

section
variable {B : Type} [Addressable B] {b : Build} {cpu c c' : Mos6502 B} {mem : Mem}

/-! ## C12 `run` executes whole instructions only -/

/-- A `run` that does not panic returns, ready, the CPU after some whole instructions `l`; they fit
in the cycles, and every sequence of instructions that fits is a prefix of them. -/
theorem C12_run_ok {n : Nat} {s : StepState (Mos6502 B)} (h : run b c n = .ok s) :
    ∃ l c', Instructions b c l c' ∧ totalCycles l ≤ n ∧ s = .ready c' ∧
      ∀ l' c'', Instructions b c l' c'' → totalCycles l' ≤ n → l' <+: l := by
  rw [run_eq] at h
  rcases runLoop_cases (b := b) n c with ⟨l, d, h1, h2, h3, h4⟩ | ⟨l, d, p, h1, h2, h3, h4⟩
  · rw [h4] at h
    simp only [Except.map, Except.ok.injEq] at h
    refine ⟨l, d, h1, h2, h.symm, ?_⟩
    clear h h4
    induction h1 generalizing n with
    | nil c =>
      intro l' c'' hl' ht
      cases hl' with
      | nil _ => exact List.prefix_rfl
      | @cons _ e _ ops l' hx hr =>
        exfalso
        rw [totalCycles_cons] at ht
        obtain ⟨hc, -⟩ := next_inv hx
        rcases h3 with h3 | ⟨ops', e', h3, h3'⟩
        · rw [show totalCycles [] = 0 from rfl] at h3; omega
        · rw [hx] at h3
          simp only [Except.ok.injEq, Prod.mk.injEq] at h3
          rw [show totalCycles [] = 0 from rfl] at h3'
          rw [h3.1] at ht
          omega
    | @cons c e d ops l hx hr ih =>
      rw [totalCycles_cons] at h2 h3
      have ih := ih (n := n - ops.cycles) (by omega) (by
        rcases h3 with h3 | ⟨ops', e', h3, h3'⟩
        · left; omega
        · right; exact ⟨ops', e', h3, by omega⟩)
      intro l' c'' hl' ht
      cases hl' with
      | nil _ => exact List.nil_prefix
      | @cons _ e' _ ops' l' hx' hr' =>
        rw [hx] at hx'
        simp only [Except.ok.injEq, Prod.mk.injEq] at hx'
        obtain ⟨rfl, rfl⟩ := hx'
        rw [totalCycles_cons] at ht
        exact List.cons_prefix_cons.2 ⟨rfl, ih l' c'' hr' (by omega)⟩
  · rw [h4] at h; cases h

/-- Conversely: if the instructions `l` fit and use up the cycles, or the next one does not fit, the
result is the CPU after `l`. -/
theorem C12_run_eq {n : Nat} {l : List Operations} (h : Instructions b c l c')
    (hfit : totalCycles l ≤ n)
    (hmax : totalCycles l = n ∨
      ∃ ops c'', next b c' = .ok (ops, c'') ∧ n < totalCycles l + ops.cycles) :
    run b c n = .ok (.ready c') := by
  rw [run_eq, runLoop_instructions h n hfit]
  rcases hmax with hmax | ⟨ops, c'', hx, hlt⟩
  · rw [show n - totalCycles l = 0 by omega]; rfl
  · by_cases h0 : n - totalCycles l = 0
    · rw [h0]; rfl
    · rw [runLoop_step _ (by omega), hx]
      simp only
      rw [if_pos (by omega)]
      rfl

/-- `run` panics exactly when an instruction whose first cycle is reached panics. -/
theorem C12_panic {n : Nat} {p : Panic} : run b c n = .error p ↔
    ∃ l c', Instructions b c l c' ∧ totalCycles l < n ∧ next b c' = .error p := by
  constructor
  · intro h
    rw [run_eq] at h
    rcases runLoop_cases (b := b) n c with ⟨l, d, h1, h2, h3, h4⟩ | ⟨l, d, q, h1, h2, h3, h4⟩
    · rw [h4] at h; cases h
    · rw [h4] at h
      simp only [Except.map, Except.error.injEq] at h
      subst h
      exact ⟨l, d, h1, h2, h3⟩
  · rintro ⟨l, d, h1, h2, h3⟩
    rw [run_eq, runLoop_instructions h1 n (by omega), runLoop_step _ (by omega), h3]
    rfl

/-! ## C13 Splitting a run -/

/-- What C13 claims. -/
def C13_statement : Prop :=
  ∀ (B : Type) [Addressable B] (b : Build) (c : Mos6502 B) (m n : Nat) (s : StepState (Mos6502 B)),
    run b c m = .ok s → s.run b n = run b c (m + n)

/-- Two runs of one cycle never execute a NOP; one run of two cycles does. -/
theorem C13_split_wrong : ¬ C13_statement := by
  intro h
  have h := h FlatRam .debug (machine sampleRegs 0xea 0xea 0xea) 1 1 _ rfl
  have h1 : ((StepState.ready (machine sampleRegs 0xea 0xea 0xea)).run .debug 1).map
    (fun s => s.unwrap.pc) = .ok 0x80fd := by decide +kernel
  have h2 : (run .debug (machine sampleRegs 0xea 0xea 0xea) (1 + 1)).map
    (fun s => s.unwrap.pc) = .ok 0x80fe := by decide +kernel
  have h3 := congrArg (fun z => Except.map (fun s : StepState (Mos6502 FlatRam) => s.unwrap.pc) z) h
  rw [h2] at h3
  have h4 := h1.symm.trans h3
  revert h4
  decide

/-- What holds: the cycles of the first run that did not complete an instruction are lost. If the
first run completed the instructions `l`, splitting is running `totalCycles l + n` cycles; so the
split is faithful whenever the first run ends on an instruction boundary. -/
theorem C13_partial {m n : Nat} {s : StepState (Mos6502 B)} (h : run b c m = .ok s) :
    ∃ l c', Instructions b c l c' ∧ totalCycles l ≤ m ∧ s = .ready c' ∧
      (∀ l' c'', Instructions b c l' c'' → totalCycles l' ≤ m → l' <+: l) ∧
      s.run b n = run b c (totalCycles l + n) ∧
      (totalCycles l = m → s.run b n = run b c (m + n)) := by
  obtain ⟨l, d, h1, h2, rfl, h4⟩ := C12_run_ok h
  have key : (StepState.ready d).run b n = run b c (totalCycles l + n) := by
    show run b d n = _
    rw [run_eq, run_eq, runLoop_instructions h1 (totalCycles l + n) (by omega)]
    congr 2; omega
  exact ⟨l, d, h1, h2, rfl, h4, key, fun e => by rw [key, e]⟩

/-! ## C14 Replaying the emitted microcode -/

/-- Collecting the microcode of `n` cycles and folding it onto the CPU is running `n` cycles. -/
theorem C14_replay_is_run {n : Nat} {l : List Microcode} (h : capture b c n = .ok l) :
    (replay b l c).map StepState.ready = run b c n := by
  rw [run_eq]
  unfold replay
  rw [capture_runLoop n c [] c l h]

/-- The collection panics exactly when the run does, with the same panic. -/
theorem C14_capture_panics {n : Nat} {p : Panic} :
    capture b c n = .error p ↔ run b c n = .error p := by
  have h := capture_panics (b := b) n c
  rw [run_eq]
  show captureLoop b n c [] = _ ↔ _
  cases h1 : captureLoop b n c [] <;> cases h2 : runLoop b n c [] c <;> rw [h1, h2] at h <;>
    simp_all [Except.map]

/-- The iterator's own state after the instructions `l` is the CPU after replaying their microcode,
each instruction being its microcode followed by the advance of `pc`. -/
theorem C14_iterator_state {l : List Operations} (h : Instructions b c l c') :
    replay b (l.flatMap microcodeOf) c = .ok c' := by
  induction h with
  | nil c => rfl
  | @cons c d e ops l hx _ ih =>
    unfold replay at ih ⊢
    obtain ⟨hc, mcs, hs, he⟩ := next_inv hx
    have hm : mcs = microcodeOf ops := by
      unfold Operations.intoSteps at hs
      simp only at hs
      rw [if_neg (by omega)] at hs
      simp only [Except.ok.injEq] at hs
      have := List.append_cancel_left hs
      simp only [List.cons.injEq, and_true] at this
      exact this.symm
    rw [List.flatMap_cons, executeAll_append, ← hm, he]
    exact ih

end

/-- Two NOPs and a JMP: a program that meets the hypotheses of C12 – C14. -/
def runProgram : Mos6502 FlatRam := machine sampleRegs 0xea 0xea 0x4c (fun a =>
  if a = 0x8100 then 0xfd else if a = 0x8101 then 0x80 else 0)

/-- NOP, NOP, JMP 0x80fd take 2 + 2 + 3 cycles; 5 cycles complete the two NOPs only. -/
example : ∃ l c', Instructions .debug runProgram l c' ∧ totalCycles l = 7 ∧ c'.pc = 0x80fd := by
  refine ⟨[⟨1, 2, []⟩, ⟨1, 2, []⟩, ⟨0, 3, [.Write16bitRegister .Pc 0x80fd]⟩],
    afterN .debug runProgram 3, ?_, by decide, by decide +kernel⟩
  have e : ∀ k ops, (next .debug (afterN .debug runProgram k)).map Prod.fst = .ok ops →
      next .debug (afterN .debug runProgram k) = .ok (ops, afterN .debug runProgram (k + 1)) := by
    intro k ops h
    have ha : afterN .debug runProgram (k + 1) = after1 .debug (afterN .debug runProgram k) := rfl
    rw [ha]
    unfold after1
    cases hn : next .debug (afterN .debug runProgram k) with
    | error e => rw [hn] at h; cases h
    | ok p =>
      rw [hn] at h
      simp only [Except.map, Except.ok.injEq] at h
      rw [← h]
  exact .cons (e 0 _ (by decide +kernel)) (.cons (e 1 _ (by decide +kernel))
    (.cons (e 2 _ (by decide +kernel)) (.nil _)))

example : (run .debug runProgram 5).map (fun s => s.unwrap.pc) = .ok 0x80ff ∧
    (run .debug runProgram 7).map (fun s => s.unwrap.pc) = .ok 0x80fd := by
  constructor <;> decide +kernel

example : (capture .debug runProgram 7) = .ok [.Inc16bitRegister .Pc 1, .Inc16bitRegister .Pc 1,
    .Write16bitRegister .Pc 0x80fd, .Inc16bitRegister .Pc 0] := by decide +kernel

/-! ## C36 When a step panics -/

section
variable {B : Type} [Addressable B] {b : Build} {cpu c c' : Mos6502 B} {mem : Mem}

/-- The exact condition, in terms of the writes of the code. -/
theorem next_error_iff (hv : BusView b cpu.address_map mem) {p : Panic} :
    next b cpu = .error p ↔
      (b.overflowChecks = true ∧ 0xfffe ≤ cpu.pc.toNat ∧ p = .overflow) ∨
      (¬(b.overflowChecks = true ∧ 0xfffe ≤ cpu.pc.toNat) ∧
        (Isa.parseInstruction (mem cpu.pc) (mem (cpu.pc + 1)) (mem (cpu.pc + 2)) = none ∧
          p = .unwrapErr s!"No match found for {(mem cpu.pc).toNat}" ∨
        ∃ i, Isa.parseInstruction (mem cpu.pc) (mem (cpu.pc + 1)) (mem (cpu.pc + 2)) = some i ∧
          (b.overflowChecks = true ∧ p = .overflow ∧
            ((∃ z, (view i).2 = .indexedIndirect z ∧ cpu.x = 0xff) ∨
             (∃ z, (view i).2 = .indirectIndexed z ∧
               65536 ≤ (mem (word z.toNat)).toNat + 256 * (mem (word ((z.toNat + 1) % 256))).toNat +
                 cpu.y.toNat) ∨
             (view i).2 = .indirect 0xffff) ∨
           AddrOk b (regs cpu) mem (view i).2 ∧
            writeAll b cpu.address_map (codeEffect (regs cpu) mem (view i).1 (view i).2).writes =
              .error p))) := by
  have hf := fetch_eq hv
  by_cases h1 : b.overflowChecks = true ∧ 65534 ≤ cpu.pc.toNat
  · rw [if_pos h1] at hf
    have : next b cpu = .error .overflow := by unfold next; rw [hf]; rfl
    rw [this]
    simp only [h1, true_and, not_true, false_and, or_false, Except.error.injEq]
    exact eq_comm
  · rw [if_neg h1] at hf
    have h1' : ¬(b.overflowChecks = true ∧ 65534 ≤ cpu.pc.toNat ∧ p = .overflow) :=
      fun h => h1 ⟨h.1, h.2.1⟩
    simp only [h1, h1', false_or, not_false_eq_true, true_and]
    cases hp : Isa.parseInstruction (mem cpu.pc) (mem (cpu.pc + 1)) (mem (cpu.pc + 2)) with
    | none =>
      rw [hp] at hf
      have : next b cpu = .error (.unwrapErr s!"No match found for {(mem cpu.pc).toNat}") := by unfold next; rw [hf]; rfl
      rw [this]
      simp only [true_and, reduceCtorEq, false_and, exists_false, or_false, Except.error.injEq]
      exact eq_comm
    | some i =>
      rw [hp] at hf
      have hat : At b cpu i := hf
      have hover : (b.overflowChecks = true ∧
          ((∃ z, (view i).2 = .indexedIndirect z ∧ cpu.x = 0xff) ∨
             (∃ z, (view i).2 = .indirectIndexed z ∧
               65536 ≤ (mem (word z.toNat)).toNat + 256 * (mem (word ((z.toNat + 1) % 256))).toNat +
                 cpu.y.toNat) ∨
             (view i).2 = .indirect 0xffff)) ↔ ¬AddrOk b (regs cpu) mem (view i).2 := by
        generalize (view i).2 = am
        cases am with
        | indexedIndirect z =>
          simp only [AddrOk, not_or, Bool.not_eq_false, Decidable.not_not, AddrMode.indexedIndirect.injEq,
            reduceCtorEq, false_and, exists_false, or_false, exists_eq_left', regs]
          constructor
          · rintro ⟨h, h'⟩; exact ⟨h, by rw [h']; rfl⟩
          · rintro ⟨h, h'⟩; exact ⟨h, BitVec.eq_of_toNat_eq h'⟩
        | indirectIndexed z =>
          simp only [AddrOk, not_or, Bool.not_eq_false, AddrMode.indirectIndexed.injEq,
            reduceCtorEq, false_and, exists_false, or_false, false_or, exists_eq_left', regs, baseAddr,
            le, Nat.not_lt]
        | indirect w =>
          simp only [AddrOk, not_or, Bool.not_eq_false, Decidable.not_not, AddrMode.indirect.injEq,
            reduceCtorEq, false_and, exists_false, false_or]
          constructor
          · rintro ⟨h, h'⟩; exact ⟨h, by rw [h']; rfl⟩
          · rintro ⟨h, h'⟩; exact ⟨h, BitVec.eq_of_toNat_eq h'⟩
        | _ => simp [AddrOk]
      simp only [Option.some.injEq, reduceCtorEq, false_and, false_or, exists_eq_left']
      by_cases hok : AddrOk b (regs cpu) mem (view i).2
      · have h2 := step_ok hat hv hok
        have h3 : ∀ {q : Prop}, ¬(b.overflowChecks = true ∧ q ∧ _) := fun h =>
          (hover.1 ⟨h.1, h.2.2⟩) hok
        simp only [h3, false_or, hok, true_and]
        rw [h2]
        cases writeAll b cpu.address_map (codeEffect (regs cpu) mem (view i).1 (view i).2).writes with
        | error e => simp [Except.map]
        | ok _ => simp [Except.map]
      · have h2 := step_overflow hat hv hok
        rw [h2]
        simp only [hok, false_and, or_false, Except.error.injEq]
        obtain ⟨ha, hb⟩ := hover.2 hok
        constructor
        · rintro rfl; exact ⟨ha, rfl, hb⟩
        · rintro ⟨-, rfl, -⟩; rfl

/-- The address arithmetic of an instruction leaves the 8 or 16 bits it is done in. -/
def AddressOverflows (cpu : Mos6502 B) (mem : Mem) (am : AddrMode) : Prop :=
  (∃ z, am = .indexedIndirect z ∧ cpu.x = 0xff) ∨
  (∃ z, am = .indirectIndexed z ∧
    65536 ≤ (mem (word z.toNat)).toNat + 256 * (mem (word ((z.toNat + 1) % 256))).toNat +
      cpu.y.toNat) ∨
  am = .indirect 0xffff

/-- On a bus whose reads do not panic, a step panics only for one of the listed reasons. `writable`
lists the addresses the instruction is documented to write, in order. -/
theorem C36_panic_reasons (hv : BusView b cpu.address_map mem) {p : Panic}
    (h : next b cpu = .error p) :
    (b.overflowChecks = true ∧ 0xfffe ≤ cpu.pc.toNat ∧ p = .overflow) ∨
    (Isa.parseInstruction (mem cpu.pc) (mem (cpu.pc + 1)) (mem (cpu.pc + 2)) = none ∧
      p = .unwrapErr s!"No match found for {(mem cpu.pc).toNat}") ∨
    ∃ i, Isa.parseInstruction (mem cpu.pc) (mem (cpu.pc + 1)) (mem (cpu.pc + 2)) = some i ∧
      (b.overflowChecks = true ∧ AddressOverflows cpu mem (view i).2 ∧ p = .overflow ∨
       ∃ ws : List (Word × Byte),
        ws.map Prod.fst = writable (regs cpu) mem (view i).1 (view i).2 ∧
        writeAll b cpu.address_map ws = .error p) := by
  rcases (next_error_iff hv).1 h with h | ⟨-, h | ⟨i, hi, ⟨h1, h2, h3⟩ | ⟨-, h⟩⟩⟩
  · exact .inl h
  · exact .inr (.inl h)
  · exact .inr (.inr ⟨i, hi, .inl ⟨h1, h3, h2⟩⟩)
  · exact .inr (.inr ⟨i, hi, .inr ⟨_, codeEffect_writes _ _, h⟩⟩)

/-- And the reasons other than refused writes do make it panic. -/
theorem C36_panics (hv : BusView b cpu.address_map mem) :
    (b.overflowChecks = true → 0xfffe ≤ cpu.pc.toNat → next b cpu = .error .overflow) ∧
    (¬(b.overflowChecks = true ∧ 0xfffe ≤ cpu.pc.toNat) →
      Isa.parseInstruction (mem cpu.pc) (mem (cpu.pc + 1)) (mem (cpu.pc + 2)) = none →
      next b cpu = .error (.unwrapErr s!"No match found for {(mem cpu.pc).toNat}")) ∧
    (∀ i, b.overflowChecks = true → cpu.pc.toNat < 0xfffe →
      Isa.parseInstruction (mem cpu.pc) (mem (cpu.pc + 1)) (mem (cpu.pc + 2)) = some i →
      AddressOverflows cpu mem (view i).2 → next b cpu = .error .overflow) := by
  refine ⟨fun h1 h2 => ?_, fun h1 h2 => ?_, fun i h1 h2 h3 h4 => ?_⟩
  · exact (next_error_iff hv).2 (.inl ⟨h1, h2, rfl⟩)
  · exact (next_error_iff hv).2 (.inr ⟨h1, .inl ⟨h2, rfl⟩⟩)
  · exact (next_error_iff hv).2 (.inr ⟨fun h => by omega, .inr ⟨i, h3, .inl ⟨h1, rfl, h4⟩⟩⟩)

/-- Nor does a refused write go unnoticed: on a bus that, whatever else it takes, refuses every byte for
the address `a`, an instruction documented to write to `a` panics. -/
theorem C36_refused {P : B → Prop} {a : Word} {i : InstructionVariant} (hbus : P cpu.address_map)
    (hkeep : ∀ bus, P bus → ∀ w v r bus', Addressable.write b bus w v = .ok (.ok r, bus') → P bus')
    (href : ∀ bus, P bus → ∀ v, ∃ e bus', Addressable.write b bus a v = .ok (.error e, bus'))
    (hv : BusView b cpu.address_map mem)
    (hi : Isa.parseInstruction (mem cpu.pc) (mem (cpu.pc + 1)) (mem (cpu.pc + 2)) = some i)
    (ha : a ∈ writable (regs cpu) mem (view i).1 (view i).2) : ∃ p, next b cpu = .error p := by
  have hw : ∀ (ws : List (Word × Byte)) (bus : B), P bus → a ∈ ws.map Prod.fst → ∃ p, writeAll b bus ws = .error p := by
    intro ws
    induction ws with
    | nil => intro _ _ h; cases h
    | cons w ws ih =>
      intro bus hb hm
      unfold writeAll
      cases hx : Addressable.write b bus w.1 w.2 with
      | error p => exact ⟨p, rfl⟩
      | ok q =>
        obtain ⟨r, bus'⟩ := q
        cases r with
        | error e => exact ⟨_, rfl⟩
        | ok r =>
          refine ih bus' (hkeep bus hb _ _ _ _ hx) ?_
          rcases List.mem_cons.1 hm with h | h
          · obtain ⟨e, bus'', he⟩ := href bus hb w.2
            rw [h, hx] at he
            injection he with he
            injection he with he
            cases he
          · exact h
  obtain ⟨p, hp⟩ := hw (codeEffect (regs cpu) mem (view i).1 (view i).2).writes _ hbus (by
    rw [codeEffect_writes]; exact ha)
  by_cases h1 : b.overflowChecks = true ∧ 0xfffe ≤ cpu.pc.toNat
  · exact ⟨_, (next_error_iff hv).2 (.inl ⟨h1.1, h1.2, rfl⟩)⟩
  · by_cases hok : AddrOk b (regs cpu) mem (view i).2
    · exact ⟨p, (next_error_iff hv).2 (.inr ⟨h1, .inr ⟨i, hi, .inr ⟨hok, hp⟩⟩⟩)⟩
    · have hf := fetch_eq hv
      rw [if_neg h1, hi] at hf
      exact ⟨_, step_overflow (i := i) hf hv hok⟩

theorem writeAll_accepts {P : B → Prop} (hP : AcceptsWrites b P) (ws : List (Word × Byte)) :
    ∀ bus, P bus → ∃ bus', writeAll b bus ws = .ok bus' ∧ P bus' := by
  induction ws with
  | nil => exact fun bus h => ⟨bus, rfl, h⟩
  | cons w ws ih =>
    intro bus h
    obtain ⟨r, bus', hw, h'⟩ := hP bus h w.1 w.2
    obtain ⟨bus'', hw', h''⟩ := ih bus' h'
    refine ⟨bus'', ?_, h''⟩
    simp only [writeAll, hw]
    exact hw'

/-- In a build without overflow checks, on a bus that accepts every write, a step at a documented
opcode does not panic. -/
theorem C36_no_panic {P : B → Prop} (hb : b.overflowChecks = false)
    (hP : AcceptsWrites b P) (hbus : P cpu.address_map) (hv : BusView b cpu.address_map mem)
    (hdoc : Isa.parseInstruction (mem cpu.pc) (mem (cpu.pc + 1)) (mem (cpu.pc + 2)) ≠ none) :
    ∃ ops cpu', next b cpu = .ok (ops, cpu') ∧ P cpu'.address_map := by
  cases hn : next b cpu with
  | error p =>
    exfalso
    rcases C36_panic_reasons hv hn with h | h | ⟨i, hi, h | ⟨ws, -, h⟩⟩
    · rw [hb] at h; exact absurd h.1 (by decide)
    · exact hdoc h.1
    · rw [hb] at h; exact absurd h.1 (by decide)
    · obtain ⟨bus', hw, -⟩ := writeAll_accepts hP ws _ hbus
      rw [hw] at h; cases h
  | ok q =>
    obtain ⟨ops, cpu'⟩ := q
    refine ⟨ops, cpu', rfl, ?_⟩
    have hf := fetch_eq hv
    rw [if_neg (by rw [hb]; rintro ⟨h, -⟩; cases h)] at hf
    cases hp : Isa.parseInstruction (mem cpu.pc) (mem (cpu.pc + 1)) (mem (cpu.pc + 2)) with
    | none => exact absurd hp hdoc
    | some i =>
      rw [hp] at hf
      obtain ⟨-, -, -, hw⟩ := step_inv (i := i) hf hv rfl hn
      obtain ⟨bus', hw', h'⟩ := writeAll_accepts hP _ _ hbus
      rw [hw] at hw'
      simp only [Except.ok.injEq] at hw'
      rw [hw']; exact h'

/-- So a whole run on such a bus does not panic as long as it meets documented opcodes only. -/
theorem C36_run_no_panic {P : B → Prop} {n : Nat} (hb : b.overflowChecks = false)
    (hP : AcceptsWrites b P) (hbus : P c.address_map)
    (hv : ∀ bus, P bus → ∃ mem, BusView b bus mem)
    (hdoc : ∀ l c' mem, Instructions b c l c' → totalCycles l < n → BusView b c'.address_map mem →
      Isa.parseInstruction (mem c'.pc) (mem (c'.pc + 1)) (mem (c'.pc + 2)) ≠ none) :
    ∃ c', run b c n = .ok (.ready c') ∧ P c'.address_map := by
  have inv : ∀ l c', Instructions b c l c' → totalCycles l ≤ n → P c'.address_map := by
    intro l c' h
    induction h generalizing n with
    | nil _ => exact fun _ => hbus
    | @cons c d e ops l hx hr ih =>
      intro hn
      rw [totalCycles_cons] at hn
      obtain ⟨hc, -⟩ := next_inv hx
      obtain ⟨mem, hm⟩ := hv _ hbus
      obtain ⟨ops', d', hx', hd⟩ := C36_no_panic hb hP hbus hm
        (hdoc [] c mem (.nil c) (by rw [show totalCycles [] = 0 from rfl]; omega) hm)
      rw [hx] at hx'
      simp only [Except.ok.injEq, Prod.mk.injEq] at hx'
      obtain ⟨rfl, rfl⟩ := hx'
      refine ih (n := n - ops.cycles) hd (fun l' c' mem' h1 h2 h3 => ?_) (by omega)
      exact hdoc (ops :: l') c' mem' (.cons hx h1) (by rw [totalCycles_cons]; omega) h3
  cases hr : run b c n with
  | error p =>
    exfalso
    obtain ⟨l, d, h1, h2, h3⟩ := C12_panic.1 hr
    obtain ⟨mem, hm⟩ := hv _ (inv l d h1 (by omega))
    obtain ⟨ops, e, hx, -⟩ := C36_no_panic hb hP (inv l d h1 (by omega)) hm (hdoc l d mem h1 h2 hm)
    rw [h3] at hx; cases hx
  | ok s =>
    obtain ⟨l, d, h1, h2, rfl, -⟩ := C12_run_ok hr
    exact ⟨d, rfl, inv l d h1 h2⟩

end

/-- A 64K RAM device accepts every write. -/
theorem flatRam_accepts (b : Build) : AcceptsWrites b (fun _ : FlatRam => True) :=
  fun _ _ _ v => ⟨v, _, rfl, trivial⟩

/-- Any registers, in front of any documented opcode, with any memory around it: `C36_no_panic`
applies. -/
example (r : Regs) (o1 o2 o3 : Byte) (fill : Mem) (h : Isa.parseInstruction o1 o2 o3 ≠ none) :
    ∃ ops cpu', next .release (machine r o1 o2 o3 fill) = .ok (ops, cpu') := by
  obtain ⟨ops, cpu', hn, -⟩ := C36_no_panic (b := .release) rfl (flatRam_accepts _) trivial
    (machine_view .release r o1 o2 o3 fill)
    (by
      have e0 : codeAt r.pc o1 o2 o3 fill r.pc = o1 := by simp [codeAt]
      have e1 : codeAt r.pc o1 o2 o3 fill (r.pc + 1) = o2 := by simp [codeAt]
      have e2 : codeAt r.pc o1 o2 o3 fill (r.pc + 2) = o3 := by simp [codeAt]
      have epc : (machine r o1 o2 o3 fill).pc = r.pc := rfl
      rw [epc, e0, e1, e2]; exact h)
  exact ⟨ops, cpu', hn⟩

/-- LDA (0x10,X) with X = 0xff: one of the overflow panics. -/
example : next .debug (machine { sampleRegs with x := 0xff } 0xa1 0x10 0x00) = .error .overflow :=
  (C36_panics (machine_view _ _ _ _ _ _)).2.2 (.LdaXIndexedIndirect 0x10) rfl (by decide) rfl
    (.inl ⟨0x10, rfl, rfl⟩)

/-- A bus for the next case: all bytes are those of `mem`, and the upper half refuses writes. -/
structure HalfRom where
  mem : Word → Byte

instance : Addressable HalfRom where
  read _ d a := .ok (d.mem a)
  write _ d a v := if 0x8000 ≤ a.toNat then .ok (.error "memory is read-only", d) else
    .ok (.ok v, ⟨fun x => if x = a then v else d.mem x⟩)

/-- `STA 0x9000` panics on it, in any state, wherever the instruction lies. -/
example (b : Build) (r : Regs) (mem : Mem) (h0 : mem r.pc = 0x8d) (h1 : mem (r.pc + 1) = 0) (h2 : mem (r.pc + 2) = 0x90) :
    ∃ p, next b (withRegs r (⟨mem⟩ : HalfRom)) = .error p :=
  C36_refused (P := fun _ => True) (a := 0x9000) (i := .StaAbsolute 0x9000) trivial (fun _ _ _ _ _ _ _ => trivial)
    (fun bus _ v => ⟨"memory is read-only", bus, rfl⟩) (mem := mem) (fun _ => rfl)
    (by show Isa.parseInstruction (mem r.pc) (mem (r.pc + 1)) (mem (r.pc + 2)) = _; rw [h0, h1, h2]; rfl)
    (List.mem_singleton.2 rfl)

/-! ## C37 What a program's behaviour depends on -/

/-- Two CPUs with equal registers whose buses answer every read alike: there is one outcome `out`,
which is either a panic or an instruction with its cycles, final registers and writes, that both
steps have. They differ at most in how their buses take the writes. -/
theorem C37_step {B₁ B₂ : Type} [Addressable B₁] [Addressable B₂] {b : Build} {c₁ : Mos6502 B₁}
    {c₂ : Mos6502 B₂} (hr : regs c₁ = regs c₂)
    (hread : ∀ a, Addressable.read b c₁.address_map a = Addressable.read b c₂.address_map a) :
    ∃ out : Res (Operations × Effect),
      (next b c₁ = out.bind fun oe =>
        (writeAll b c₁.address_map oe.2.writes).map fun bus => (oe.1, withRegs oe.2.regs bus)) ∧
      (next b c₂ = out.bind fun oe =>
        (writeAll b c₂.address_map oe.2.writes).map fun bus => (oe.1, withRegs oe.2.regs bus)) := by
  obtain ⟨out, h⟩ := next_view b (regs c₂) (Addressable.read b c₂.address_map)
  exact ⟨out, h B₁ c₁ hr hread, h B₂ c₂ rfl (fun _ => rfl)⟩

/-- Over any number of instructions, on buses that behave as memory: the same instructions with the
same cycles, the same registers and the same memory contents, as long as neither bus refuses a
write. -/
theorem C37_instructions {B₁ B₂ : Type} [Addressable B₁] [Addressable B₂] {b : Build}
    {I₁ : B₁ → Mem → Prop} {I₂ : B₂ → Mem → Prop} (hI₁ : Coherent b I₁) (hI₂ : Coherent b I₂)
    {c₁ c₁' : Mos6502 B₁} {c₂ c₂' : Mos6502 B₂} {mem : Mem} {l₁ l₂ : List Operations}
    (hr : regs c₁ = regs c₂) (h₁ : I₁ c₁.address_map mem) (h₂ : I₂ c₂.address_map mem)
    (hx₁ : Instructions b c₁ l₁ c₁') (hx₂ : Instructions b c₂ l₂ c₂')
    (hlen : l₁.length = l₂.length) :
    l₁ = l₂ ∧ regs c₁' = regs c₂' ∧ ∃ mem', I₁ c₁'.address_map mem' ∧ I₂ c₂'.address_map mem' := by
  induction hx₁ generalizing c₂ l₂ mem with
  | nil c₁ =>
    cases hx₂ with
    | nil _ => exact ⟨rfl, hr, mem, h₁, h₂⟩
    | cons _ _ => cases hlen
  | @cons c₁ d₁ e₁ ops l₁ hn₁ hx₁ ih =>
    cases hx₂ with
    | nil _ => cases hlen
    | @cons _ d₂ _ ops₂ l₂ hn₂ hx₂ =>
      obtain ⟨out, o₁, o₂⟩ := C37_step hr (fun a =>
        ((hI₁ _ _ h₁).1 a).trans ((hI₂ _ _ h₂).1 a).symm)
      rw [hn₁] at o₁
      rw [hn₂] at o₂
      cases out with
      | error p => cases o₁
      | ok oe =>
        obtain ⟨ops', e⟩ := oe
        simp only [Except.bind] at o₁ o₂
        cases w₁ : writeAll b c₁.address_map e.writes with
        | error p => rw [w₁] at o₁; cases o₁
        | ok bus₁ =>
          cases w₂ : writeAll b c₂.address_map e.writes with
          | error p => rw [w₂] at o₂; cases o₂
          | ok bus₂ =>
            rw [w₁] at o₁
            rw [w₂] at o₂
            simp only [Except.map, Except.ok.injEq, Prod.mk.injEq] at o₁ o₂
            obtain ⟨rfl, rfl⟩ := o₁
            obtain ⟨rfl, rfl⟩ := o₂
            obtain ⟨mem', i₁, i₂⟩ := writeAll_coherent₂ hI₁ hI₂ e.writes h₁ h₂ w₁ w₂
            obtain ⟨q1, q2, q3⟩ := ih rfl i₁ i₂ hx₂ (by simpa using hlen)
            exact ⟨by rw [q1], q2, q3⟩

/-- Two runs that do not panic end alike. -/
theorem C37_run {B₁ B₂ : Type} [Addressable B₁] [Addressable B₂] {b : Build}
    {I₁ : B₁ → Mem → Prop} {I₂ : B₂ → Mem → Prop} (hI₁ : Coherent b I₁) (hI₂ : Coherent b I₂)
    {c₁ : Mos6502 B₁} {c₂ : Mos6502 B₂} {mem : Mem} {n : Nat} {s₁ : StepState (Mos6502 B₁)}
    {s₂ : StepState (Mos6502 B₂)} (hr : regs c₁ = regs c₂) (h₁ : I₁ c₁.address_map mem)
    (h₂ : I₂ c₂.address_map mem) (hx₁ : run b c₁ n = .ok s₁) (hx₂ : run b c₂ n = .ok s₂) :
    regs s₁.unwrap = regs s₂.unwrap ∧
      ∃ mem', I₁ s₁.unwrap.address_map mem' ∧ I₂ s₂.unwrap.address_map mem' := by
  rw [run_eq] at hx₁ hx₂
  induction n using Nat.strongRecOn generalizing c₁ c₂ mem with
  | ind n ih =>
    by_cases hn : n = 0
    · subst hn
      simp only [runLoop, Except.map, Except.ok.injEq] at hx₁ hx₂
      subst hx₁ hx₂
      exact ⟨hr, mem, h₁, h₂⟩
    · rw [runLoop_step n (by omega)] at hx₁ hx₂
      cases hn₁ : next b c₁ with
      | error p => rw [hn₁] at hx₁; cases hx₁
      | ok q₁ =>
        cases hn₂ : next b c₂ with
        | error p => rw [hn₂] at hx₂; cases hx₂
        | ok q₂ =>
          obtain ⟨ops₁, d₁⟩ := q₁
          obtain ⟨ops₂, d₂⟩ := q₂
          obtain ⟨he, hr', mem', i₁, i₂⟩ := C37_instructions hI₁ hI₂ hr h₁ h₂
            (.cons hn₁ (.nil _)) (.cons hn₂ (.nil _)) rfl
          simp only [List.cons.injEq, and_true] at he
          subst he
          obtain ⟨hc, -⟩ := next_inv hn₁
          rw [hn₁] at hx₁
          rw [hn₂] at hx₂
          simp only at hx₁ hx₂
          by_cases hlt : n < ops₁.cycles
          · rw [if_pos hlt] at hx₁ hx₂
            simp only [Except.map, Except.ok.injEq] at hx₁ hx₂
            subst hx₁ hx₂
            exact ⟨hr, mem, h₁, h₂⟩
          · rw [if_neg hlt] at hx₁ hx₂
            exact ih (n - ops₁.cycles) (by omega) hr' i₁ i₂ hx₁ hx₂

/-- A ROM segment with the program `NOP; NOP; JMP` on the emulator's own bus, and its history. -/
def romHistory : List Spec.BusEvent :=
  [.register .readOnly ⟨0x80fd, 0x8101⟩ [0xea, 0xea, 0x4c, 0xfd, 0x80]]

/-- The bus that `romHistory` leads to. -/
def romMap : AddressMap Memory :=
  ⟨[(⟨0x80fd, 0x8101⟩, ⟨.readOnly, 0x80fd, 0x8101, [0xea, 0xea, 0x4c, 0xfd, 0x80]⟩)]⟩

theorem romMap_trace (b : Build) : Spec.MemTrace b romHistory romMap :=
  .register (h := []) (fresh := ⟨.readOnly, 0x80fd, 0x8101, [0, 0, 0, 0, 0]⟩) .new rfl rfl
    (by intro e he; cases he) ⟨romMap, rfl, List.Perm.refl _⟩

/-- That bus and a 64K RAM device showing the same bytes: both runs succeed. -/
example : ∃ s₁ s₂, run .debug (withRegs sampleRegs romMap) 7 = .ok s₁ ∧
    run .debug (withRegs sampleRegs (⟨(Spec.Bus.after romHistory).val⟩ : FlatRam)) 7 = .ok s₂ := by
  have ok : ∀ {α : Type} (x : Res α), x.map (fun _ => ()) = .ok () → ∃ s, x = .ok s := by
    intro α x h
    cases x with
    | error e => cases h
    | ok s => exact ⟨s, rfl⟩
  obtain ⟨s₁, h₁⟩ := ok (run .debug (withRegs sampleRegs romMap) 7) (by decide +kernel)
  obtain ⟨s₂, h₂⟩ := ok (run .debug (withRegs sampleRegs
    (⟨(Spec.Bus.after romHistory).val⟩ : FlatRam)) 7) (by decide +kernel)
  exact ⟨s₁, s₂, h₁, h₂⟩

end Verif.Props
