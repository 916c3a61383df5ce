import Verif.Proofs.MosTraffic
import Verif.Proofs.MosStack
import Verif.Props.Mos.Run
import Verif.Props.Mos.Throughput

/-!
# Properties C67 – C69: what reaches the devices
-/

namespace Verif.Props

open Verif Verif.Mos Verif.Spec.Mos

section
variable {B : Type} [Addressable B] {b : Build} {c c' : Mos6502 B}

/-! ## C67 The bus sees the program's stores and nothing else -/

/-- After any number of instructions the bus, whatever devices it consists of, is the initial bus
after exactly the stores of the executed instructions, in program order. -/
theorem C67_bus_is_stores {l : List Operations} (h : Instructions b c l c') :
    writeAll b c.address_map (programStores l) = .ok c'.address_map :=
  instructions_stores h

/-- The same for `run`: the bus of the result is the initial bus after the stores of the completed
instructions. -/
theorem C67_run {n : Nat} {s : StepState (Mos6502 B)} (h : run b c n = .ok s) :
    ∃ l, Instructions b c l s.unwrap ∧ totalCycles l ≤ n ∧
      writeAll b c.address_map (programStores l) = .ok s.unwrap.address_map := by
  rw [run_eq] at h
  rcases runLoop_cases (b := b) n c with ⟨l, d, h1, h2, -, h4⟩ | ⟨l, d, q, h1, h2, h3, h4⟩
  · rw [h4] at h
    cases h
    exact ⟨l, h1, h2, instructions_stores h1⟩
  · rw [h4] at h; cases h

/-- An instruction stores to exactly the documented addresses, in the documented order. -/
theorem C67_targets {i : InstructionVariant} {mem : Mem} {ops : Operations} (hat : At b c i)
    (hv : BusView b c.address_map mem) (hn : next b c = .ok (ops, c')) :
    (storesOf ops).map Prod.fst = writable (regs c) mem (view i).1 (view i).2 := by
  obtain ⟨-, rfl, -, -⟩ := step_inv (mn := (view i).1) (am := (view i).2) hat hv rfl hn
  rw [stores_code, codeEffect_writes]

theorem writable_rate (i : InstructionVariant) (r : Regs) (mem : Mem) :
    7 * (writable r mem (view i).1 (view i).2).length ≤ 3 * baseCycles (view i).1 (view i).2 := by
  cases i <;> exact Nat.le_of_ble_eq_true rfl

/-- No program stores more than three bytes in seven cycles (the rate of BRK). -/
theorem C67_rate {I : B → Mem → Prop} (hI : Coherent b I) {mem : Mem} {l : List Operations}
    (h : Instructions b c l c') (hm : I c.address_map mem) :
    7 * (programStores l).length ≤ 3 * totalCycles l := by
  induction h generalizing mem with
  | nil c => exact Nat.le_refl 0
  | @cons c d e ops l hx _ ih =>
    rw [programStores_cons, totalCycles_cons, List.length_append]
    have hv := (hI _ _ hm).1
    have hat : ∃ i, At b c i := by
      unfold At
      cases hf : fetch b c with
      | error p => unfold next at hx; rw [hf] at hx; cases hx
      | ok i => exact ⟨i, rfl⟩
    obtain ⟨i, hat⟩ := hat
    have h1 : (storesOf ops).length = (writable (regs c) mem (view i).1 (view i).2).length := by
      rw [← C67_targets hat hv hx, List.length_map]
    obtain ⟨-, hops, -, hw⟩ := step_inv (mn := (view i).1) (am := (view i).2) hat hv rfl hx
    have h2 : ops.cycles = baseCycles (view i).1 (view i).2 +
        codePenalty (regs c) mem (view i).1 (view i).2 := by rw [hops]; rfl
    have h3 := writable_rate i (regs c) mem
    have := ih (writeAll_coherent hI _ hm hw)
    omega

end

/-- STA 0x10 then STX 0x11 in front of the sample registers. -/
def storeProgram : Mos6502 FlatRam := machine sampleRegs 0x85 0x10 0x86 (fun a =>
  if a = 0x8100 then 0x11 else 0xea)

theorem storeProgram_instructions : ∃ c', Instructions .debug storeProgram
    [⟨2, 3, [.WriteMemory 0x10 0x8f]⟩, ⟨2, 3, [.WriteMemory 0x11 0x01]⟩] c' := by
  refine ⟨afterN .debug storeProgram 2, ?_⟩
  have e : ∀ k ops, (next .debug (afterN .debug storeProgram k)).map Prod.fst = .ok ops →
      next .debug (afterN .debug storeProgram k) = .ok (ops, afterN .debug storeProgram (k + 1)) := by
    intro k ops h
    have ha : afterN .debug storeProgram (k + 1) = after1 .debug (afterN .debug storeProgram k) := rfl
    rw [ha]
    unfold after1
    cases hn : next .debug (afterN .debug storeProgram k) with
    | error e => rw [hn] at h; cases h
    | ok p =>
      rw [hn] at h
      simp only [Except.map, Except.ok.injEq] at h
      rw [← h]
  exact .cons (e 0 _ (by decide +kernel)) (.cons (e 1 _ (by decide +kernel)) (.nil _))

/-- Two instructions that store: the bus is the initial bus after two writes. -/
example : ∃ c', Instructions .debug storeProgram
      [⟨2, 3, [.WriteMemory 0x10 0x8f]⟩, ⟨2, 3, [.WriteMemory 0x11 0x01]⟩] c' ∧
    writeAll .debug storeProgram.address_map [(0x10, 0x8f), (0x11, 0x01)] = .ok c'.address_map := by
  obtain ⟨c', h⟩ := storeProgram_instructions
  exact ⟨c', h, C67_bus_is_stores h⟩

/-- The bound on the rate has a reachable case with equality: BRK. -/
example : ∃ ops c', next .debug (machine sampleRegs 0x00 0x00 0x00) = .ok (ops, c') ∧
    (storesOf ops).length = 3 ∧ ops.cycles = 7 := by
  have h : (next .debug (machine sampleRegs 0x00 0x00 0x00)).map
      (fun q => ((storesOf q.1).length, q.1.cycles)) = .ok (3, 7) := by decide +kernel
  cases hn : next .debug (machine sampleRegs 0x00 0x00 0x00) with
  | error p => rw [hn] at h; cases h
  | ok q =>
    rw [hn] at h
    simp only [Except.map, Except.ok.injEq, Prod.mk.injEq] at h
    exact ⟨q.1, q.2, rfl, h.1, h.2⟩

/-! ## C68 Intercepting stores in captured microcode -/

section
variable {B V : Type} [Addressable B] {b : Build} {c c' : Mos6502 B}

/-- Folding captured microcode onto the CPU while a hook takes the stores to a range of addresses:
the hook is told exactly the stores to the range, in order, and the bus gets exactly the others; the
registers are those of the full replay. Nothing else can make it panic than the bus refusing one of
the other stores. -/
theorem C68_hook (range : AddrRange) (hook : V → Word → Byte → V) (via : V)
    {mcs : List Microcode} (h : replay b mcs c = .ok c') :
    hookLoop b range hook mcs via c =
      (writeAll b c.address_map (outside range (stores mcs))).map
        (fun bus => (told hook via (inside range (stores mcs)), withRegs (regs c') bus)) := by
  obtain ⟨-, h2⟩ := exec_split_ok h
  rw [hookLoop_eq, exec_split, stores_kept, regs_kept, h2]
  cases writeAll b c.address_map (outside range (stores mcs)) <;> rfl

/-- The stores of a capture of `n` cycles are those of the instructions completed within them. -/
theorem C68_capture {n : Nat} {mcs : List Microcode} (h : capture b c n = .ok mcs) :
    ∃ l c', Instructions b c l c' ∧ totalCycles l ≤ n ∧ replay b mcs c = .ok c' ∧
      run b c n = .ok (.ready c') ∧ stores mcs = programStores l := by
  rcases capture_cases (b := b) n c with ⟨l, d, h1, h2, h3, h4⟩ | ⟨l, d, p, h1, h2, h3, h4⟩
  · rw [h] at h4
    obtain rfl := Except.ok.inj h4
    exact ⟨l, d, h1, h2, C14_iterator_state h1, C12_run_eq h1 h2 h3, stores_flatMap l⟩
  · rw [h] at h4; cases h4

theorem foldl_upd_outside (range : AddrRange) (ws : List (Word × Byte)) (mem mem' : Mem)
    (hmem : ∀ a, ¬ Spec.InRange range a → mem a = mem' a) (a : Word) :
    (outside range ws).foldl (fun m w => upd m w.1 w.2) mem a =
      if Spec.InRange range a then mem a else ws.foldl (fun m w => upd m w.1 w.2) mem' a := by
  induction ws generalizing mem mem' with
  | nil =>
    show mem a = if _ then mem a else mem' a
    split
    · rfl
    · rename_i h; exact hmem a h
  | cons w ws ih =>
    by_cases hw : Spec.InRange range w.1
    · have e : outside range (w :: ws) = outside range ws := by
        unfold outside
        rw [List.filter_cons, if_neg]
        simp only [Bool.not_eq_true', decide_eq_false_iff_not, Decidable.not_not]
        exact hw
      rw [e, List.foldl_cons]
      refine ih mem _ fun x hx => ?_
      unfold upd
      rw [if_neg (by rintro rfl; exact hx hw)]
      exact hmem x hx
    · have e : outside range (w :: ws) = w :: outside range ws := by
        unfold outside
        rw [List.filter_cons, if_pos]
        simp only [Bool.not_eq_true', decide_eq_false_iff_not]
        exact hw
      rw [e, List.foldl_cons, List.foldl_cons]
      rw [ih (upd mem w.1 w.2) (upd mem' w.1 w.2) ?_]
      · by_cases ha : Spec.InRange range a
        · rw [if_pos ha, if_pos ha]
          unfold upd
          rw [if_neg (by rintro rfl; exact hw ha)]
        · rw [if_neg ha, if_neg ha]
      · intro x hx
        unfold upd
        split
        · rfl
        · exact hmem x hx

/-- On memory that reads back what was written: after the hooked replay the hooked range reads as
before, and every other address as after the full run. -/
theorem C68_memory {I : B → Mem → Prop} (hI : Coherent b I) {mem : Mem} (range : AddrRange)
    (hook : V → Word → Byte → V) (via via' : V) {n : Nat} {mcs : List Microcode} {d : Mos6502 B}
    {s : StepState (Mos6502 B)} (hm : I c.address_map mem) (hc : capture b c n = .ok mcs)
    (hr : run b c n = .ok s) (hh : hookLoop b range hook mcs via c = .ok (via', d)) :
    regs d = regs s.unwrap ∧ ∃ full, BusView b s.unwrap.address_map full ∧
      BusView b d.address_map (fun a => if Spec.InRange range a then mem a else full a) := by
  obtain ⟨l, c', h1, h2, h3, h4, h5⟩ := C68_capture hc
  rw [hr] at h4
  obtain rfl := Except.ok.inj h4
  rw [C68_hook range hook via h3] at hh
  cases hw : writeAll b c.address_map (outside range (stores mcs)) with
  | error p => rw [hw] at hh; cases hh
  | ok bus =>
    rw [hw] at hh
    simp only [Except.map, Except.ok.injEq, Prod.mk.injEq] at hh
    obtain ⟨-, rfl⟩ := hh
    refine ⟨rfl, (stores mcs).foldl (fun m w => upd m w.1 w.2) mem, ?_, ?_⟩
    · exact (hI _ _ (writeAll_coherent hI _ hm (exec_split_ok h3).1)).1
    · have := (hI _ _ (writeAll_coherent hI _ hm hw)).1
      have e : (outside range (stores mcs)).foldl (fun m w => upd m w.1 w.2) mem =
          fun a => if Spec.InRange range a then mem a else
            (stores mcs).foldl (fun m w => upd m w.1 w.2) mem a :=
        funext fun a => foldl_upd_outside range _ mem mem (fun _ _ => rfl) a
      rw [e] at this
      exact this

end

/-- The hook takes the store to 0x10, the bus gets the one to 0x11. -/
example : (capture .debug storeProgram 6).bind (fun mcs =>
      (hookLoop .debug ⟨0x10, 0x10⟩ (fun l a v => l ++ [(a, v)]) mcs [] storeProgram).map
        fun q => (q.1, q.2.address_map.mem 0x10, q.2.address_map.mem 0x11, q.2.pc)) =
    .ok ([(0x10, 0x8f)], 0xea, 0x01, 0x8101) := by decide +kernel

/-! ## C69 How often a store reaches a device during `run` -/

section
variable {B : Type} [Addressable B] {b : Build} {c : Mos6502 B}

/-- The logging run is `run`. -/
theorem C69_log_of_run (n : Nat) : (runLog b c n).map Prod.fst = run b c n := by
  unfold runLog run
  rw [← runLog_erase]
  cases runLogLoop b n c [] c <;> rfl

end

/-- What C69 claims: during `run` the devices are told each store of the completed instructions
once, and nothing else. -/
def C69_statement : Prop :=
  ∀ (B : Type) [Addressable B] (b : Build) (c : Mos6502 B) (n : Nat) (s : StepState (Mos6502 B))
    (log : List (Word × Byte)), runLog b c n = .ok (s, log) →
    ∃ l, Instructions b c l s.unwrap ∧ totalCycles l ≤ n ∧ log = programStores l

theorem storeProgram_log {n : Nat} {pc : Word} {out : List (Word × Byte)} (h : C69_statement)
    (hr : (runLog .debug storeProgram n).map (fun q => (q.1.unwrap.pc, q.2)) = .ok (pc, out)) :
    7 * out.length ≤ 3 * n := by
  cases hx : runLog .debug storeProgram n with
  | error p => rw [hx] at hr; cases hr
  | ok q =>
    obtain ⟨s, log⟩ := q
    rw [hx] at hr
    simp only [Except.map, Except.ok.injEq, Prod.mk.injEq] at hr
    obtain ⟨l, h1, h2, h3⟩ := h FlatRam .debug storeProgram n s log hx
    have := C67_rate (flatRam_coherent .debug) h1 rfl
    rw [← hr.2, h3]
    omega

/-- STA 0x10 takes three cycles. After one cycle nothing is completed (`pc` still points to it), but
the device has been told the store. -/
theorem C69_told_early : ¬ C69_statement := fun h =>
  absurd (storeProgram_log (n := 1) (pc := 0x80fd) (out := [(0x10, 0x8f)]) h (by decide +kernel))
    (by decide)

/-- After three cycles the instruction is completed, and the device has been told the store
twice. -/
theorem C69_told_twice : ¬ C69_statement := fun h =>
  absurd (storeProgram_log (n := 3) (pc := 0x80ff) (out := [(0x10, 0x8f), (0x10, 0x8f)]) h
    (by decide +kernel)) (by decide)

section
variable {B : Type} [Addressable B] {b : Build} {c : Mos6502 B}

/-- What the devices are told during `run`, exactly: the stores of every completed instruction twice
(by the instruction iterator on its copy of the CPU, then by the run itself), and the stores of the
instruction that the cycles cut off once. Missing for the full property: once each, and nothing of
the instruction that is cut off. -/
theorem C69_log_partial {n : Nat} {s : StepState (Mos6502 B)} {log : List (Word × Byte)}
    (h : runLog b c n = .ok (s, log)) :
    ∃ l, Instructions b c l s.unwrap ∧
      ((totalCycles l = n ∧ log = twice l) ∨
        ∃ ops c'', next b s.unwrap = .ok (ops, c'') ∧ totalCycles l < n ∧
          n < totalCycles l + ops.cycles ∧ log = twice l ++ storesOf ops) := by
  have hs : (runLogLoop b n c [] c).map (fun q => (StepState.ready q.1, q.2)) = .ok (s, log) := by
    rw [← h]
    unfold runLog
    cases runLogLoop b n c [] c <;> rfl
  rcases runLog_cases (b := b) n c with ⟨l, d, h1, -, h3⟩ | ⟨l, d, p, -, -, -, h4⟩
  · rcases h3 with ⟨h2, h3⟩ | ⟨ops, e, h5, h6, h7, h3⟩
    · rw [h3] at hs
      cases hs
      exact ⟨l, h1, .inl ⟨h2, rfl⟩⟩
    · rw [h3] at hs
      cases hs
      exact ⟨l, h1, .inr ⟨ops, e, h5, h6, h7, rfl⟩⟩
  · rw [h4] at hs; cases hs

/-- The property holds exactly as far as nothing is stored: a run whose completed and cut off
instructions store nothing tells the devices nothing, and any other run tells them too much. -/
theorem C69_silent_partial {n : Nat} {s : StepState (Mos6502 B)} {log : List (Word × Byte)}
    (h : runLog b c n = .ok (s, log)) : ∃ l, Instructions b c l s.unwrap ∧
      totalCycles l ≤ n ∧ n ≤ totalCycles l + 6 ∧ (log = [] → programStores l = []) ∧
      (log ≠ [] → (programStores l).length < log.length) := by
  have ht : ∀ l, (twice l).length = 2 * (programStores l).length := by
    intro l
    induction l with
    | nil => rfl
    | cons o l ih =>
      rw [programStores_cons]
      simp only [twice, List.flatMap_cons, List.length_append] at ih ⊢
      rw [ih]; omega
  obtain ⟨l, h1, h2⟩ := C69_log_partial h
  have hc : totalCycles l ≤ n ∧ n ≤ totalCycles l + 6 := by
    rcases h2 with ⟨h2, -⟩ | ⟨ops, c'', h2, h3, h4, -⟩
    · omega
    · have := (C77_cycles h2).2
      omega
  refine ⟨l, h1, hc.1, hc.2, ?_, ?_⟩
  · intro h0
    apply List.eq_nil_of_length_eq_zero
    have := ht l
    rcases h2 with ⟨-, h2⟩ | ⟨ops, c'', -, -, -, h2⟩
    · rw [← h2, h0, List.length_nil] at this; omega
    · rw [h0] at h2
      have h3 := (List.append_eq_nil_iff.1 h2.symm).1
      rw [h3, List.length_nil] at this; omega
  · intro h0
    have := ht l
    have hpos : 0 < log.length := List.length_pos_iff.2 h0
    rcases h2 with ⟨-, h2⟩ | ⟨ops, c'', -, -, -, h2⟩
    · rw [← h2] at this; omega
    · have hl := congrArg List.length h2
      rw [List.length_append] at hl
      omega

end

/-- After four cycles: STA told twice, STX (started, not completed) told once. -/
example : (runLog .debug storeProgram 4).map (fun q => (q.1.unwrap.pc, q.2)) =
    .ok (0x80ff, [(0x10, 0x8f), (0x10, 0x8f), (0x11, 0x01)]) := by decide +kernel

end Verif.Props
