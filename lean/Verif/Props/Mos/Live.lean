import Verif.Proofs.LiveShared

/-!
# Properties C101 – C103: devices with a life of their own
-/

namespace Verif.Props

open Verif Verif.Mos Verif.Spec.Mos Verif.Spec.Live Verif.Live Verif.Live.Bus

variable {b : Build}

/-! ## C101 What an instruction asks the bus -/

/-- What one expects: an instruction reads its own bytes, then what its addressing mode and its
operation need, and nothing else. -/
def C101_statement : Prop :=
  ∀ (b : Build) (cpu cpu' : Mos6502 Copy) (l : List Call) (ops : Operations),
    Asked (Mos.Live.next b cpu) l (.ok (ops, cpu')) →
    ∃ i b0 b1 b2 bytes rs vs, Isa.parseInstruction b0 b1 b2 = some i ∧
      (bytes.map Prod.snd)[0]? = some b0 ∧ bytes.length = size (view i).2 ∧
      (∀ k (h : k < bytes.length), bytes[k].1 = word (cpu.pc.toNat + k)) ∧
      Complete (nextRead (regs cpu) (view i).1 (view i).2) rs ∧ vs.length = (storesOf ops).length ∧
      l = readCalls cpu.address_map (bytes ++ rs) ++ putCalls cpu.address_map (storesOf ops) vs

/-- What holds for all devices: three reads at `pc`, whatever the length of the instruction; then
exactly the documented reads, each once and in the documented order; then exactly the stores. All on
the bus of this CPU. The operations are those of the same instruction on a bus that holds the bytes
that were read; through a pointer, also those of the absolute form at the address that was read. -/
theorem C101_calls_partial {cpu cpu' : Mos6502 Copy} {l : List Call} {ops : Operations}
    (h : Asked (Mos.Live.next b cpu) l (.ok (ops, cpu'))) :
    cpu'.address_map = cpu.address_map ∧
    ∃ i reads vs, InstructionReads (regs cpu) i reads ∧ AsOnMemory b (regs cpu) i reads ops (regs cpu') ∧
      ThroughPointer b (regs cpu) i reads ops (regs cpu') ∧ vs.length = (storesOf ops).length ∧
      l = readCalls cpu.address_map reads ++ putCalls cpu.address_map (storesOf ops) vs := by
  obtain ⟨ha, -, reads, vs, ⟨i, h1, h2, h2', -⟩, h3, -, h4⟩ := asked_next h
  exact ⟨ha, i, reads, vs, h1, h2, h2', h3, h4⟩

/-- One of the two always says what the instruction does: there is a memory that holds the bytes it read
for itself, or it read a pointer and an operand. -/
theorem C101_determined_partial {r : Regs} {i : InstructionVariant} {reads : List (Word × Byte)}
    (h : InstructionReads r i reads) :
    (∃ mem : Mem, ∀ p ∈ reads.drop 3, mem p.1 = p.2) ∨
    ∃ lo hi v a, (reads.drop 3).map Prod.snd = [lo, hi, v] ∧ pointed r (view i).2 lo hi = some a := by
  obtain ⟨b0, b1, b2, rs, -, hc, rfl⟩ := h
  exact reads_consistent hc


/-- `LDA (0,X)` with the pointer pointing to itself. -/
def selfPointing : Mos6502 Copy := withRegs { sampleRegs with pc := 0x0200, x := 0 } .own

/-- A device at address 0 that answers 0 and then 5: the pointer is 0, the operand 5. -/
theorem self_calls (b : Build) :
    Asked (Mos.Live.next b selfPointing)
      [.read .own 0x0200 0xa1, .read .own 0x0201 0, .read .own 0x0202 0,
        .read .own 0 0, .read .own 1 0, .read .own 0 5]
      (.ok (⟨2, 6, [.SetProgramStatusFlagState .Negative false, .SetProgramStatusFlagState .Zero false,
        .Write8bitRegister .Acc 5]⟩,
        withRegs { regs selfPointing with
          a := 5, pc := 0x0202,
          p := { (regs selfPointing).p with negative := false, zero := false } } .own)) := by
  rcases b with ⟨_ | _⟩ <;> exact .read (.read (.read (.read (.read (.read (.done _))))))

/-- The hypotheses of `C101_calls_partial` where only the second form says something: no memory answers
like this device, and the instruction loads what `LDA 0` loads from a bus with 5 there. -/
example : (¬∃ mem : Mem, ∀ p ∈ [((0 : Word), (0 : Byte)), (1, 0), (0, 5)], mem p.1 = p.2) ∧
    ∃ i reads, InstructionReads (regs selfPointing) i reads ∧
      (reads.drop 3) = [(0, 0), (1, 0), (0, 5)] := by
  refine ⟨?_, ?_⟩
  · rintro ⟨mem, h⟩
    have h1 := h (0, 0) (by simp)
    have h2 := h (0, 5) (by simp)
    rw [show mem 0 = 0 from h1] at h2
    cases h2
  · refine ⟨.LdaXIndexedIndirect 0, _, ⟨0xa1, 0, 0, [(0, 0), (1, 0), (0, 5)], rfl, ⟨fun k hk => ?_, rfl⟩, rfl⟩, rfl⟩
    match k, hk with
    | 0, _ => rfl
    | 1, _ => rfl
    | 2, _ => rfl

/-- The instruction's own bytes are read, and read first. -/
theorem C101_own_bytes_partial {r : Regs} {i : InstructionVariant} {reads : List (Word × Byte)}
    (h : InstructionReads r i reads) :
    ∀ k < size (view i).2, (reads.map Prod.fst)[k]? = some (word (r.pc.toNat + k)) := by
  obtain ⟨b0, b1, b2, rs, -, -, rfl⟩ := h
  intro k hk
  have hs : size (view i).2 ≤ 3 := by
    cases (view i).2 <;> simp [size]
  have h0 : word (r.pc.toNat + 0) = r.pc := word_toNat r.pc
  match k, hk with
  | 0, _ => rw [h0]; rfl
  | 1, _ => rfl
  | 2, _ => rfl
  | k + 3, hk => omega

/-- On a bus that holds the bytes that were read, the next instruction is this one with the same
operations and the same registers afterwards. -/
theorem C101_memory_partial {B : Type} [Addressable B] {cpu cpu' : Mos6502 Copy} {l : List Call}
    {ops : Operations} {bus bus' : B} (h : Asked (Mos.Live.next b cpu) l (.ok (ops, cpu')))
    (hr : ∀ who a v, Call.read who a v ∈ l → Addressable.read b bus a = .ok v)
    (hw : writeAll b bus (storesOf ops) = .ok bus') :
    next b (withRegs (regs cpu) bus) = .ok (ops, withRegs (regs cpu') bus') := by
  obtain ⟨-, -, reads, vs, ⟨i, hi, hm, -, hc⟩, -, hs, rfl⟩ := asked_next h
  obtain ⟨b0, b1, b2, rs, hp, -, rfl⟩ := hi
  have hmem : ∀ p ∈ (((regs cpu).pc, b0) :: (word ((regs cpu).pc.toNat + 1), b1) ::
      (word ((regs cpu).pc.toNat + 2), b2) :: rs), Addressable.read b bus p.1 = .ok p.2 := by
    intro p hp
    refine hr cpu.address_map p.1 p.2 ?_
    simp only [List.mem_append]
    exact .inl (List.mem_map.2 ⟨p, hp, rfl⟩)
  obtain ⟨hg, he⟩ := hm B bus bus' (fun p hp => hmem p (List.mem_of_mem_drop hp)) hw
  have h0 : Addressable.read b bus cpu.pc = .ok b0 := hmem (cpu.pc, b0) (by simp [regs])
  have h1 : Addressable.read b bus (word (cpu.pc.toNat + 1)) = .ok b1 :=
    hmem (word (cpu.pc.toNat + 1), b1) (by simp [regs])
  have h2 : Addressable.read b bus (word (cpu.pc.toNat + 2)) = .ok b2 :=
    hmem (word (cpu.pc.toNat + 2), b2) (by simp [regs])
  obtain ⟨e1, e2⟩ := asked_next_pc h
  have hf : fetch b (withRegs (regs cpu) bus) = .ok i := by
    show (Addressable.read b bus cpu.pc >>= fun b0 => addU16 b cpu.pc 1 >>= fun pc1 =>
      Addressable.read b bus pc1 >>= fun b1 => addU16 b cpu.pc 2 >>= fun pc2 =>
      Addressable.read b bus pc2 >>= fun b2 => _) = _
    rw [h0, Res.ok_bind, e1, Res.ok_bind, h1, Res.ok_bind, e2, Res.ok_bind, h2, Res.ok_bind]
    simp only [hp]
  unfold next
  rw [hf, Res.ok_bind, hg, Res.ok_bind, hs, Res.ok_bind]
  have hflat : (List.replicate (ops.cycles - 1) ([] : List Microcode) ++ [microcodeOf ops]).flatten =
      microcodeOf ops := by simp
  rw [hflat, he, Res.ok_bind]

/-- A bus of NOPs with a keyboard register at `0x8000`: reading it takes the key. -/
structure Keyboard where

instance : Device Byte Keyboard where
  read _ d a w := if a = 0x8000 then (.ok (w, d), 0) else (.ok (0xea, d), w)
  write _ d _ v w := (.ok (.ok v, d), w)

/-- The CPU in front of the last NOP before the keyboard. -/
def beforeKeyboard : Mos6502 Copy := withRegs { sampleRegs with pc := 0x7fff } .own

/-- A NOP takes the key, whatever key is pressed. -/
theorem C101_key_lost (b : Build) (key : Byte) :
    (exec b (Mos.Live.run b beforeKeyboard 2) (⟨⟨⟩, ⟨⟩, key⟩ : Site Byte Keyboard)).2.world = 0 := by
  rcases b with ⟨_ | _⟩ <;> rfl

/-- The calls of that NOP. -/
theorem nop_calls (b : Build) (key : Byte) :
    Asked (Mos.Live.next b beforeKeyboard)
      [.read .own 0x7fff 0xea, .read .own 0x8000 key, .read .own 0x8001 0xea]
      (.ok (⟨1, 2, []⟩, { beforeKeyboard with pc := 0x8000 })) := by
  rcases b with ⟨_ | _⟩ <;> exact .read (.read (.read (.done _)))

/-- C101 fails: a NOP reads the two bytes after it. -/
theorem C101_false : ¬ C101_statement := by
  intro h
  obtain ⟨i, b0, b1, b2, bytes, rs, vs, hp, h0, h1, h2, h3, h4, h5⟩ :=
    h .debug _ _ _ _ (nop_calls .debug 0)
  have hv : vs = [] := by
    rw [← List.length_eq_zero_iff, h4]; rfl
  subst hv
  cases bytes with
  | nil => simp at h0
  | cons p bytes =>
    have h6 : [Call.read .own 0x7fff 0xea, .read .own 0x8000 0, .read .own 0x8001 0xea] =
        .read .own p.1 p.2 :: (readCalls .own (bytes ++ rs) ++ []) := by
      rw [h5]; simp [readCalls, putCalls, beforeKeyboard, withRegs, storesOf, stores, microcodeOf]
    simp only [List.cons.injEq, Call.read.injEq, List.append_nil] at h6
    obtain ⟨⟨-, -, hb⟩, h6⟩ := h6
    have hb0 : b0 = 0xea := by
      rw [hb]; simpa using h0.symm
    subst hb0
    have hi : i = .NopImplied := by
      have : Isa.parseInstruction 0xea b1 b2 = some .NopImplied := rfl
      rw [this] at hp
      cases hp
      rfl
    subst hi
    have hlen : bytes = [] := by
      rw [← List.length_eq_zero_iff]
      simpa [size, view] using h1
    subst hlen
    cases rs with
    | nil => simp [readCalls] at h6
    | cons q rs =>
      have := h3.1 0 (by simp)
      simp [nextRead, view] at this

/-- The hypotheses of the theorems above are met: `INC 0x10` in front of any devices, with the
answers they give. -/
example (b : Build) (v : Byte) :
    Asked (Mos.Live.next b (withRegs sampleRegs .own))
      [.read .own 0x80fd 0xe6, .read .own 0x80fe 0x10, .read .own 0x80ff 0x77, .read .own 0x10 v,
        .write .own 0x10 (v + 1) (.ok 0)]
      (.ok (⟨2, 5, [.SetProgramStatusFlagState .Negative (Operand.new (v + 1)).negative,
          .SetProgramStatusFlagState .Zero (Operand.new (v + 1)).zero, .WriteMemory 0x10 (v + 1)]⟩,
        { setFlag (setFlag (withRegs sampleRegs Copy.own) .Negative (Operand.new (v + 1)).negative) .Zero
            (Operand.new (v + 1)).zero with pc := 0x80ff })) := by
  rcases b with ⟨_ | _⟩ <;> exact .read (.read (.read (.read (.write (.done _)))))

/-! ## C102 What `run` and `reset` ask the bus -/

theorem run_asked {cpu : Mos6502 Copy} {n : Nat} {l : List Call} {s : StepState (Mos6502 Copy)}
    (h : Asked (Mos.Live.run b cpu n) l (.ok s)) : ∃ c', s = .ready c' ∧
      Asked (Mos.Live.runLoop b n { cpu with address_map := .iterator } [] cpu) l (.ok c') := by
  unfold Mos.Live.run at h
  obtain ⟨l₁, l₂, c', rfl, h1, h2⟩ := asked_bind_ok.1 h
  rw [pure_eq, asked_done] at h2
  obtain ⟨rfl, h2⟩ := h2
  simp only [Except.ok.injEq] at h2
  exact ⟨c', h2, by simpa using h1⟩

/-- The calls of `run`, for all devices and answers. -/
theorem C102_transcript {cpu : Mos6502 Copy} {n : Nat} {l : List Call} {s : StepState (Mos6502 Copy)}
    (hc : cpu.address_map = .own) (h : Asked (Mos.Live.run b cpu n) l (.ok s)) :
    ∃ c', s = .ready c' ∧ c'.address_map = .own ∧ Ran b n (regs cpu) l (regs c') := by
  obtain ⟨c', hs, h⟩ := run_asked h
  have : cpu = withRegs (regs cpu) .own := by rw [← hc]; rfl
  obtain ⟨h1, h2⟩ := asked_runLoop (b := b) n (regs cpu) l c' (by
    have e : ({ cpu with address_map := .iterator } : Mos6502 Copy) = withRegs (regs cpu) .iterator := rfl
    rw [← this, ← e]
    exact h)
  exact ⟨c', hs, h1, h2⟩

/-- The same on actual devices, whatever they do: a run that returns made these calls, and the devices
are what these calls made of them. -/
theorem C102_devices {W D : Type} [Device W D] {cpu : Mos6502 Copy} {n : Nat} {s s' : Site W D}
    {st : StepState (Mos6502 Copy)} (hc : cpu.address_map = .own)
    (h : exec b (Mos.Live.run b cpu n) s = (.ok st, s')) :
    ∃ c' l, st = .ready c' ∧ Ran b n (regs cpu) l (regs c') ∧ Answers b s l s' := by
  obtain ⟨l, h1, h2⟩ := exec_ok_iff.1 h
  obtain ⟨c', h3, -, h4⟩ := C102_transcript hc h1
  exact ⟨c', l, h3, h4, h2⟩

/-- The bus of the CPU itself is never read by `run`. -/
theorem C102_own_never_read {n : Nat} {r r' : Regs} {l : List Call} (h : Ran b n r l r') :
    ∀ who a v, Call.read who a v ∈ l → who = .iterator := by
  have reads : ∀ who a v (rs : List (Word × Byte)), Call.read who a v ∈ readCalls .iterator rs →
      who = .iterator := by
    intro who a v rs h
    obtain ⟨p, -, h⟩ := List.mem_map.1 h
    cases h
    rfl
  have puts : ∀ who a v (c : Copy) (ws : List (Word × Byte)) (vs : List Byte),
      Call.read who a v ∉ putCalls c ws vs := by
    intro who a v c ws
    induction ws with
    | nil => intro vs h; simp [putCalls] at h
    | cons w ws ih =>
      intro vs h
      cases vs with
      | nil => simp [putCalls] at h
      | cons x vs =>
        simp only [putCalls, List.zipWith_cons_cons, List.mem_cons] at h
        rcases h with h | h
        · cases h
        · exact ih vs h
  induction h with
  | stop r => intro who a v h; simp at h
  | whole _ _ _ _ _ ih =>
    intro who a v h
    simp only [List.mem_append] at h
    rcases h with h | h | h | h
    · exact reads _ _ _ _ h
    · exact absurd h (puts _ _ _ _ _ _)
    · exact absurd h (puts _ _ _ _ _ _)
    · exact ih _ _ _ h
  | cut _ _ _ _ =>
    intro who a v h
    simp only [List.mem_append] at h
    rcases h with h | h
    · exact reads _ _ _ _ h
    · exact absurd h (puts _ _ _ _ _ _)

/-- On devices that are values the calls give what `run` gives, panics included, and the rest of the
world is left alone. -/
theorem C102_values {W B : Type} [Addressable B] (c : Mos6502 B) (n : Nat) (w : W) :
    (∀ c', run b c n = .ok (.ready c') → ∃ s',
      exec b (Mos.Live.run b (named .own c) n) (⟨⟨c.address_map⟩, ⟨c.address_map⟩, w⟩ : Site W (Value B)) =
        (.ok (.ready (named .own c')), s') ∧ s'.own = ⟨c'.address_map⟩ ∧ s'.world = w) ∧
    (∀ e, run b c n = .error e →
      (exec b (Mos.Live.run b (named .own c) n)
        (⟨⟨c.address_map⟩, ⟨c.address_map⟩, w⟩ : Site W (Value B))).1 = .error e) := by
  obtain ⟨h1, h2⟩ := exec_runLoop (b := b) n c (⟨⟨c.address_map⟩, ⟨c.address_map⟩, w⟩ : Site W (Value B)) rfl rfl
  rw [run_eq]
  unfold Mos.Live.run
  have hn : ({ named .own c with address_map := .iterator } : Mos6502 Copy) = named .iterator c := rfl
  rw [exec_bind, hn]
  cases hr : runLoop b n c [] c with
  | error e =>
    refine ⟨fun _ h => (by cases h), fun e' h => ?_⟩
    cases h
    have := h2 e hr
    rcases hx : exec b (Mos.Live.runLoop b n (named .iterator c) [] (named .own c))
      (⟨⟨c.address_map⟩, ⟨c.address_map⟩, w⟩ : Site W (Value B)) with ⟨r, s'⟩
    rw [hx] at this
    simp only at this
    subst this
    rfl
  | ok d =>
    refine ⟨fun c' h => ?_, fun e h => (by cases h)⟩
    cases h
    obtain ⟨s', h3, h4, h5⟩ := h1 d hr
    rw [h3]
    exact ⟨s', rfl, h4, h5⟩

/-- `reset` reads the two bytes of the reset vector, low byte first, once each, and nothing else. -/
theorem C102_reset {cpu : Mos6502 Copy} {l : List Call} {s : StepState (Mos6502 Copy)} :
    Asked (Mos.Live.reset cpu) l (.ok s) ↔ ∃ lo hi,
      l = [.read cpu.address_map 0xfffc lo, .read cpu.address_map 0xfffd hi] ∧
      s = .notReady 5 { withAddressmap cpu.address_map with
        pc := word (lo.toNat + 256 * hi.toNat), sp := 0xff } := by
  unfold Mos.Live.reset
  constructor
  · intro h
    obtain ⟨l₁, l₂, lo, rfl, h1, h2⟩ := asked_bind_ok.1 h
    obtain ⟨l₃, l₄, hi, rfl, h3, h4⟩ := asked_bind_ok.1 h2
    rw [asked_get] at h1 h3
    rw [pure_eq, asked_done] at h4
    obtain ⟨rfl, h4⟩ := h4
    simp only [Except.ok.injEq] at h4
    subst h1 h3 h4
    exact ⟨lo, hi, rfl, by rw [← u16FromLeBytes_eq]; rfl⟩
  · rintro ⟨lo, hi, rfl, rfl⟩
    rw [← u16FromLeBytes_eq]
    exact .read (.read (.done _))

/-- `INC 0x10` and then two cycles of `LDA 0x10`, on any devices: nine calls, the last four of them for
the instruction that is not completed. -/
example (b : Build) (v w : Byte) :
    ∃ s, Asked (Mos.Live.run b (withRegs sampleRegs .own) 7)
      [.read .iterator 0x80fd 0xe6, .read .iterator 0x80fe 0x10, .read .iterator 0x80ff 0xa5,
        .read .iterator 0x10 v, .write .iterator 0x10 (v + 1) (.ok 0), .write .own 0x10 (v + 1) (.ok 1),
        .read .iterator 0x80ff 0xa5, .read .iterator 0x8100 0x10, .read .iterator 0x8101 0,
        .read .iterator 0x10 w] (.ok (.ready s)) := by
  rcases b with ⟨_ | _⟩ <;> exact ⟨_, .read (.read (.read (.read (.write (.write (.read (.read (.read
    (.read (.done _))))))))))⟩

/-! ## C103 Memory that the clones share -/

/-- What one expects of memory that is shared between the clones of the bus (`Rc<RefCell<..>>`): `run`
does with it what it does with memory of its own. -/
def C103_statement : Prop :=
  ∀ (b : Build) (B : Type) [Addressable B], Cells b B → ∀ (c c' : Mos6502 B) (n : Nat),
    run b c n = .ok (.ready c') →
    exec b (Mos.Live.run b (named .own c) n) (together c.address_map) =
      (.ok (.ready (named .own c')), together c'.address_map)

section
variable {B : Type} [Addressable B]

theorem shared_run (c : Mos6502 B) (n : Nat) {d : Mos6502 Copy} {s : Site B Shared}
    (h : exec b (Mos.Live.runLoop b n (named .iterator c) [] (named .own c)) (together c.address_map) =
      (.ok d, s)) :
    exec b (Mos.Live.run b (named .own c) n) (together c.address_map) = (.ok (.ready d), s) := by
  unfold Mos.Live.run
  have hn : ({ named .own c with address_map := .iterator } : Mos6502 Copy) = named .iterator c := rfl
  rw [exec_bind, hn, h]
  rfl

/-- It does if the run ends with an instruction, for any number of instructions. -/
theorem C103_whole_partial (hB : Cells b B) {c c' : Mos6502 B} {ls : List Operations}
    (h : Instructions b c ls c') :
    exec b (Mos.Live.run b (named .own c) (totalCycles ls)) (together c.address_map) =
      (.ok (.ready (named .own c')), together c'.address_map) := by
  apply shared_run
  rw [shared_instructions hB h _ (Nat.le_refl _), Nat.sub_self]
  rfl

/-- Otherwise the registers are those before the last instruction, and the memory is that after it. -/
theorem C103_cut_partial (hB : Cells b B) {c c' c'' : Mos6502 B} {ls : List Operations} {ops : Operations}
    {n : Nat} (h : Instructions b c ls c') (hx : next b c' = .ok (ops, c''))
    (h1 : totalCycles ls < n) (h2 : n < totalCycles ls + ops.cycles) :
    exec b (Mos.Live.run b (named .own c) n) (together c.address_map) =
      (.ok (.ready (named .own c')), together c''.address_map) := by
  apply shared_run
  rw [shared_instructions hB h _ (by omega), shared_step hB (by omega) hx, if_pos (by omega)]

/-- A run that panics on memory of its own does so on shared memory. -/
theorem C103_panic_partial (hB : Cells b B) {c : Mos6502 B} {n : Nat} {e : Panic}
    (h : run b c n = .error e) :
    (exec b (Mos.Live.run b (named .own c) n) (together c.address_map)).1 = .error e := by
  rw [run_eq] at h
  rcases runLoop_cases (b := b) n c with ⟨ls, d, h1, h2, -, h4⟩ | ⟨ls, d, q, h1, h2, h3, h4⟩
  · rw [h4] at h; cases h
  · rw [h4] at h
    cases h
    unfold Mos.Live.run
    have hn : ({ named .own c with address_map := .iterator } : Mos6502 Copy) = named .iterator c := rfl
    rw [exec_bind, hn, shared_instructions hB h1 _ (by omega), live_step _ (by omega), exec_bind]
    have := (shared_next (b := b) d .iterator).2 e h3
    rcases hx : exec b (Mos.Live.next b (named .iterator d)) (together d.address_map) with ⟨r, s'⟩
    rw [hx] at this
    simp only at this
    subst this
    rfl

end

/-- The emulator's own memory, address maps of it and maps of such maps are made of cells. -/
theorem C103_memory_partial (b : Build) :
    Cells b Memory ∧ Cells b (AddressMap Memory) ∧ Cells b (AddressMap (AddressMap Memory)) :=
  ⟨cells_memory b, cells_map (cells_memory b), cells_map (cells_map (cells_memory b))⟩

/-- Storing the bytes of an instruction twice is storing them once. -/
theorem C103_again_partial {B : Type} [Addressable B] (hB : Cells b B) {ws : List (Word × Byte)} {d d' : B}
    (h : writeAll b d ws = .ok d') : writeAll b d (ws ++ ws) = .ok d' := by
  rw [Mos.writeAll_append, h]
  exact writeAll_again hB h

/-- 64K of RAM as one device. -/
theorem cells_flat (b : Build) : Cells b FlatRam := by
  have key : ∀ {d d' : FlatRam} {a : Word} {v : Byte}, Stores b d a v d' ↔
      d' = ⟨fun x => if x = a then v else d.mem x⟩ := by
    intro d d' a v
    constructor
    · rintro ⟨r, h⟩
      cases h
      rfl
    · rintro rfl
      exact ⟨v, rfl⟩
  constructor
  · intro d d₁ d₂ a v v' h h'
    rw [key] at *
    subst h h'
    congr 1
    funext x
    by_cases hx : x = a <;> simp [hx]
  · intro d d₁ d₂ a a' v v' ha h h'
    rw [key] at h h'
    refine ⟨_, key.2 rfl, key.2 ?_⟩
    subst h h'
    congr 1
    funext x
    by_cases hx : x = a
    · subst hx
      simp [ha]
    · by_cases hx' : x = a'
      · subst hx'
        simp [hx]
      · simp [hx, hx']

/-- RAM with `INC 0x10` at `0x80fd` and `v` at `0x10`. -/
def counter (v : Byte) : FlatRam :=
  ⟨fun a => if a = 0x10 then v else codeAt 0x80fd 0xe6 0x10 0x00 (fun _ => 0) a⟩

/-- One cycle of `INC 0x10`: on RAM of its own nothing happens yet. -/
theorem counter_own (b : Build) (v : Byte) :
    run b (withRegs sampleRegs (counter v)) 1 = .ok (.ready (withRegs sampleRegs (counter v))) := by
  rcases b with ⟨_ | _⟩ <;> rfl

/-- On shared RAM it counts. -/
theorem counter_shared (b : Build) (v : Byte) :
    exec b (Mos.Live.run b (withRegs sampleRegs .own) 1) (together (counter v)) =
      (.ok (.ready (withRegs sampleRegs .own)), together (counter (v + 1))) := by
  have hx : ∃ ops c', next b (withRegs sampleRegs (counter v)) = .ok (ops, c') ∧ 1 < ops.cycles ∧
      c'.address_map = ⟨fun x => if x = 0x10 then v + 1 else (counter v).mem x⟩ := by
    rcases b with ⟨_ | _⟩ <;> exact ⟨_, _, rfl, show 1 < 5 by decide, rfl⟩
  obtain ⟨ops, c', hx, hc, ha⟩ := hx
  have := C103_cut_partial (n := 1) (cells_flat b) (.nil (withRegs sampleRegs (counter v))) hx (by decide)
    (by simpa [totalCycles] using hc)
  have he : c'.address_map = counter (v + 1) := by
    rw [ha]
    unfold counter
    congr 1
    funext x
    by_cases h : x = 0x10
    · rw [if_pos h, if_pos h]
    · rw [if_neg h, if_neg h]
      exact if_neg h
  rw [he] at this
  exact this

/-- The CPU driven one cycle at a time, with shared devices. -/
def drive (b : Build) {W D : Type} [Device W D] (n : Nat) :
    Nat → Mos6502 Copy → Site W D → Res (Mos6502 Copy) × Site W D
  | 0, c, s => (.ok c, s)
  | k + 1, c, s =>
    match exec b (Mos.Live.run b c n) s with
    | (.ok st, s') => drive b n k st.unwrap s'
    | (.error e, s') => (.error e, s')

/-- One `INC`, driven one cycle at a time on shared RAM, counts with every call of `run` and is never
finished. -/
theorem C103_counts (b : Build) (k : Nat) (v : Byte) :
    drive b 1 k (withRegs sampleRegs .own) (together (counter v)) =
      (.ok (withRegs sampleRegs .own), together (counter (v + BitVec.ofNat 8 k))) := by
  induction k generalizing v with
  | zero => simp [drive]
  | succ k ih =>
    simp only [drive, counter_shared]
    have : v + 1 + BitVec.ofNat 8 k = v + BitVec.ofNat 8 (k + 1) := by
      apply BitVec.eq_of_toNat_eq
      have h1 : (1 : Byte).toNat = 1 := rfl
      simp only [BitVec.toNat_add, BitVec.toNat_ofNat, h1]
      omega
    rw [← this]
    exact ih (v + 1)

/-- C103 fails. -/
theorem C103_false : ¬ C103_statement := by
  intro h
  have h1 := h .debug FlatRam (cells_flat .debug) _ _ 1 (counter_own .debug 0)
  have h2 := counter_shared .debug 0
  have h3 : (together (counter (0 + 1)) : Site FlatRam Shared) = together (counter 0) :=
    (Prod.mk.inj (h2.symm.trans h1)).2
  have h4 : (counter (0 + 1)).mem 0x10 = (counter 0).mem 0x10 := by
    rw [show counter (0 + 1) = counter 0 from congrArg Site.world h3]
  exact absurd h4 (by decide)

/-- A program that meets the hypotheses of the partial theorems, on the emulator's own memory: `INC 0x10`
at address 0. -/
example (b : Build) : ∃ (c c' : Mos6502 (AddressMap Memory)) (ops : Operations), ops.cycles = 5 ∧
    Instructions b c [ops] c' ∧ storesOf ops ≠ [] := by
  refine ⟨withRegs { sampleRegs with pc := 0 }
    ⟨[(⟨0, 0x1f⟩, ⟨.readWrite, 0, 0x1f, [0xe6, 0x10] ++ List.replicate 30 0⟩)]⟩, ?_⟩
  rcases b with ⟨_ | _⟩ <;> exact ⟨_, _, rfl, .cons rfl (.nil _), by decide⟩

end Verif.Props
