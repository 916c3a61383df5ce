import Verif.Proofs.MosUses
import Verif.Props.Mos.Relocate

/-!
# C113: what an execution does not look at does not matter

Two machines that differ in some registers, flags and bytes of memory only do the same as long as no
instruction looks at one of these before it has been given a new value. `uses` and `sets`
(`Verif.Spec.MosUses`) say what an instruction looks at and what it gives a value.
-/

namespace Verif.Props

open Verif Verif.Mos Verif.Spec Verif.Spec.Mos

section
variable {B B' : Type} [Addressable B] [Addressable B'] {b : Build} {I : B → Mem → Prop}
  {I' : B' → Mem → Prop} {W : Word → Prop} {D D' : Part → Prop} {c c' : Mos6502 B}
  {e : Mos6502 B'} {mem mem' : Mem} {i : InstructionVariant} {ops : Operations}
  {tr : List (Mos6502 B × InstructionVariant)}

/-- The other machine is at the same instruction. -/
theorem C113_fetch (hv : BusView b c.address_map mem) (hv' : BusView b e.address_map mem')
    (h : Agree D (regs c) (regs e) mem mem') (hu : ∀ p ∈ ownBytes (regs c) (view i).2, ¬D p)
    (hat : At b c i) : At b e i := by
  have hpc : e.pc = c.pc := h.pc
  have h1 := fetch_eq (cpu := c) hv
  rw [show fetch b c = .ok i from hat] at h1
  unfold At
  rw [fetch_eq (cpu := e) hv', hpc]
  split at h1
  · cases h1
  · next ho =>
    rw [if_neg ho]
    split at h1
    · next j hj =>
      cases h1
      have key : ∀ k, k < size (view i).2 → mem' (word (c.pc.toNat + k)) = mem (word (c.pc.toNat + k)) :=
        fun k hk => h.value (.mem (word (c.pc.toNat + k)))
          (hu _ (List.mem_map.2 ⟨k, List.mem_range.2 hk, rfl⟩))
      have word_add : ∀ k : Nat, word (c.pc.toNat + k) = c.pc + BitVec.ofNat 16 k := by
        intro k
        apply BitVec.eq_of_toNat_eq
        simp only [word, BitVec.toNat_ofNat, BitVec.toNat_add]
        omega
      have hs : 0 < size (view i).2 := by cases (view i).2 <;> simp [size]
      have h0 := key 0 hs
      rw [word_add, show c.pc + BitVec.ofNat 16 0 = c.pc from BitVec.add_zero _] at h0
      rw [parse_own hj h0 (fun hk => by have := key 1 hk; rwa [word_add] at this)
        (fun hk => by have := key 2 hk; rwa [word_add] at this)]
    · cases h1

/-- C113: one instruction that looks at nothing in which the machines may differ. It is the same
instruction with the same operations, and afterwards the machines agree in what it has set as well. -/
theorem C113_step (hI : Coherent b I) (hI' : Coherent b I') (hacc : AcceptsAt b I' W)
    (hm : I c.address_map mem) (hm' : I' e.address_map mem') (h : Agree D (regs c) (regs e) mem mem')
    (hu : ∀ p ∈ uses (regs c) mem i, ¬D p)
    (hW : ∀ a ∈ writable (regs c) mem (view i).1 (view i).2, W a)
    (hat : At b c i) (hn : next b c = .ok (ops, c')) :
    ∃ e' m m', At b e i ∧ next b e = .ok (ops, e') ∧ I c'.address_map m ∧ I' e'.address_map m' ∧
      Agree (fun p => D p ∧ p ∉ sets (regs c) mem i) (regs c') (regs e') m m' := by
  have hat' := C113_fetch (hI _ _ hm).1 (hI' _ _ hm').1 h
    (fun p hp => hu p (by simp only [uses, List.mem_append]; simp [hp])) hat
  have hag := agree_step h hu
  obtain ⟨hops', hwr, -, -⟩ := effect_used h.pc fun p hp => h.value p (hu p hp)
  obtain ⟨hok, hops, hregs, hws⟩ := step_inv hat (hI _ _ hm).1 (mn := (view i).1) (am := (view i).2) rfl hn
  have hok' : AddrOk b (regs e) mem' (view i).2 :=
    addrOk_used (fun p hp => h.value p (hu p (by simp only [uses, List.mem_append]; simp [hp]))) hok
  obtain ⟨bus, hbus⟩ := writeAll_accepted hI' hacc (codeEffect (regs c) mem (view i).1 (view i).2).writes hm'
    fun w hw => hW _ (by rw [← codeEffect_writes]; exact List.mem_map_of_mem hw)
  have hst := step_ok hat' (hI' _ _ hm').1 hok'
  rw [hwr] at hst
  simp only [hbus] at hst
  rw [hops', ← hops] at hst
  rw [← hregs] at hag
  exact ⟨_, _, _, hat', hst, writeAll_coherent hI _ hm hws, writeAll_coherent hI' _ hm' hbus, hag⟩

/-- C113: any execution along which what may differ is not looked at. -/
theorem C113_executes (hI : Coherent b I) (hI' : Coherent b I') (hacc : AcceptsAt b I' W)
    (hm : I c.address_map mem) (hm' : I' e.address_map mem') (h : Agree D (regs c) (regs e) mem mem')
    (hx : Executes b c tr c') (hu : Unseen I D tr D')
    (hW : ∀ p ∈ tr, ∀ m, I p.1.address_map m → ∀ a ∈ writable (regs p.1) m (view p.2).1 (view p.2).2, W a) :
    ∃ tr' e' m m', Executes b e tr' e' ∧ tr'.map Prod.snd = tr.map Prod.snd ∧
      I c'.address_map m ∧ I' e'.address_map m' ∧ Agree D' (regs c') (regs e') m m' := by
  induction hx generalizing e mem mem' D with
  | nil c => cases hu; exact ⟨[], e, mem, mem', .nil e, rfl, hm, hm', h⟩
  | @cons c c1 c2 i tr hs _ ih =>
    obtain ⟨hat, ops, hn⟩ := hs
    cases hu with
    | @cons _ _ _ _ m0 _ h1 h2 h3 =>
      have hmm : m0 = mem := funext fun a => by
        have := (hI _ _ h1).1 a
        rw [(hI _ _ hm).1 a] at this
        exact (Except.ok.inj this).symm
      subst hmm
      obtain ⟨e1, m, m', q1, q2, q3, q4, q5⟩ :=
        C113_step hI hI' hacc hm hm' h h2 (hW (c, i) (by simp) m0 hm) hat hn
      obtain ⟨tr', e2, m2, m2', r1, r2, r3⟩ := ih q3 q4 q5 h3 fun p hp => hW p (by simp [hp])
      exact ⟨(e, i) :: tr', e2, m2, m2', .cons ⟨q1, ops, q2⟩ r1, by simp [r2], r3⟩

/-- Instructions none of which looks at `D`. -/
theorem C113_instructions {l : List Operations} (hI : Coherent b I)
    (hI' : Coherent b I') (hacc : AcceptsAt b I' W) (hm : I c.address_map mem)
    (hm' : I' e.address_map mem') (h : Agree D (regs c) (regs e) mem mem')
    (hx : Instructions b c l c') {n : Nat} (hn : totalCycles l ≤ n)
    (hin : ∀ l c1 i m, Instructions b c l c1 → totalCycles l < n → At b c1 i → I c1.address_map m →
      (∀ p ∈ uses (regs c1) m i, ¬D p) ∧ ∀ a ∈ writable (regs c1) m (view i).1 (view i).2, W a) :
    ∃ e' m m', Instructions b e l e' ∧ I c'.address_map m ∧ I' e'.address_map m' ∧
      Agree D (regs c') (regs e') m m' := by
  induction hx generalizing e mem mem' n with
  | nil c => exact ⟨e, mem, mem', .nil e, hm, hm', h⟩
  | @cons c c1 c2 ops l hx hl ih =>
    cases hf : fetch b c with
    | error p =>
      exfalso
      unfold next at hx
      rw [hf] at hx
      cases hx
    | ok i =>
      have hpos := (next_inv hx).1
      rw [totalCycles_cons] at hn
      obtain ⟨q1, q2⟩ := hin [] c i mem (.nil c) (by show 0 < n; omega) hf hm
      obtain ⟨e1, m, m', h1, h2, h3, h4, h5⟩ := C113_step hI hI' hacc hm hm' h q1 q2 hf hx
      obtain ⟨e2, m2, m2', r1, r2⟩ := ih h3 h4 (agree_mono (fun _ h => h.1) h5) (n := n - ops.cycles)
        (by omega) fun l d1 j m hl ht hj hm => hin (ops :: l) d1 j m (.cons hx hl)
          (by rw [totalCycles_cons]; omega) hj hm
      exact ⟨e2, m2, m2', .cons h2 r1, r2⟩

/-- C113: `run` for any number of cycles, if no instruction executed looks at `D`: the other machine
executes the same instructions in the same cycles, and the machines agree outside `D` again. -/
theorem C113_run {n : Nat} {s : StepState (Mos6502 B)} (hI : Coherent b I)
    (hI' : Coherent b I') (hacc : AcceptsAt b I' W) (hm : I c.address_map mem)
    (hm' : I' e.address_map mem') (h : Agree D (regs c) (regs e) mem mem') (hr : run b c n = .ok s)
    (hin : ∀ l c1 i m, Instructions b c l c1 → totalCycles l < n → At b c1 i → I c1.address_map m →
      (∀ p ∈ uses (regs c1) m i, ¬D p) ∧ ∀ a ∈ writable (regs c1) m (view i).1 (view i).2, W a) :
    ∃ s' m m', run b e n = .ok s' ∧ I s.unwrap.address_map m ∧ I' s'.unwrap.address_map m' ∧
      Agree D (regs s.unwrap) (regs s'.unwrap) m m' := by
  rw [run_eq] at hr
  rcases runLoop_cases (b := b) n c with ⟨l, c', h1, h2, h3, h4⟩ | ⟨l, c', p, h1, h2, h3, h4⟩
  · rw [h4] at hr
    simp only [Except.map, Except.ok.injEq] at hr
    subst hr
    obtain ⟨e', m, m', q1, q2, q3, q4⟩ := C113_instructions hI hI' hacc hm hm' h h1 h2 hin
    refine ⟨.ready e', m, m', C12_run_eq q1 h2 ?_, q2, q3, q4⟩
    rcases h3 with h3 | ⟨ops, c'', hx, hlt⟩
    · exact .inl h3
    · by_cases ht : totalCycles l = n
      · exact .inl ht
      cases hf : fetch b c' with
      | error p =>
        exfalso
        unfold next at hx
        rw [hf] at hx
        cases hx
      | ok i =>
        obtain ⟨r1, r2⟩ := hin l c' i m h1 (by omega) hf q2
        obtain ⟨e1, -, -, -, g2, -⟩ := C113_step hI hI' hacc q2 q3 q4 r1 r2 hf hx
        exact .inr ⟨ops, e1, g2, hlt⟩
  · rw [h4] at hr
    cases hr

/-- The flags that no instruction looks at but those that push the status. -/
def idleFlag : Part → Prop
  | .flag .Decimal | .flag .Interrupt | .flag .Break | .unused => True
  | _ => False

theorem uses_idle (r : Regs) (m : Mem) {i : InstructionVariant} (h1 : (view i).1 ≠ .Php)
    (h2 : (view i).1 ≠ .Brk) : ∀ p ∈ uses r m i, ¬idleFlag p := by
  intro p hp
  simp only [uses, List.mem_append] at hp
  rcases hp with (((hp | hp) | hp) | hp) | hp
  · obtain ⟨k, -, rfl⟩ := List.mem_map.1 hp; exact id
  · revert hp
    cases (view i).2 <;> simp +contextual [modeUses, idleFlag, or_imp]
  · revert hp
    cases (view i).2 <;> simp +contextual [pointerUses, idleFlag, or_imp]
  · unfold operandUses at hp
    split at hp <;> simp only [List.mem_singleton, List.not_mem_nil] at hp <;> subst hp <;> exact id
  · revert h1 h2 hp
    cases (view i).1 <;> simp +contextual [mnemonicUses, idleFlag, or_imp]


/-- C113: a program that executes neither `PHP` nor `BRK` runs the same whatever the decimal, interrupt and
break flags and bit 5 of the status. -/
theorem C113_idle_flags {n : Nat} {s : StepState (Mos6502 B)} (hI : Coherent b I) (hI' : Coherent b I')
    (hacc : AcceptsAt b I' W) (hm : I c.address_map mem)
    (hm' : I' e.address_map mem) (h : Agree idleFlag (regs c) (regs e) mem mem) (hr : run b c n = .ok s)
    (hin : ∀ l c1 i m, Instructions b c l c1 → totalCycles l < n → At b c1 i → I c1.address_map m →
      (view i).1 ≠ .Php ∧ (view i).1 ≠ .Brk ∧ ∀ a ∈ writable (regs c1) m (view i).1 (view i).2, W a) :
    ∃ s' m, run b e n = .ok s' ∧ I s.unwrap.address_map m ∧ I' s'.unwrap.address_map m ∧
      Agree idleFlag (regs s.unwrap) (regs s'.unwrap) m m := by
  obtain ⟨s', m, m', h1, h2, h3, h4⟩ := C113_run hI hI' hacc hm hm' h hr
    fun l c1 i m a1 a2 a3 a4 =>
      ⟨uses_idle _ _ (hin l c1 i m a1 a2 a3 a4).1 (hin l c1 i m a1 a2 a3 a4).2.1,
        (hin l c1 i m a1 a2 a3 a4).2.2⟩
  have : m' = m := funext fun a => h4.value (.mem a) id
  subst this
  exact ⟨s', m', h1, h2, h3, h4⟩

end

/-! ### Witnesses -/

/-- `LDA #5`, `TAX`, `STA $10`. -/
def fiveProgram : List Byte := [0xa9, 5, 0xaa, 0x85, 0x10]

/-- The machine in the course of `fiveProgram`. -/
def fiveAt (a x : Byte) (pc : Word) : Mos6502 FlatRam :=
  withRegs { sampleRegs with a := a, x := x, pc := pc, p := setNZ sampleRegs.p 5 }
    ⟨loaded 0x200 fiveProgram fun _ => 0⟩

/-- What is not defined at the start of `fiveProgram`. -/
def fiveOpen : Part → Prop := fun p => p = .a ∨ p = .x ∨ p = .mem 0x10 ∨ p = .flag .Zero

instance : DecidablePred fiveOpen := fun p => by unfold fiveOpen; infer_instance

theorem five_executes : ∃ c', Executes .debug (loadedAt 0x200 fiveProgram)
    [(loadedAt 0x200 fiveProgram, .LdaImmediate 5), (fiveAt 5 sampleRegs.x 0x202, .TaxImplied),
      (fiveAt 5 5 0x203, .StaZeroPage 0x10)] c' :=
  ⟨_, .cons (flat_step (by decide) (by decide +kernel) trivial)
    (.cons (flat_step (by decide) (by decide +kernel) trivial)
    (.cons (flat_step (by decide) (by decide +kernel) trivial) (.nil _)))⟩

/-- The hypotheses of `C113_executes`: `fiveProgram` started with any A, X, zero flag and byte at 0x10
ends in the same state. -/
example (a x v : Byte) (z : Bool) : ∃ c' tr' e' m m', Executes .debug (loadedAt 0x200 fiveProgram)
      [(loadedAt 0x200 fiveProgram, .LdaImmediate 5), (fiveAt 5 sampleRegs.x 0x202, .TaxImplied),
        (fiveAt 5 5 0x203, .StaZeroPage 0x10)] c' ∧
    Executes .debug (withRegs { sampleRegs with a := a, x := x, pc := 0x200, p := { sampleRegs.p with zero := z } }
      (⟨loaded 0x200 fiveProgram (upd (fun _ => 0) 0x10 v)⟩ : FlatRam)) tr' e' ∧
    tr'.map Prod.snd = [.LdaImmediate 5, .TaxImplied, .StaZeroPage 0x10] ∧
    c'.address_map.mem = m ∧ e'.address_map.mem = m' ∧ Agree (fun _ => False) (regs c') (regs e') m m' := by
  obtain ⟨c', h⟩ := five_executes
  have hu : Unseen (fun (bus : FlatRam) m => bus.mem = m) fiveOpen
      [(loadedAt 0x200 fiveProgram, .LdaImmediate 5), (fiveAt 5 sampleRegs.x 0x202, .TaxImplied),
        (fiveAt 5 5 0x203, .StaZeroPage 0x10)] _ :=
    .cons rfl (by decide +kernel) (.cons rfl (by decide +kernel) (.cons rfl (by decide +kernel) .nil))
  obtain ⟨tr', e', m, m', h1, h2, h3, h4, h5⟩ := C113_executes (W := fun _ => True)
    (c := loadedAt 0x200 fiveProgram) (mem := loaded 0x200 fiveProgram fun _ => 0)
    (mem' := loaded 0x200 fiveProgram (upd (fun _ => 0) 0x10 v)) (D := fiveOpen)
    (e := withRegs { sampleRegs with a := a, x := x, pc := 0x200, p := { sampleRegs.p with zero := z } }
      (⟨loaded 0x200 fiveProgram (upd (fun _ => 0) 0x10 v)⟩ : FlatRam))
    (flatRam_coherent .debug) (flatRam_coherent .debug) (flat_acceptsAt .debug _) rfl rfl
    ⟨rfl, fun p hp => by
      cases p with
      | a => exact absurd (.inl rfl) hp
      | x => exact absurd (.inr (.inl rfl)) hp
      | flag f =>
        cases f <;> first | rfl | exact absurd (.inr (.inr (.inr rfl))) hp
      | mem y =>
        have hy : y ≠ 0x10 := fun e => hp (.inr (.inr (.inl (by rw [e]))))
        simp only [value, loaded, upd, if_neg hy]
      | _ => rfl⟩ h hu (fun _ _ _ _ _ _ => trivial)
  refine ⟨c', tr', e', m, m', h, h1, h2, h3, h4, agree_mono (fun p hp => ?_) h5⟩
  obtain ⟨⟨⟨hp, n1⟩, n2⟩, n3⟩ := hp
  rcases hp with rfl | rfl | rfl | rfl
  · exact n1 (by decide)
  · exact n2 (by decide)
  · exact n3 (by decide)
  · exact n1 (by decide)

/-- C113: `DEY` does look at X. With Y = 1 in both machines, and X = 1 in one of them and 2 in the other,
one finds the zero flag set and the other one clear. -/
theorem C113_dey_uses_x :
    ∃ ops ops' c e, next .debug (machine { sampleRegs with x := 1, y := 1 } 0x88 0 0) = .ok (ops, c) ∧
      next .debug (machine { sampleRegs with x := 2, y := 1 } 0x88 0 0) = .ok (ops', e) ∧
      c.y = 0 ∧ e.y = 0 ∧ c.ps.zero = true ∧ e.ps.zero = false :=
  ⟨_, _, _, _, rfl, rfl, by decide +kernel, by decide +kernel, by decide +kernel, by decide +kernel⟩

/-- A machine full of `NOP` stays that. -/
theorem nops_stay {c c1 : Mos6502 FlatRam} {l : List Operations} (h : Instructions .release c l c1)
    (hc : c.address_map.mem = fun _ => 0xea) : c1.address_map.mem = fun _ => 0xea := by
  induction h with
  | nil c => exact hc
  | @cons c c1 c2 ops l hx _ ih =>
    refine ih ?_
    have hat : At .release c .NopImplied := by
      unfold At
      rw [fetch_eq (mem := fun _ => 0xea) (fun a => congrArg (fun m => Except.ok (m a)) hc), if_neg (by simp [Build.release])]
      rfl
    obtain ⟨-, -, -, h⟩ := step_inv hat (mem := fun _ => 0xea)
      (fun a => congrArg (fun m => Except.ok (m a)) hc) (mn := .Nop) (am := .implied) rfl hx
    rw [← Except.ok.inj h]
    exact hc

/-- The hypotheses of `C113_idle_flags`: a machine full of `NOP`, in decimal mode and not, with interrupts disabled
and not, for any number of cycles. -/
example (n : Nat) (s : StepState (Mos6502 FlatRam)) (d i : Bool)
    (h : run .release (withRegs sampleRegs ⟨fun _ => 0xea⟩) n = .ok s) :
    ∃ s', run .release (withRegs { sampleRegs with p := { sampleRegs.p with decimal := d, interrupt_disable := i } }
      (⟨fun _ => 0xea⟩ : FlatRam)) n = .ok s' ∧ s'.unwrap.pc = s.unwrap.pc := by
  obtain ⟨s', m, h1, -, -, h4⟩ := C113_idle_flags (W := fun _ => True)
    (c := withRegs sampleRegs (⟨fun _ => 0xea⟩ : FlatRam)) (mem := fun _ => 0xea)
    (e := withRegs { sampleRegs with p := { sampleRegs.p with decimal := d, interrupt_disable := i } }
      (⟨fun _ => 0xea⟩ : FlatRam)) (flatRam_coherent .release)
    (flatRam_coherent .release) (flat_acceptsAt .release _) rfl rfl
    ⟨rfl, fun p hp => by
      cases p with
      | flag f => cases f <;> first | rfl | exact absurd trivial hp
      | _ => rfl⟩ h
    (fun l c1 j m a1 _ a3 _ => by
      have hc := nops_stay a1 rfl
      have : At .release c1 .NopImplied := by
        unfold At
        rw [fetch_eq (mem := fun _ => 0xea) (fun a => congrArg (fun m => Except.ok (m a)) hc), if_neg (by simp [Build.release])]
        rfl
      have hj : j = .NopImplied := Except.ok.inj ((show fetch _ _ = _ from a3).symm.trans this)
      subst hj
      exact ⟨by decide, by decide, fun _ _ => trivial⟩)
  exact ⟨s', h1, h4.pc⟩

end Verif.Props
