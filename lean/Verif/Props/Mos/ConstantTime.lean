import Verif.Spec.MosTime
import Verif.Props.Mos.Control
import Verif.Props.Mos.Relocate

/-!
# Property C133: what the running time of a 6502 program can depend on
-/

namespace Verif.Props

open Verif Verif.Mos Verif.Spec.Mos

section
variable {B B' : Type} [Addressable B] [Addressable B'] {b b' : Build}

private theorem shown_view {bus : B} (h : Readable b bus) : BusView b bus (shown b bus) := by
  intro a
  obtain ⟨v, hv⟩ := h a
  simp [shown, hv]

/-- The cycles of one instruction. -/
private theorem moment_cycles {c c' : Mos6502 B} {i : InstructionVariant} {ops : Operations}
    (hat : At b c i) (hr : Readable b c.address_map) (hn : next b c = .ok (ops, c')) :
    ops.cycles = baseCycles (view i).1 (view i).2 +
        codePenalty (regs c) (shown b c.address_map) (view i).1 (view i).2 ∧
      regs c' = (codeEffect (regs c) (shown b c.address_map) (view i).1 (view i).2).regs := by
  obtain ⟨-, h2, h3, -⟩ := step_inv hat (shown_view hr) (mn := (view i).1) (am := (view i).2) rfl hn
  exact ⟨by rw [h2]; rfl, h3⟩

/-- Only `STA` writes through `(zp),Y`. -/
private theorem writes_indirectIndexed (i : InstructionVariant) {z : Byte}
    (h : (view i).2 = .indirectIndexed z) :
    writesMem (view i).1 (view i).2 = decide ((view i).1 = .Sta) := by
  cases i <;> simp [view] at h ⊢ <;> rfl

private theorem crosses_page {x y : Nat} (h : x / 256 = y / 256) (k : Nat) :
    crosses k x = crosses k y := by
  unfold crosses
  rw [h]

/-- The penalty of an instruction that is no branch is a matter of the page it reads in. -/
private theorem penalty_of_page {r r' : Regs} {mem mem' : Mem} (i : InstructionVariant)
    (hb : isBranch i = false)
    (hp : indexedRead i = true →
      (ea r mem (view i).2).toNat / 256 = (ea r' mem' (view i).2).toNat / 256) :
    codePenalty r mem (view i).1 (view i).2 = codePenalty r' mem' (view i).1 (view i).2 := by
  have hw := fun z => writes_indirectIndexed i (z := z)
  unfold isBranch at hb
  unfold indexedRead at hp
  generalize (view i).1 = mn at *
  generalize (view i).2 = am at *
  cases am with
  | relative d => simp at hb
  | indirectIndexed z =>
    have hw' := hw z rfl
    unfold codePenalty
    by_cases h : mn = .Sta
    · simp [h]
    · have := hp (by rw [hw']; simp [h, canCross])
      simp only [h, if_false, crosses]
      rw [this]
  | absoluteX w =>
    unfold codePenalty
    by_cases h : writesMem mn (.absoluteX w) = true
    · simp [h]
    · have := hp (by simp [h, canCross])
      simp only [baseAddr, crosses_page this]
  | absoluteY w =>
    unfold codePenalty
    by_cases h : writesMem mn (.absoluteY w) = true
    · simp [h]
    · have := hp (by simp [h, canCross])
      simp only [baseAddr, crosses_page this]
  | _ => simp [codePenalty, canCross]

private theorem penalty_none {r : Regs} {mem : Mem} (i : InstructionVariant)
    (hb : isBranch i = false) (hp : indexedRead i = false) :
    codePenalty r mem (view i).1 (view i).2 = 0 := by
  have hw := fun z => writes_indirectIndexed i (z := z)
  unfold isBranch at hb
  unfold indexedRead at hp
  generalize (view i).1 = mn at *
  generalize (view i).2 = am at *
  cases am with
  | relative d => simp at hb
  | indirectIndexed z =>
    have hw' := hw z rfl
    rw [hw'] at hp
    simp [canCross] at hp
    simp [codePenalty, hp]
  | absoluteX w =>
    simp [canCross] at hp
    simp [codePenalty, hp]
  | absoluteY w =>
    simp [canCross] at hp
    simp [codePenalty, hp]
  | _ => simp [codePenalty, canCross]

/-- Instructions that are neither branches nor reads with an index take their documented number of
cycles, whatever the registers and the memory hold. -/
theorem C133_constant {c c' : Mos6502 B} {tr : List (Moment B)} (h : Passes b c tr c')
    (hi : ∀ m ∈ tr, isBranch m.instruction = false ∧ indexedRead m.instruction = false) :
    tr.map Moment.cycles =
      tr.map fun m => baseCycles (view m.instruction).1 (view m.instruction).2 := by
  induction h with
  | nil c => rfl
  | @cons c c' c'' i ops tr hat hr hn _ ih =>
    have hi0 := hi _ (List.mem_cons_self ..)
    rw [List.map_cons, List.map_cons, ih fun m hm => hi m (List.mem_cons_of_mem _ hm)]
    congr 1
    show ops.cycles = _
    rw [(moment_cycles hat hr hn).1, penalty_none i hi0.1 hi0.2, Nat.add_zero]

private theorem branch_mnemonic {i : InstructionVariant} {d : Byte} (h : (view i).2 = .relative d)
    (p : ProcessorStatus) : ∃ t, taken (view i).1 p = some t := by
  cases i <;> simp [view] at h ⊢ <;> simp [taken]

private theorem target_ne {pc : Word} {d : Byte} (hd : d ≠ 2) : codeTarget pc d ≠ pc + 2 := by
  unfold codeTarget
  intro h
  have h' : d.signExtend 16 = 2 := by
    have h2 := congrArg (fun w => w - pc) h
    simpa [BitVec.add_comm pc, BitVec.add_sub_cancel] using h2
  apply hd
  have : ∀ d : BitVec 8, d.signExtend 16 = 2 → d = 2 := by decide +kernel
  exact this d h'

private theorem pc_add_two (r : Regs) (d : Byte) : nextPc r (.relative d) = r.pc + 2 := by
  unfold nextPc
  apply BitVec.eq_of_toNat_eq
  simp [word, size]

/-- Two executions, on whatever machines, in which the same instructions are executed at the same
addresses, with every read with an index in the same page, take the same number of cycles for every
instruction: the time depends on nothing else. (The branch to the next instruction excepted.) -/
theorem C133_time {c c' : Mos6502 B} {d d' : Mos6502 B'} {tr : List (Moment B)}
    {tr' : List (Moment B')} (h : Passes b c tr c') (h' : Passes b' d tr' d')
    (hs : tr.map (Moment.seen b) = tr'.map (Moment.seen b')) (hpc : c'.pc = d'.pc)
    (hb : ∀ m ∈ tr, branchToNext m.instruction = false) :
    tr.map Moment.cycles = tr'.map Moment.cycles := by
  induction h generalizing d tr' with
  | nil c =>
    cases tr' with
    | nil => rfl
    | cons m tr' => simp at hs
  | @cons c c1 c' i ops tr hat hr hn hx ih =>
    cases h' with
    | nil => simp at hs
    | @cons _ d1 _ j ops' tr' hat' hr' hn' hx' =>
      simp only [List.map_cons, List.cons.injEq] at hs
      obtain ⟨hs0, hs1⟩ := hs
      have hj : i = j := congrArg Seen.instruction hs0
      subst hj
      have hp0 : c.pc = d.pc := congrArg Seen.pc hs0
      have hpage := congrArg Seen.page hs0
      have hnext : c1.pc = d1.pc := by
        cases hx with
        | nil =>
          cases hx' with
          | nil => exact hpc
          | cons => simp at hs1
        | cons =>
          cases hx' with
          | nil => simp at hs1
          | cons =>
            simp only [List.map_cons, List.cons.injEq] at hs1
            exact congrArg Seen.pc hs1.1
      rw [List.map_cons, List.map_cons,
        ih hx' hs1 hpc fun m hm => hb m (List.mem_cons_of_mem _ hm)]
      congr 1
      show ops.cycles = ops'.cycles
      obtain ⟨e1, e2⟩ := moment_cycles hat hr hn
      obtain ⟨f1, f2⟩ := moment_cycles hat' hr' hn'
      rw [e1, f1]
      congr 1
      by_cases hbr : isBranch i = true
      · have hb0 := hb _ (List.mem_cons_self ..)
        unfold isBranch at hbr
        have hdd : ∃ d, (view i).2 = .relative d := by
          revert hbr
          cases (view i).2 <;> simp
        obtain ⟨d0, hd0⟩ := hdd
        have hne : d0 ≠ 2 := by
          rintro rfl
          simp only [branchToNext, hd0] at hb0
          exact absurd hb0 (by decide)
        obtain ⟨t, ht⟩ := branch_mnemonic hd0 (regs c).p
        obtain ⟨t', ht'⟩ := branch_mnemonic hd0 (regs d).p
        rw [hd0] at e2 f2 ⊢
        rw [taken_branch ht (regs c) _ d0 rfl] at e2
        rw [taken_branch ht' (regs d) _ d0 rfl] at f2
        have e3 : c1.pc = if t then codeTarget c.pc d0 else nextPc (regs c) (.relative d0) :=
          congrArg Regs.pc e2
        have f3 : d1.pc = if t' then codeTarget d.pc d0 else nextPc (regs d) (.relative d0) :=
          congrArg Regs.pc f2
        rw [pc_add_two] at e3 f3
        have htt : t = t' := by
          rw [hnext, f3, ← hp0] at e3
          have hpd : (regs d).pc = c.pc := hp0.symm
          have hpc' : (regs c).pc = c.pc := rfl
          rw [hpd, hpc'] at e3
          cases t <;> cases t' <;> simp at e3 ⊢
          · exact target_ne hne e3
          · exact target_ne hne e3.symm
        subst htt
        have hpp : (regs c).pc = (regs d).pc := hp0
        simp only [codePenalty, ht, ht', hpp]
      · have hbr' : isBranch i = false := by simpa using hbr
        refine penalty_of_page i hbr' fun hir => ?_
        simp only [Moment.seen, hir, if_true] at hpage
        exact hpage

/-- With what is known of the flags the exception is not needed: it is enough that the two machines
agree, at every branch, on whether it is taken. -/
theorem C133_time_taken {c c' : Mos6502 B} {d d' : Mos6502 B'} {tr : List (Moment B)}
    {tr' : List (Moment B')} (h : Passes b c tr c') (h' : Passes b' d tr' d')
    (hs : tr.map (Moment.seen b) = tr'.map (Moment.seen b'))
    (ht : (tr.map fun m => taken (view m.instruction).1 m.cpu.ps) =
      tr'.map fun m => taken (view m.instruction).1 m.cpu.ps) :
    tr.map Moment.cycles = tr'.map Moment.cycles := by
  induction h generalizing d tr' with
  | nil c =>
    cases tr' with
    | nil => rfl
    | cons m tr' => simp at hs
  | @cons c c1 c' i ops tr hat hr hn hx ih =>
    cases h' with
    | nil => simp at hs
    | @cons _ d1 _ j ops' tr' hat' hr' hn' hx' =>
      simp only [List.map_cons, List.cons.injEq] at hs ht
      obtain ⟨hs0, hs1⟩ := hs
      obtain ⟨ht0, ht1⟩ := ht
      have hj : i = j := congrArg Seen.instruction hs0
      subst hj
      have hp0 : c.pc = d.pc := congrArg Seen.pc hs0
      have hpage := congrArg Seen.page hs0
      rw [List.map_cons, List.map_cons, ih hx' hs1 ht1]
      congr 1
      show ops.cycles = ops'.cycles
      rw [(moment_cycles hat hr hn).1, (moment_cycles hat' hr' hn').1]
      congr 1
      by_cases hbr : isBranch i = true
      · unfold isBranch at hbr
        have hdd : ∃ d, (view i).2 = .relative d := by
          revert hbr
          cases (view i).2 <;> simp
        obtain ⟨d0, hd0⟩ := hdd
        have hpp : (regs c).pc = (regs d).pc := hp0
        have htt : taken (view i).1 (regs c).p = taken (view i).1 (regs d).p := ht0
        rw [hd0]
        simp only [codePenalty, htt, hpp]
      · have hbr' : isBranch i = false := by simpa using hbr
        refine penalty_of_page i hbr' fun hir => ?_
        simp only [Moment.seen, hir, if_true] at hpage
        exact hpage

end

/-- A branch to the next instruction, with the zero flag as given. -/
def branchSample (z : Bool) : Mos6502 FlatRam :=
  machine { sampleRegs with p := { sampleRegs.p with zero := z } } 0xf0 0x02 0

private theorem branchSample_at (z : Bool) : At .debug (branchSample z) (.BeqRelative 0x02) := by
  cases z <;> rfl

private theorem branchSample_next (z : Bool) : ∃ ops c',
    next .debug (branchSample z) = .ok (ops, c') ∧ ops.cycles = (if z then 3 else 2) ∧
      c'.pc = sampleRegs.pc + 2 := by
  cases z <;> exact ⟨_, _, rfl, by decide, by decide⟩

/-- The exception is real: two machines that differ in one flag go the same way through a branch to the
next instruction, one in two cycles and the other in three. -/
theorem C133_branch_to_next : ∃ c d c' d' : Mos6502 FlatRam, ∃ i : InstructionVariant,
    Passes .debug c [⟨c, i, 2⟩] c' ∧ Passes .debug d [⟨d, i, 3⟩] d' ∧
      Moment.seen .debug ⟨c, i, 2⟩ = Moment.seen .debug ⟨d, i, 3⟩ ∧ c'.pc = d'.pc ∧
      d = { c with ps := { c.ps with zero := d.ps.zero } } := by
  obtain ⟨ops, c', h1, h2, h3⟩ := branchSample_next false
  obtain ⟨ops', d', k1, k2, k3⟩ := branchSample_next true
  have hc : Passes .debug (branchSample false) [⟨branchSample false, .BeqRelative 2, ops.cycles⟩] c' :=
    .cons (branchSample_at _) (fun _ => ⟨_, rfl⟩) h1 (.nil _)
  have hd : Passes .debug (branchSample true) [⟨branchSample true, .BeqRelative 2, ops'.cycles⟩] d' :=
    .cons (branchSample_at _) (fun _ => ⟨_, rfl⟩) k1 (.nil _)
  rw [h2] at hc
  rw [k2] at hd
  exact ⟨_, _, c', d', .BeqRelative 2, hc, hd, rfl, h3.trans k3.symm, rfl⟩

/-- An execution on RAM, with its times. -/
private theorem passes_of {c c' : Mos6502 FlatRam} {tr : List (Mos6502 FlatRam × InstructionVariant)}
    (h : Executes .debug c tr c') : ∃ tr', Passes .debug c tr' c' ∧
      tr'.map (fun m => (m.cpu, m.instruction)) = tr := by
  induction h with
  | nil c => exact ⟨[], .nil _, rfl⟩
  | @cons c c' c'' i tr hs _ ih =>
    obtain ⟨hat, ops, hn⟩ := hs
    obtain ⟨tr', h1, h2⟩ := ih
    exact ⟨⟨c, i, ops.cycles⟩ :: tr', .cons hat (fun _ => ⟨_, rfl⟩) hn h1, by rw [List.map_cons, h2]⟩

/-- `LDA $0310,X; BNE` to 0x206, with X and the bytes from 0x310 on as given. -/
def lookup (x : Byte) (data : Mem) : Mos6502 FlatRam :=
  withRegs { sampleRegs with x := x, pc := 0x200 } ⟨loaded 0x200 [0xbd, 0x10, 0x03, 0xd0, 0x03] data⟩

private theorem lookup_runs (x v : Byte) (hxv : (x, v) = (1, 7) ∨ (x, v) = (0x20, 9)) :
    ∃ c1 c2 : Mos6502 FlatRam,
    Executes .debug (lookup x fun _ => v)
      [(lookup x fun _ => v, .LdaAbsoluteIndexedWithX 0x310), (c1, .BneRelative 3)] c2 ∧
      c1.pc = 0x203 ∧ c2.pc = 0x206 := by
  rcases hxv with h | h <;> injection h with h1 h2 <;> subst h1 <;> subst h2 <;>
  exact ⟨_, _, .cons (flat_step (by decide +kernel) (by decide +kernel) trivial)
    (.cons (flat_step (by decide +kernel) (by decide +kernel) trivial) (.nil _)), by decide +kernel,
    by decide +kernel⟩

/-- Non-vacuity: two machines with different data and a different index, alike in what is seen. -/
example : ∃ (tr tr' : List (Moment FlatRam)) (c' d' : Mos6502 FlatRam),
    Passes .debug (lookup 1 fun _ => 7) tr c' ∧ Passes .debug (lookup 0x20 fun _ => 9) tr' d' ∧
      tr.length = 2 ∧ tr.map (Moment.seen .debug) = tr'.map (Moment.seen .debug) ∧ c'.pc = d'.pc ∧
      (∀ m ∈ tr, branchToNext m.instruction = false) := by
  obtain ⟨c1, c2, h1, h2, h3⟩ := lookup_runs 1 7 (by simp)
  obtain ⟨d1, d2, k1, k2, k3⟩ := lookup_runs 0x20 9 (by simp)
  obtain ⟨tr, p1, p2⟩ := passes_of h1
  obtain ⟨tr', q1, q2⟩ := passes_of k1
  have hseen : ∀ tr : List (Moment FlatRam), tr.map (Moment.seen .debug) =
      (tr.map fun m => (m.cpu, m.instruction)).map fun p => Moment.seen .debug ⟨p.1, p.2, 0⟩ := by
    intro tr
    rw [List.map_map]
    rfl
  refine ⟨tr, tr', c2, d2, p1, q1, ?_, ?_, h3.trans k3.symm, ?_⟩
  · have := congrArg List.length p2
    simpa using this
  · rw [hseen, hseen, p2, q2]
    simp only [List.map_cons, List.map_nil, List.cons.injEq, and_true]
    refine ⟨by decide +kernel, ?_⟩
    simp only [Moment.seen, h2, k2]
    rfl
  · intro m hm
    have : (m.cpu, m.instruction) ∈ tr.map fun m => (m.cpu, m.instruction) := List.mem_map_of_mem hm
    rw [p2] at this
    simp only [List.mem_cons, Prod.mk.injEq, List.not_mem_nil, or_false] at this
    rcases this with ⟨-, h⟩ | ⟨-, h⟩ <;> rw [h] <;> decide

/-- `ADC $10; STA $0300,X; JMP $0200` in memory. -/
def straight : Mem := loaded 0x200 [0x65, 0x10, 0x9d, 0x00, 0x03, 0x4c, 0x00, 0x02] fun _ => 3

private theorem straight_parse :
    Isa.parseInstruction (straight 0x200) (straight 0x201) (straight 0x202) = some (.AdcZeroPage 0x10) ∧
    Isa.parseInstruction (straight 0x202) (straight 0x203) (straight 0x204) =
      some (.StaAbsoluteIndexedWithX 0x300) := by
  decide +kernel

attribute [local irreducible] straight

/-- Non-vacuity: code that takes the same time whatever the registers hold. -/
example (a x : Byte) : ∃ (tr : List (Moment FlatRam)) (c' : Mos6502 FlatRam),
    Passes .debug (withRegs { sampleRegs with a := a, x := x, pc := 0x200 }
      ⟨straight⟩) tr c' ∧
      tr.map Moment.instruction =
        [.AdcZeroPage 0x10, .StaAbsoluteIndexedWithX 0x300] ∧
      ∀ m ∈ tr, isBranch m.instruction = false ∧ indexedRead m.instruction = false := by
  obtain ⟨hp1, hp2⟩ := straight_parse
  obtain ⟨tr, h1, h2⟩ := passes_of (.cons (flat_step (b := .debug)
    (r := { sampleRegs with a := a, x := x, pc := 0x200 })
    (mem := straight)
    (by show (0x200 : Word).toNat < _; decide) hp1 trivial) (.cons (flat_step (by show (0x202 : Word).toNat < _; decide) hp2 trivial) (.nil _)))
  have h3 : tr.map Moment.instruction = [.AdcZeroPage 0x10, .StaAbsoluteIndexedWithX 0x300] := by
    have := congrArg (List.map Prod.snd) h2
    rw [List.map_map] at this
    exact this
  refine ⟨tr, _, h1, h3, fun m hm => ?_⟩
  have : m.instruction ∈ tr.map Moment.instruction := List.mem_map_of_mem hm
  rw [h3] at this
  simp only [List.mem_cons, List.not_mem_nil, or_false] at this
  rcases this with h | h <;> rw [h] <;> decide

end Verif.Props
