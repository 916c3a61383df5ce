import Verif.Proofs.MosPlace
import Verif.Props.Mos.StackMove

/-!
# C126: the variables of a 6502 program can be put elsewhere

Give every variable a new place and change the operands accordingly: the program does the same.
-/

namespace Verif.Props

open Verif Verif.Mos Verif.Spec Verif.Spec.Mos

section
variable {B B' : Type} [Addressable B] [Addressable B'] {b : Build} {I : B → Mem → Prop}
  {I' : B' → Mem → Prop} {W : Word → Prop} {f : Word → Word} {P Q : Program} {c c' : Mos6502 B}
  {e : Mos6502 B'} {mem mem' : Mem} {i : InstructionVariant} {l' : Line} {ops : Operations}
  {tr : List (Mos6502 B × InstructionVariant)}

/-- The other machine is at the counterpart of the instruction. -/
theorem C126_fetch (hI : Coherent b I) (hI' : Coherent b I') (hm : I c.address_map mem)
    (hm' : I' e.address_map mem') (hp : Placed f P Q mem mem') (hr : regs e = regs c)
    (hq : Q c.pc = some l') (hat : At b c i) : ∃ j, At b e j ∧ view j = l' := by
  have hpc : e.pc = c.pc := congrArg Regs.pc hr
  obtain ⟨bs, hb, hh⟩ := hp.code c.pc l' hq
  refine (C117_fetch (cs := []) (hI' _ _ hm').1 hb (by rw [List.append_nil, hpc]; exact hh)).2 ?_
  have h1 := fetch_eq (cpu := c) (hI _ _ hm).1
  rw [show fetch b c = .ok i from hat] at h1
  split at h1
  · cases h1
  · next hn =>
    rw [hpc]
    cases hb : b.overflowChecks
    · exact .inl rfl
    · exact .inr (by
        rw [hb] at hn
        simp only [true_and, Nat.not_le] at hn
        exact hn)

/-- C126: one instruction. Its counterpart has the same effect on the registers, and stores the same bytes at
their new places. It takes as many cycles, unless the operand is an absolute address with an index: then it can
take one more or one less. -/
theorem C126_step (hf : Placement f) (hI : Coherent b I) (hI' : Coherent b I') (hacc : AcceptsAt b I' W)
    (hm : I c.address_map mem) (hm' : I' e.address_map mem') (hp : Placed f P Q mem mem')
    (hr : regs e = regs c) (hx : Rewritten f P Q (regs c) mem i l')
    (hW : ∀ a ∈ writable (regs c) mem (view i).1 (view i).2, W (f a))
    (hat : At b c i) (hn : next b c = .ok (ops, c')) :
    ∃ j ops' e' m m', At b e j ∧ view j = l' ∧ next b e = .ok (ops', e') ∧ regs e' = regs c' ∧
      I c'.address_map m ∧ I' e'.address_map m' ∧ Placed f P Q m m' ∧
      ops'.cycles ≤ ops.cycles + 1 ∧ ops.cycles ≤ ops'.cycles + 1 ∧
      (SameOffset (view i).2 l'.2 → ops'.cycles = ops.cycles) := by
  obtain ⟨j, hat', hj⟩ := C126_fetch hI hI' hm hm' hp hr hx.other hat
  obtain ⟨hok, hops, hregs, hws⟩ := step_inv hat (hI _ _ hm).1 (mn := (view i).1) (am := (view i).2) rfl hn
  have hd : ∀ a, .mem a ∈ dataUses (regs c) mem i → mem' (f a) = mem a := fun a ha => hp.data a (hx.reads a ha)
  have heff := effect_placed hf hd hx.line
  have hok' := addrOk_placed hd hx.line hok
  have hcyc := cycles_placed hd hx.line
  rw [← hr, ← hj] at heff hok' hcyc
  rw [hr] at heff
  have hw : ∀ w ∈ (codeEffect (regs c) mem (view i).1 (view i).2).writes,
      w.1 ∈ writable (regs c) mem (view i).1 (view i).2 := fun w hw => by
    rw [← codeEffect_writes]
    exact List.mem_map_of_mem hw
  obtain ⟨bus, hbus⟩ := writeAll_accepted hI' hacc
    ((codeEffect (regs c) mem (view i).1 (view i).2).writes.map fun w => (f w.1, w.2)) hm'
    fun w h => by
      obtain ⟨w', hw', rfl⟩ := List.mem_map.1 h
      exact hW _ (hw _ hw')
  have hst := step_ok hat' (hI' _ _ hm').1 hok'
  rw [← hr] at heff
  rw [heff] at hst
  simp only [hr, hbus] at hst
  refine ⟨j, _, _, _, _, hat', hj, hst, ?_, writeAll_coherent hI _ hm hws, writeAll_coherent hI' _ hm' hbus,
    placed_writes hf _ hp (fun w h => hx.writes _ (hw w h)) hp.code, ?_⟩
  · rw [hregs]; rfl
  · rw [hops, ← hj]
    rw [hr] at hcyc
    exact hcyc

/-- C126: any execution. The machines go through the same registers, the second one executing the instructions
of its program; at the end all bytes are at their new places again. -/
theorem C126_executes (hf : Placement f) (hI : Coherent b I) (hI' : Coherent b I') (hacc : AcceptsAt b I' W)
    (hm : I c.address_map mem) (hm' : I' e.address_map mem') (hp : Placed f P Q mem mem')
    (hr : regs e = regs c) (h : Executes b c tr c')
    (hin : ∀ p ∈ tr, ∀ m, I p.1.address_map m → (∃ l', Rewritten f P Q (regs p.1) m p.2 l') ∧
      ∀ a ∈ writable (regs p.1) m (view p.2).1 (view p.2).2, W (f a)) :
    ∃ tr' e' m m', Executes b e tr' e' ∧ tr'.map (fun p => some (view p.2)) = tr.map (fun p => Q p.1.pc) ∧
      tr'.map (fun p => regs p.1) = tr.map (fun p => regs p.1) ∧ regs e' = regs c' ∧
      I c'.address_map m ∧ I' e'.address_map m' ∧ Placed f P Q m m' := by
  induction h generalizing e mem mem' with
  | nil c => exact ⟨[], e, mem, mem', .nil e, rfl, rfl, hr, hm, hm', hp⟩
  | @cons c c1 c2 i tr hx _ ih =>
    obtain ⟨hat, ops, hn⟩ := hx
    obtain ⟨⟨l', hl⟩, hW⟩ := hin (c, i) (by simp) mem hm
    obtain ⟨j, ops', e1, m, m', h1, hj, h2, h3, h4, h5, h6, -⟩ :=
      C126_step hf hI hI' hacc hm hm' hp hr hl hW hat hn
    obtain ⟨tr', e2, m2, m2', q1, q2, q3, q4, q5⟩ := ih h4 h5 h6 h3 (fun p hp => hin p (by simp [hp]))
    have hq : Q c.pc = some l' := hl.other
    exact ⟨(e, j) :: tr', e2, m2, m2', .cons ⟨h1, ops', h2⟩ q1, by simp [q2, hj, hq], by simp [q3, hr], q4, q5⟩

/-- Instructions with their cycles. -/
theorem C126_instructions {l : List Operations} (hf : Placement f) (hI : Coherent b I)
    (hI' : Coherent b I') (hacc : AcceptsAt b I' W) (hm : I c.address_map mem)
    (hm' : I' e.address_map mem') (hp : Placed f P Q mem mem') (hr : regs e = regs c)
    (h : Instructions b c l c') {n : Nat} (hn : totalCycles l ≤ n)
    (hin : ∀ l c1 i m, Instructions b c l c1 → totalCycles l < n → At b c1 i → I c1.address_map m →
      (∃ l', Rewritten f P Q (regs c1) m i l' ∧ SameOffset (view i).2 l'.2) ∧
      ∀ a ∈ writable (regs c1) m (view i).1 (view i).2, W (f a)) :
    ∃ l' e' m m', Instructions b e l' e' ∧ totalCycles l' = totalCycles l ∧
      regs e' = regs c' ∧ I c'.address_map m ∧ I' e'.address_map m' ∧ Placed f P Q m m' := by
  induction h generalizing e mem mem' n with
  | nil c => exact ⟨[], e, mem, mem', .nil e, rfl, hr, hm, hm', hp⟩
  | @cons c c1 c2 ops l hx hl ih =>
    cases hfe : fetch b c with
    | error p =>
      exfalso
      unfold next at hx
      rw [hfe] at hx
      cases hx
    | ok i =>
      have hpos := (next_inv hx).1
      rw [totalCycles_cons] at hn
      obtain ⟨⟨l', q1, qo⟩, q2⟩ := hin [] c i mem (.nil c) (by show 0 < n; omega) hfe hm
      obtain ⟨j, ops', e1, m, m', h1, hj, h2, h3, h4, h5, h6, -, -, h7⟩ :=
        C126_step hf hI hI' hacc hm hm' hp hr q1 q2 hfe hx
      obtain ⟨l', e2, m2, m2', r1, r2, r3⟩ := ih h4 h5 h6 h3 (n := n - ops.cycles) (by omega)
        fun l d1 j m hl ht hj hm => hin (ops :: l) d1 j m (.cons hx hl)
          (by rw [totalCycles_cons]; omega) hj hm
      exact ⟨ops' :: l', e2, m2, m2', .cons h2 r1, by rw [totalCycles_cons, totalCycles_cons, h7 qo, r2], r3⟩

/-- C126: `run` for any number of cycles, when indexed variables keep their place in their page. -/
theorem C126_run {n : Nat} {s : StepState (Mos6502 B)} (hf : Placement f) (hI : Coherent b I)
    (hI' : Coherent b I') (hacc : AcceptsAt b I' W) (hm : I c.address_map mem)
    (hm' : I' e.address_map mem') (hp : Placed f P Q mem mem') (hr : regs e = regs c)
    (h : run b c n = .ok s)
    (hin : ∀ l c1 i m, Instructions b c l c1 → totalCycles l < n → At b c1 i → I c1.address_map m →
      (∃ l', Rewritten f P Q (regs c1) m i l' ∧ SameOffset (view i).2 l'.2) ∧
      ∀ a ∈ writable (regs c1) m (view i).1 (view i).2, W (f a)) :
    ∃ s' m m', run b e n = .ok s' ∧ regs s'.unwrap = regs s.unwrap ∧
      I s.unwrap.address_map m ∧ I' s'.unwrap.address_map m' ∧ Placed f P Q m m' := by
  rw [run_eq] at h
  rcases runLoop_cases (b := b) n c with ⟨l, c', h1, h2, h3, h4⟩ | ⟨l, c', p, h1, h2, h3, h4⟩
  · rw [h4] at h
    simp only [Except.map, Except.ok.injEq] at h
    subst h
    obtain ⟨l', e', m, m', q1, q2, q3, q4, q5, q6⟩ := C126_instructions hf hI hI' hacc hm hm' hp hr h1 h2 hin
    refine ⟨.ready e', m, m', C12_run_eq q1 (by omega) ?_, q3, q4, q5, q6⟩
    rcases h3 with h3 | ⟨ops, c'', hx, hlt⟩
    · exact .inl (by omega)
    · by_cases ht : totalCycles l = n
      · exact .inl (by omega)
      cases hfe : fetch b c' with
      | error p =>
        exfalso
        unfold next at hx
        rw [hfe] at hx
        cases hx
      | ok i =>
        obtain ⟨⟨l', r1, ro⟩, r2⟩ := hin l c' i m h1 (by omega) hfe q4
        obtain ⟨j, ops', e1, -, -, -, -, g2, -, -, -, -, -, -, g7⟩ :=
          C126_step hf hI hI' hacc q4 q5 q6 q3 r1 r2 hfe hx
        exact .inr ⟨ops', e1, g2, by rw [g7 ro]; omega⟩
  · rw [h4] at h
    cases h

end

/-! ### Witnesses -/

/-- The byte at 0x10 and the byte at 0x20 change places. -/
def swapped (a : Word) : Word := if a = 0x10 then 0x20 else if a = 0x20 then 0x10 else a

theorem swapped_placement : Placement swapped where
  inj a a' h := by
    unfold swapped at h
    split at h <;> split at h <;> first
      | (subst_vars; rfl)
      | (split at h <;> first
        | (subst_vars; rfl)
        | (subst_vars; contradiction)
        | (exact absurd h (by decide))
        | (split at h <;> first
          | (subst_vars; rfl) | (subst_vars; contradiction) | (exact absurd h (by decide)) | skip))
  stack a h := by
    unfold swapped
    rw [if_neg, if_neg]
    · rintro rfl; exact absurd h.1 (by decide)
    · rintro rfl; exact absurd h.1 (by decide)
  vector := by decide

/-- A counter: `INC $10`, `JMP $0200`. -/
def tally : List Byte := [0xe6, 0x10, 0x4c, 0x00, 0x02]

/-- The counter with its variable at 0x20. -/
def tallyElsewhere : List Byte := [0xe6, 0x20, 0x4c, 0x00, 0x02]

def tallyTable (z : Byte) : Program := fun p =>
  if p = 0x200 then some (.Inc, .zeroPage z)
  else if p = 0x202 then some (.Jmp, .absolute 0x200)
  else none

theorem tallyTable_cases {z : Byte} {p : Word} {l : Line} (h : tallyTable z p = some l) :
    (p = 0x200 ∧ l = (.Inc, .zeroPage z)) ∨ (p = 0x202 ∧ l = (.Jmp, .absolute 0x200)) := by
  unfold tallyTable at h
  split at h
  · next hp => cases h; exact .inl ⟨hp, rfl⟩
  split at h
  · next hp => cases h; exact .inr ⟨hp, rfl⟩
  · cases h

theorem tallyTable_code {z : Byte} {a : Word} : CodeOf (tallyTable z) a ↔ 0x200 ≤ a.toNat ∧ a.toNat < 0x205 := by
  constructor
  · rintro ⟨p, l, k, hp, hk, rfl⟩
    rcases tallyTable_cases hp with ⟨rfl, rfl⟩ | ⟨rfl, rfl⟩ <;>
      simp only [size] at hk <;>
      simp only [word, BitVec.toNat_ofNat, show (0x200 : Word).toNat = 0x200 from rfl,
        show (0x202 : Word).toNat = 0x202 from rfl] <;> omega
  · intro h
    by_cases h2 : a.toNat < 0x202
    · refine ⟨0x200, _, a.toNat - 0x200, rfl, by show _ < 2; omega, ?_⟩
      apply BitVec.eq_of_toNat_eq
      simp only [word, BitVec.toNat_ofNat, show (0x200 : Word).toNat = 0x200 from rfl]
      omega
    · refine ⟨0x202, _, a.toNat - 0x202, rfl, by show _ < 3; omega, ?_⟩
      apply BitVec.eq_of_toNat_eq
      simp only [word, BitVec.toNat_ofNat, show (0x202 : Word).toNat = 0x202 from rfl]
      omega

theorem tally_placed : Placed swapped (tallyTable 0x10) (tallyTable 0x20)
    (loaded 0x200 tally fun _ => 0) (loaded 0x200 tallyElsewhere fun _ => 0) where
  code p l hp := by
    have holds : ∀ (q : Word) (bs : List Byte), bs.length ≤ 3 →
        (∀ k < 3, ∀ v, bs[k]? = some v → loaded 0x200 tallyElsewhere (fun _ => 0) (word (q.toNat + k)) = v) →
        HoldsAt (loaded 0x200 tallyElsewhere fun _ => 0) q bs := by
      intro q bs hb h k v hk
      obtain ⟨hlt, -⟩ := List.getElem?_eq_some_iff.1 hk
      exact h k (by omega) v hk
    rcases tallyTable_cases hp with ⟨rfl, rfl⟩ | ⟨rfl, rfl⟩
    · exact ⟨[0xe6, 0x20], ⟨rfl, by decide +kernel⟩, holds _ _ (by decide) (by decide +kernel)⟩
    · exact ⟨[0x4c, 0x00, 0x02], ⟨rfl, by decide +kernel⟩, holds _ _ (by decide) (by decide +kernel)⟩
  data a ha := by
    rw [tallyTable_code, not_and, Nat.not_lt] at ha
    have h2 : ¬(0x200 ≤ (swapped a).toNat ∧ (swapped a).toNat < 0x205) := by
      unfold swapped
      split
      · decide
      · split
        · decide
        · rintro ⟨h1, h2⟩
          have := ha h1
          omega
    unfold loaded
    rw [if_neg (fun h => h2 ⟨h.1, h.2⟩), if_neg (fun h => by
      have h1 : 0x200 ≤ a.toNat := h.1
      have h2 : a.toNat < 0x205 := h.2
      have := ha h1
      omega)]

/-- A state of the counter. -/
def tallyAt (p : ProcessorStatus) (v : Byte) (pc : Word) : Mos6502 FlatRam :=
  withRegs { sampleRegs with p := p, pc := pc } ⟨upd (loaded 0x200 tally fun _ => 0) 0x10 v⟩

theorem tally_step {r r' : Regs} {mem mem' : Mem} {i : InstructionVariant} (ws : List (Word × Byte))
    (h1 : r.pc.toNat < 65534) (h2 : Isa.parseInstruction (mem r.pc) (mem (r.pc + 1)) (mem (r.pc + 2)) = some i)
    (h3 : AddrOk .debug r mem (view i).2) (h4 : (codeEffect r mem (view i).1 (view i).2).regs = r')
    (h5 : (codeEffect r mem (view i).1 (view i).2).writes = ws)
    (h6 : ws.foldl (fun m w => upd m w.1 w.2) mem = mem') :
    Step .debug (withRegs r (⟨mem⟩ : FlatRam)) i (withRegs r' ⟨mem'⟩) := by
  subst h4 h5 h6
  exact flat_step h1 h2 h3

theorem tally_inc (p : ProcessorStatus) (v : Byte) :
    Step .debug (tallyAt p v 0x200) (.IncZeroPage 0x10) (tallyAt (setNZ p (v + 1)) (v + 1) 0x202) := by
  refine tally_step [(0x10, v + 1)] (by show (0x200 : Word).toNat < _; decide) ?_ trivial ?_ ?_ ?_
  · show Isa.parseInstruction (loaded 0x200 tally (fun _ => 0) 0x200) (loaded 0x200 tally (fun _ => 0) 0x201)
      (loaded 0x200 tally (fun _ => 0) 0x202) = _
    decide +kernel
  · rfl
  · rfl
  · funext a
    simp only [List.foldl_cons, List.foldl_nil, upd]
    split <;> rfl

theorem tally_jmp (p : ProcessorStatus) (v : Byte) :
    Step .debug (tallyAt p v 0x202) (.JmpAbsolute 0x200) (tallyAt p v 0x200) := by
  refine tally_step [] (by show (0x202 : Word).toNat < _; decide) ?_ trivial ?_ ?_ ?_
  · show Isa.parseInstruction (loaded 0x200 tally (fun _ => 0) 0x202) (loaded 0x200 tally (fun _ => 0) 0x203)
      (loaded 0x200 tally (fun _ => 0) 0x204) = _
    decide +kernel
  · rfl
  · rfl
  · rfl

/-- All states of the counter. -/
theorem tally_stays {p : ProcessorStatus} {v : Byte} {pc : Word} (hpc : pc = 0x200 ∨ pc = 0x202)
    {l : List Operations} {c : Mos6502 FlatRam} (h : Instructions .debug (tallyAt p v pc) l c) :
    ∃ p v, c = tallyAt p v 0x200 ∨ c = tallyAt p v 0x202 := by
  generalize hc : tallyAt p v pc = c₀ at h
  induction h generalizing p v pc with
  | nil c =>
    subst hc
    rcases hpc with rfl | rfl
    · exact ⟨p, v, .inl rfl⟩
    · exact ⟨p, v, .inr rfl⟩
  | cons h1 _ ih =>
    subst hc
    rcases hpc with rfl | rfl
    · obtain ⟨-, ops, hx⟩ := tally_inc p v
      rw [hx] at h1
      cases h1
      exact ih (.inr rfl) rfl
    · obtain ⟨-, ops, hx⟩ := tally_jmp p v
      rw [hx] at h1
      cases h1
      exact ih (.inl rfl) rfl

theorem tally_start : (loadedAt 0x200 tally : Mos6502 FlatRam) = tallyAt sampleRegs.p 0 0x200 := by
  have e : upd (loaded 0x200 tally fun _ => 0) 0x10 0 = loaded 0x200 tally fun _ => 0 := by
    funext a
    unfold upd
    split
    · next h => subst h; decide +kernel
    · rfl
  unfold tallyAt
  rw [e]
  rfl

/-- The counter is rewritten in all its states. -/
theorem tally_rewritten {p : ProcessorStatus} {v : Byte} {c : Mos6502 FlatRam}
    (h : c = tallyAt p v 0x200 ∨ c = tallyAt p v 0x202) {i : InstructionVariant} (hat : At .debug c i)
    (m : Mem) : ∃ l', Rewritten swapped (tallyTable 0x10) (tallyTable 0x20) (regs c) m i l' ∧
      SameOffset (view i).2 l'.2 := by
  rcases h with rfl | rfl
  · obtain rfl : i = .IncZeroPage 0x10 :=
      Except.ok.inj ((show fetch _ _ = _ from hat).symm.trans (tally_inc p v).1)
    refine ⟨(.Inc, .zeroPage 0x20), ⟨rfl, ⟨rfl, 0x20, rfl, rfl⟩, ?_, ?_⟩, trivial⟩
    · intro a ha hc
      have ha : Part.mem a ∈ [Part.mem (word 0x10)] := ha
      simp only [List.mem_cons, List.not_mem_nil, or_false, Part.mem.injEq] at ha
      subst ha
      exact absurd (tallyTable_code.1 hc).1 (by decide)
    · intro a ha hc
      have ha : a ∈ [word 0x10] := ha
      simp only [List.mem_cons, List.not_mem_nil, or_false] at ha
      subst ha
      exact absurd (tallyTable_code.1 hc).1 (by decide)
  · obtain rfl : i = .JmpAbsolute 0x200 :=
      Except.ok.inj ((show fetch _ _ = _ from hat).symm.trans (tally_jmp p v).1)
    refine ⟨(.Jmp, .absolute 0x200), ⟨rfl, ⟨rfl, rfl⟩, ?_, fun a ha => by cases ha⟩, trivial⟩
    intro a ha
    simp [dataUses, view, modeUses, pointerUses, operandUses, mnemonicUses] at ha

/-- The hypotheses of `C126_run`: the counter for any number of cycles. -/
example (n : Nat) : ∃ s s', run .debug (loadedAt 0x200 tally) n = .ok s ∧
    run .debug (loadedAt 0x200 tallyElsewhere) n = .ok s' ∧ regs s'.unwrap = regs s.unwrap ∧
    s'.unwrap.address_map.mem 0x20 = s.unwrap.address_map.mem 0x10 := by
  cases h : run .debug (loadedAt 0x200 tally) n with
  | error p =>
    obtain ⟨l, c1, h1, -, h2⟩ := C12_panic.1 h
    rw [tally_start] at h1
    obtain ⟨q, v, rfl | rfl⟩ := tally_stays (.inl rfl) h1
    · obtain ⟨-, ops, hx⟩ := tally_inc q v
      rw [hx] at h2
      cases h2
    · obtain ⟨-, ops, hx⟩ := tally_jmp q v
      rw [hx] at h2
      cases h2
  | ok s =>
    obtain ⟨s', m, m', h1, h2, h3, h4, h5⟩ := C126_run (W := fun _ => True) (e := loadedAt 0x200 tallyElsewhere)
      swapped_placement (flatRam_coherent .debug) (flatRam_coherent .debug) (flat_acceptsAt .debug _) rfl rfl
      tally_placed (by decide +kernel) h (by
        intro l c1 i m hl _ hat _
        rw [tally_start] at hl
        obtain ⟨p, v, hc⟩ := tally_stays (.inl rfl) hl
        exact ⟨tally_rewritten hc hat m, fun _ _ => trivial⟩)
    refine ⟨s, s', rfl, h1, h2, ?_⟩
    rw [show s'.unwrap.address_map.mem = m' from h4, show s.unwrap.address_map.mem = m from h3]
    exact h5.data 0x10 fun h => absurd (tallyTable_code.1 h).1 (by decide)

/-- The hypotheses of `C126_executes`: a round of the counter. -/
example : ∃ tr' e', Executes .debug (loadedAt 0x200 tallyElsewhere) tr' e' ∧
    tr'.map (fun p => some (view p.2)) = [some (.Inc, .zeroPage 0x20), some (.Jmp, .absolute 0x200)] ∧
    e'.pc = 0x200 ∧ e'.address_map.mem 0x20 = 1 := by
  have hex : Executes .debug (loadedAt 0x200 tally)
      [(loadedAt 0x200 tally, .IncZeroPage 0x10), (tallyAt (setNZ sampleRegs.p 1) 1 0x202, .JmpAbsolute 0x200)]
      (tallyAt (setNZ sampleRegs.p 1) 1 0x200) := by
    rw [tally_start]
    exact .cons (tally_inc sampleRegs.p 0) (.cons (tally_jmp _ _) (.nil _))
  obtain ⟨tr', e', m, m', h1, h2, -, h4, h5, h6, h7⟩ := C126_executes (W := fun _ => True)
    (e := loadedAt 0x200 tallyElsewhere)
    swapped_placement (flatRam_coherent .debug) (flatRam_coherent .debug) (flat_acceptsAt .debug _) rfl rfl
    tally_placed (by decide +kernel)
    hex (by
      intro p hp m _
      simp only [List.mem_cons, List.not_mem_nil, or_false] at hp
      rcases hp with rfl | rfl
      · rw [tally_start]
        obtain ⟨l', h, -⟩ := tally_rewritten (.inl rfl) (tally_inc sampleRegs.p 0).1 m
        exact ⟨⟨l', h⟩, fun _ _ => trivial⟩
      · obtain ⟨l', h, -⟩ := tally_rewritten (.inr rfl) (tally_jmp (setNZ sampleRegs.p 1) 1).1 m
        exact ⟨⟨l', h⟩, fun _ _ => trivial⟩)
  refine ⟨tr', e', h1, h2, congrArg Regs.pc h4, ?_⟩
  rw [show e'.address_map.mem = m' from h6]
  have := h7.data 0x10 fun h => absurd (tallyTable_code.1 h).1 (by decide)
  rw [show m' 0x20 = m 0x10 from this, ← show _ = m from h5]
  rfl

/-- C126: a table that crosses a page at one place and not at the other: `LDA $02ff,X` takes a cycle more than
`LDA $0300,X`. -/
theorem C126_cycles_differ :
    ∃ ops ops' c e, next .debug (machine { sampleRegs with x := 1, pc := 0x200 } 0xbd 0xff 0x02) = .ok (ops, c) ∧
      next .debug (machine { sampleRegs with x := 1, pc := 0x200 } 0xbd 0x00 0x03) = .ok (ops', e) ∧
      regs e = regs c ∧ ops.cycles = 5 ∧ ops'.cycles = 4 :=
  ⟨_, _, _, _, rfl, rfl, by decide +kernel, by decide +kernel, by decide +kernel⟩

end Verif.Props
