import Verif.Proofs.MosLink
import Verif.Props.Listing
import Verif.Props.Mos.Relocate

/-!
# C124: a 6502 program can be moved if its jumps and calls are adjusted

Unlike C111 this covers all 151 instructions: jumps, calls and returns too.
-/

namespace Verif.Props

open Verif Verif.Mos Verif.Spec Verif.Spec.Mos

section
variable {B B' : Type} [Addressable B] [Addressable B'] {b : Build} {I : B → Mem → Prop}
  {I' : B' → Mem → Prop} {W : Word → Prop} {d : Word} {P : Program} {S S' : Word → Word → Prop}
  {D D' : Word → Prop} {c c' : Mos6502 B} {e : Mos6502 B'} {mem mem' : Mem} {i : InstructionVariant}
  {ops : Operations}

/-- The moved machine is at the adjusted instruction. -/
theorem C124_fetch (hI' : Coherent b I') (hm' : I' e.address_map mem') (hl : LinkedMem d P S D mem mem')
    (hr : regs e = movedRegs d (regs c)) (ho : P c.pc = some (view i)) (hf : FetchOk b (c.pc + d)) :
    ∃ j, At b e j ∧ view j = patch d (view i) := by
  have hpc : e.pc = c.pc + d := congrArg Regs.pc hr
  obtain ⟨bs, hb, hh⟩ := hl.code c.pc (view i) ho
  refine (C117_fetch (cs := []) (hI' _ _ hm').1 hb (by rw [List.append_nil, hpc]; exact hh)).2 ?_
  rcases hf with hf | hf
  · exact .inl hf
  · exact .inr (by rw [hpc]; omega)

/-- C124: one instruction. The moved program executes the adjusted instruction, with the same effect but for
code addresses. It takes as many cycles, unless the instruction is a taken branch, when it can take one more or
one less; moved by whole pages, it always takes as many. -/
theorem C124_step (hI : Coherent b I) (hI' : Coherent b I') (hacc : AcceptsAt b I' W)
    (hm : I c.address_map mem) (hm' : I' e.address_map mem') (hl : LinkedMem d P S D mem mem')
    (hr : regs e = movedRegs d (regs c)) (hmv : Movable d P S D (regs c) mem i)
    (hW : ∀ a ∈ writable (regs c) mem (view i).1 (view i).2, W a) (hf : FetchOk b (c.pc + d))
    (hat : At b c i) (hn : next b c = .ok (ops, c')) :
    ∃ j ops' e' m m', At b e j ∧ view j = patch d (view i) ∧ next b e = .ok (ops', e') ∧
      regs e' = movedRegs d (regs c') ∧ I c'.address_map m ∧ I' e'.address_map m' ∧
      LinkedMem d P (addressesAfter S (regs c) mem i) (differAfter D (regs c) mem i) m m' ∧
      (taken (view i).1 c.ps ≠ some true → ops'.cycles = ops.cycles) ∧
      ops'.cycles ≤ ops.cycles + 1 ∧ ops.cycles ≤ ops'.cycles + 1 ∧
      (d.toNat % 256 = 0 → ops'.cycles = ops.cycles) := by
  obtain ⟨j, hat', hj⟩ := C124_fetch (c := c) (i := i) hI' hm' hl hr hmv.own hf
  obtain ⟨hok, hops, hregs, hws⟩ := step_inv hat (hI _ _ hm).1 (mn := (view i).1) (am := (view i).2) rfl hn
  obtain ⟨g1, g2, g3⟩ := link_effect hl hmv
  have hok' := link_addrOk hl hmv hok
  have hcyc := link_cycles hl hmv
  rw [← hr, ← hj] at g1 g2 g3 hok' hcyc
  obtain ⟨bus, hbus⟩ := writeAll_accepted hI' hacc (codeEffect (regs e) mem' (view j).1 (view j).2).writes hm'
    fun w hw => hW _ (by
      rw [← codeEffect_writes, ← g2]
      exact List.mem_map_of_mem hw)
  have hst := step_ok hat' (hI' _ _ hm').1 hok'
  simp only [hbus] at hst
  refine ⟨j, _, _, _, _, hat', hj, hst, ?_, writeAll_coherent hI _ hm hws, writeAll_coherent hI' _ hm' hbus,
    g3, ?_⟩
  · rw [hregs, ← g1]; rfl
  · rw [hops]; exact hcyc

theorem linked_mono {S S' : Word → Word → Prop} {D D' : Word → Prop} (h : LinkedMem d P S D mem mem')
    (hS : ∀ lo hi, S' lo hi → S lo hi) (hD : ∀ a, D a → D' a) : LinkedMem d P S' D' mem mem' :=
  ⟨h.code, fun lo hi hs => h.address lo hi (hS lo hi hs), fun a ha => h.data a fun hd => ha (hD a hd)⟩

/-- C124: any execution of the program. The moved one executes the adjusted instructions, and at its end the
machines are the same again but for code addresses. -/
theorem C124_moves {l : List InstructionVariant} (hI : Coherent b I) (hI' : Coherent b I')
    (hacc : AcceptsAt b I' fun _ => True) (hm : I c.address_map mem) (hm' : I' e.address_map mem')
    (hl : LinkedMem d P S D mem mem') (hr : regs e = movedRegs d (regs c)) (h : Moves b I d P S D c l c' S' D') :
    ∃ tr e' m m', Executes b e tr e' ∧
      tr.map (fun p => view p.2) = l.map (fun i => patch d (view i)) ∧
      regs e' = movedRegs d (regs c') ∧ I c'.address_map m ∧ I' e'.address_map m' ∧
      LinkedMem d P S' D' m m' := by
  induction h generalizing e mem mem' with
  | nil c => exact ⟨[], e, mem, mem', .nil e, rfl, hr, hm, hm', hl⟩
  | @cons S S₁ S' D D₁ D' c c1 c2 mem₁ i l hs hm₁ hmv hf hS hD _ ih =>
    obtain rfl := busView_unique (hI _ _ hm).1 (hI _ _ hm₁).1
    obtain ⟨hat, ops, hn⟩ := hs
    obtain ⟨j, ops', e1, m, m', h1, h2, h3, h4, h5, h6, h7, -⟩ :=
      C124_step hI hI' hacc hm hm' hl hr hmv (fun _ _ => trivial) hf hat hn
    obtain ⟨tr, e2, m2, m2', q1, q2, q3⟩ := ih h5 h6 (linked_mono h7 hS hD) h4
    exact ⟨(e, j) :: tr, e2, m2, m2', .cons ⟨h1, ops', h3⟩ q1, by simp [q2, h2], q3⟩

/-- The instructions of a program moved by whole pages, with their cycles. `T k` are code addresses and `E k`
may differ before instruction `k`. -/
theorem C124_instructions {l : List Operations} {T : Nat → Word → Word → Prop} {E : Nat → Word → Prop}
    (hd : d.toNat % 256 = 0) (hI : Coherent b I) (hI' : Coherent b I') (hacc : AcceptsAt b I' W)
    (hm : I c.address_map mem) (hm' : I' e.address_map mem') (hl : LinkedMem d P (T 0) (E 0) mem mem')
    (hr : regs e = movedRegs d (regs c)) (h : Instructions b c l c') {n : Nat} (hn : totalCycles l ≤ n)
    (hin : ∀ l c1 i m, Instructions b c l c1 → totalCycles l < n → At b c1 i → I c1.address_map m →
      Movable d P (T l.length) (E l.length) (regs c1) m i ∧
      (∀ lo hi, T (l.length + 1) lo hi → addressesAfter (T l.length) (regs c1) m i lo hi) ∧
      (∀ a, differAfter (E l.length) (regs c1) m i a → E (l.length + 1) a) ∧
      FetchOk b (c1.pc + d) ∧ ∀ a ∈ writable (regs c1) m (view i).1 (view i).2, W a) :
    ∃ l' e' m m', Instructions b e l' e' ∧ totalCycles l' = totalCycles l ∧
      regs e' = movedRegs d (regs c') ∧ I c'.address_map m ∧ I' e'.address_map m' ∧
      LinkedMem d P (T l.length) (E l.length) m m' := by
  induction h generalizing e mem mem' n T E with
  | nil c => exact ⟨[], e, mem, mem', .nil e, rfl, hr, hm, hm', hl⟩
  | @cons c c1 c2 ops l hx hxs ih =>
    cases hf : fetch b c with
    | error p =>
      exfalso
      unfold next at hx
      rw [hf] at hx
      cases hx
    | ok i =>
      have hpos := (next_inv hx).1
      rw [totalCycles_cons] at hn
      obtain ⟨q1, q2, q3, q4, q5⟩ := hin [] c i mem (.nil c) (by show 0 < n; omega) hf hm
      obtain ⟨j, ops', e1, m, m', -, -, h2, h3, h4, h5, h6, -, -, -, h7⟩ :=
        C124_step hI hI' hacc hm hm' hl hr q1 q5 q4 hf hx
      obtain ⟨l', e2, m2, m2', r1, r2, r3, r4, r5, r6⟩ :=
        ih (T := fun k => T (k + 1)) (E := fun k => E (k + 1)) h4 h5 (linked_mono h6 q2 q3) h3
          (n := n - ops.cycles) (by omega)
          fun l d1 j m hl ht hj hm => hin (ops :: l) d1 j m (.cons hx hl)
            (by rw [totalCycles_cons]; omega) hj hm
      exact ⟨ops' :: l', e2, m2, m2', .cons h2 r1, by rw [totalCycles_cons, totalCycles_cons, h7 hd, r2], r3,
        r4, r5, r6⟩

/-- C124: a program moved by whole pages runs in step: after `run` for any number of cycles the machines are
again the same but for code addresses. -/
theorem C124_run {n : Nat} {s : StepState (Mos6502 B)} {T : Nat → Word → Word → Prop} {E : Nat → Word → Prop}
    (hd : d.toNat % 256 = 0) (hI : Coherent b I) (hI' : Coherent b I') (hacc : AcceptsAt b I' W)
    (hm : I c.address_map mem) (hm' : I' e.address_map mem') (hl : LinkedMem d P (T 0) (E 0) mem mem')
    (hr : regs e = movedRegs d (regs c)) (h : run b c n = .ok s)
    (hin : ∀ l c1 i m, Instructions b c l c1 → totalCycles l < n → At b c1 i → I c1.address_map m →
      Movable d P (T l.length) (E l.length) (regs c1) m i ∧
      (∀ lo hi, T (l.length + 1) lo hi → addressesAfter (T l.length) (regs c1) m i lo hi) ∧
      (∀ a, differAfter (E l.length) (regs c1) m i a → E (l.length + 1) a) ∧
      FetchOk b (c1.pc + d) ∧ ∀ a ∈ writable (regs c1) m (view i).1 (view i).2, W a) :
    ∃ s' m m' k, run b e n = .ok s' ∧ regs s'.unwrap = movedRegs d (regs s.unwrap) ∧
      I s.unwrap.address_map m ∧ I' s'.unwrap.address_map m' ∧ LinkedMem d P (T k) (E k) m m' := by
  rw [run_eq] at h
  rcases runLoop_cases (b := b) n c with ⟨l, c', h1, h2, h3, h4⟩ | ⟨l, c', p, h1, h2, h3, h4⟩
  · rw [h4] at h
    simp only [Except.map, Except.ok.injEq] at h
    subst h
    obtain ⟨l', e', m, m', q1, q2, q3, q4, q5, q6⟩ :=
      C124_instructions hd hI hI' hacc hm hm' hl hr h1 h2 hin
    refine ⟨.ready e', m, m', l.length, C12_run_eq q1 (by omega) ?_, q3, q4, q5, q6⟩
    rcases h3 with h3 | ⟨ops, c'', hx, hlt⟩
    · exact .inl (by omega)
    · by_cases ht : totalCycles l = n
      · exact .inl (by omega)
      cases hf : fetch b c' with
      | error p =>
        exfalso
        unfold next at hx
        rw [hf] at hx
        cases hx
      | ok i =>
        obtain ⟨r1, -, -, r2, r3⟩ := hin l c' i m h1 (by omega) hf q4
        obtain ⟨j, ops', e1, -, -, -, -, g2, -, -, -, -, -, -, -, g7⟩ :=
          C124_step hI hI' hacc q4 q5 q6 q3 r1 r3 r2 hf hx
        exact .inr ⟨ops', e1, g2, by rw [g7 hd]; omega⟩
  · rw [h4] at h
    cases h

end

/-! ### Witnesses -/

/-- A subroutine, called for ever: `JSR $0206`, `JMP $0200`, `INC $10`, `RTS`. -/
def caller : List Byte := [0x20, 0x06, 0x02, 0x4c, 0x00, 0x02, 0xe6, 0x10, 0x60]

/-- The same program for 0x300. -/
def callerMoved : List Byte := [0x20, 0x06, 0x03, 0x4c, 0x00, 0x03, 0xe6, 0x10, 0x60]

/-- The program as a table. -/
def callerTable : Program := fun p =>
  if p = 0x200 then some (.Jsr, .absolute 0x206)
  else if p = 0x203 then some (.Jmp, .absolute 0x200)
  else if p = 0x206 then some (.Inc, .zeroPage 0x10)
  else if p = 0x208 then some (.Rts, .implied)
  else none

/-- Where the two memories differ at the start: the code and the place it is moved to. -/
def callerDiffers (a : Word) : Prop :=
  (0x200 ≤ a.toNat ∧ a.toNat < 0x209) ∨ (0x300 ≤ a.toNat ∧ a.toNat < 0x309)

theorem callerTable_cases {p : Word} {l : Line} (h : callerTable p = some l) :
    (p = 0x200 ∧ l = (.Jsr, .absolute 0x206)) ∨ (p = 0x203 ∧ l = (.Jmp, .absolute 0x200)) ∨
    (p = 0x206 ∧ l = (.Inc, .zeroPage 0x10)) ∨ (p = 0x208 ∧ l = (.Rts, .implied)) := by
  unfold callerTable at h
  split at h
  · next hp => cases h; exact .inl ⟨hp, rfl⟩
  split at h
  · next hp => cases h; exact .inr (.inl ⟨hp, rfl⟩)
  split at h
  · next hp => cases h; exact .inr (.inr (.inl ⟨hp, rfl⟩))
  split at h
  · next hp => cases h; exact .inr (.inr (.inr ⟨hp, rfl⟩))
  · cases h

theorem callerTable_code {a : Word} (h : CodeOf callerTable a) : 0x200 ≤ a.toNat ∧ a.toNat < 0x209 := by
  obtain ⟨p, l, k, hp, hk, rfl⟩ := h
  rcases callerTable_cases hp with ⟨rfl, rfl⟩ | ⟨rfl, rfl⟩ | ⟨rfl, rfl⟩ | ⟨rfl, rfl⟩ <;>
    simp only [size] at hk <;>
    simp only [word, BitVec.toNat_ofNat, show (0x200 : Word).toNat = 0x200 from rfl,
      show (0x203 : Word).toNat = 0x203 from rfl, show (0x206 : Word).toNat = 0x206 from rfl,
      show (0x208 : Word).toNat = 0x208 from rfl] <;> omega

/-- The memories with the program and with the moved program. -/
theorem caller_linked : LinkedMem 0x100 callerTable (fun _ _ => False) callerDiffers
    (loaded 0x200 caller fun _ => 0) (loaded 0x300 callerMoved fun _ => 0) where
  code p l hp := by
    have holds : ∀ (q : Word) (bs : List Byte), bs.length ≤ 3 →
        (∀ k < 3, ∀ v, bs[k]? = some v → loaded 0x300 callerMoved (fun _ => 0) (word (q.toNat + k)) = v) →
        HoldsAt (loaded 0x300 callerMoved fun _ => 0) q bs := by
      intro q bs hb h k v hk
      obtain ⟨hlt, -⟩ := List.getElem?_eq_some_iff.1 hk
      exact h k (by omega) v hk
    rcases callerTable_cases hp with ⟨rfl, rfl⟩ | ⟨rfl, rfl⟩ | ⟨rfl, rfl⟩ | ⟨rfl, rfl⟩
    · exact ⟨[0x20, 0x06, 0x03], ⟨rfl, by decide +kernel⟩, holds _ _ (by decide) (by decide +kernel)⟩
    · exact ⟨[0x4c, 0x00, 0x03], ⟨rfl, by decide +kernel⟩, holds _ _ (by decide) (by decide +kernel)⟩
    · exact ⟨[0xe6, 0x10], ⟨rfl, by decide +kernel⟩, holds _ _ (by decide) (by decide +kernel)⟩
    · exact ⟨[0x60], ⟨rfl, by decide +kernel⟩, holds _ _ (by decide) (by decide +kernel)⟩
  address lo hi h := h.elim
  data a ha := by
    simp only [callerDiffers, not_or, not_and, Nat.not_lt] at ha
    unfold loaded
    rw [if_neg, if_neg]
    · rintro ⟨h1, h2⟩
      have := ha.1 h1
      have : a.toNat < 0x200 + 9 := h2
      omega
    · rintro ⟨h1, h2⟩
      have := ha.2 h1
      have : a.toNat < 0x300 + 9 := h2
      omega

/-- One instruction of a moved program, on 64K of RAM. -/
theorem flat_moves {b : Build} {d : Word} {P : Program} {S S₁ S' : Word → Word → Prop} {D D₁ D' : Word → Prop}
    {r r' : Regs} {mem mem' : Mem} {i : InstructionVariant} {l : List InstructionVariant}
    {c : Mos6502 FlatRam} {ws : List (Word × Byte)} (hpc : r.pc.toNat < 65534)
    (hp : Isa.parseInstruction (mem r.pc) (mem (r.pc + 1)) (mem (r.pc + 2)) = some i)
    (hok : AddrOk b r mem (view i).2) (hr : (codeEffect r mem (view i).1 (view i).2).regs = r')
    (hw : (codeEffect r mem (view i).1 (view i).2).writes = ws)
    (hm : ws.foldl (fun m w => upd m w.1 w.2) mem = mem') (hmv : Movable d P S D r mem i)
    (hf : FetchOk b (r.pc + d)) (hS : ∀ lo hi, S₁ lo hi → addressesAfter S r mem i lo hi)
    (hD : ∀ a, differAfter D r mem i a → D₁ a)
    (h : Moves b (fun (m : FlatRam) mem => m.mem = mem) d P S₁ D₁ (withRegs r' ⟨mem'⟩) l c S' D') :
    Moves b (fun (m : FlatRam) mem => m.mem = mem) d P S D (withRegs r ⟨mem⟩) (i :: l) c S' D' := by
  subst hr hw hm
  exact .cons (flat_step hpc hp hok) rfl hmv hf hS hD h

/-- The registers in the course of `caller`. -/
def callerRegs (sp : Byte) (p : ProcessorStatus) (pc : Word) : Regs :=
  { sampleRegs with sp := sp, p := p, pc := pc }

/-- Memory after the call, with the return address on the stack. -/
def callerCalled : Mem := upd (upd (loaded 0x200 caller fun _ => 0) 0x101 0x02) 0x100 0x02

/-- Memory after the subroutine. -/
def callerDone : Mem := upd callerCalled 0x10 1

/-- The return address on the stack. -/
def callerAddress (lo hi : Word) : Prop := lo = 0x100 ∧ hi = 0x101

/-- Where the memories differ after the call. -/
def callerDiffers' (a : Word) : Prop := callerDiffers a ∨ a = 0x100 ∨ a = 0x101

theorem caller_differs {a : Word} (h : callerDiffers a) : 0x200 ≤ a.toNat := by
  rcases h with h | h <;> omega

theorem caller_not_code {a : Word} (h : (a - 0x100).toNat < 0x200 ∨ 0x209 ≤ (a - 0x100).toNat) :
    ¬CodeOf callerTable (a - 0x100) := by
  intro h'
  have := callerTable_code h'
  omega

theorem caller_moves : Moves .debug (fun (m : FlatRam) mem => m.mem = mem) 0x100 callerTable (fun _ _ => False)
    callerDiffers (loadedAt 0x200 caller)
    [.JsrAbsolute 0x206, .IncZeroPage 0x10, .RtsImplied, .JmpAbsolute 0x200]
    (withRegs (callerRegs 1 (setNZ sampleRegs.p 1) 0x200) ⟨callerDone⟩) callerAddress callerDiffers' := by
  have hnone : ∀ {r : Regs} {mem : Mem} {i : InstructionVariant} {S : Word → Word → Prop},
      S = callerAddress → (∀ a ∈ writable r mem (view i).1 (view i).2, a = 0x10) →
      ∀ lo hi, callerAddress lo hi → addressesAfter S r mem i lo hi := by
    rintro r mem i S rfl h lo hi ⟨rfl, rfl⟩
    exact .inl ⟨⟨rfl, rfl⟩, fun ha => absurd (h _ ha) (by decide), fun ha => absurd (h _ ha) (by decide)⟩
  have hsame : ∀ {r : Regs} {mem : Mem} {i : InstructionVariant}, pushesTo r (view i) = none →
      ∀ a, differAfter callerDiffers' r mem i a → callerDiffers' a := by
    rintro r mem i h a (⟨ha, -⟩ | ⟨lo, hi, h', -⟩)
    · exact ha
    · rw [h] at h'; cases h'
  refine flat_moves (r' := callerRegs 0xff sampleRegs.p 0x206) (mem' := callerCalled)
    (ws := [(0x101, 0x02), (0x100, 0x02)]) (by decide) (by decide +kernel) trivial (by decide +kernel)
    (by decide +kernel) rfl ⟨rfl, ?_, ?_, ?_⟩ (.inr (by decide)) (S₁ := callerAddress) (D₁ := callerDiffers')
    ?_ ?_ ?_
  · intro a ha
    simp [dataUses, view, modeUses, pointerUses, operandUses, mnemonicUses] at ha
  · intro lo hi h
    simp [jumpsBy, view] at h
  · intro a ha
    have ha : a ∈ [0x101, 0x100] := ha
    simp only [List.mem_cons, List.not_mem_nil, or_false] at ha
    rcases ha with rfl | rfl <;> exact caller_not_code (.inl (by decide))
  · rintro lo hi ⟨rfl, rfl⟩
    exact .inr rfl
  · rintro a (⟨ha, -⟩ | ⟨lo, hi, h, ha⟩)
    · exact .inl ha
    · have h : (stack 0, stack 1) = (lo, hi) := Option.some.inj h
      injection h with h1 h2
      subst h1 h2
      exact .inr ha
  refine flat_moves (r' := callerRegs 0xff (setNZ sampleRegs.p 1) 0x208) (mem' := callerDone)
    (ws := [(0x10, 1)]) (by decide) (by decide +kernel) trivial (by decide +kernel)
    (by decide +kernel) rfl ⟨rfl, ?_, ?_, ?_⟩ (.inr (by decide)) (S₁ := callerAddress) (D₁ := callerDiffers')
    (hnone rfl ?_) (hsame rfl) ?_
  · intro a ha hd
    simp only [dataUses, view, modeUses, pointerUses, operandUses, mnemonicUses] at ha
    have ha : a = word 16 := by simpa [ea] using ha
    subst ha
    rcases hd with hd | hd | hd
    · exact absurd (caller_differs hd) (by decide)
    · exact absurd hd (by decide)
    · exact absurd hd (by decide)
  · intro lo hi h
    simp [jumpsBy, view] at h
  · intro a ha
    have ha : a ∈ [0x10] := ha
    simp only [List.mem_cons, List.not_mem_nil, or_false] at ha
    subst ha
    exact caller_not_code (.inr (by decide))
  · intro a ha
    exact List.mem_singleton.1 ha
  refine flat_moves (r' := callerRegs 1 (setNZ sampleRegs.p 1) 0x203) (mem' := callerDone)
    (ws := []) (by decide) (by decide +kernel) trivial (by decide +kernel)
    (by decide +kernel) rfl ⟨rfl, ?_, ?_, ?_⟩ (.inr (by decide)) (S₁ := callerAddress) (D₁ := callerDiffers')
    (hnone rfl (by intro a ha; cases ha)) (hsame rfl) ?_
  · intro a ha _
    refine ⟨_, _, rfl, ?_⟩
    simpa [dataUses, view, modeUses, pointerUses, operandUses, mnemonicUses] using ha
  · intro lo hi h
    cases h
    exact ⟨by decide, by decide⟩
  · intro a ha
    cases ha
  refine flat_moves (r' := callerRegs 1 (setNZ sampleRegs.p 1) 0x200) (mem' := callerDone)
    (ws := []) (by decide) (by decide +kernel) trivial (by decide +kernel)
    (by decide +kernel) rfl ⟨rfl, ?_, ?_, ?_⟩ (.inr (by decide)) (hnone rfl (by intro a ha; cases ha)) (hsame rfl)
    (.nil _)
  · intro a ha
    simp [dataUses, view, modeUses, pointerUses, operandUses, mnemonicUses] at ha
  · intro lo hi h
    simp [jumpsBy, view] at h
  · intro a ha
    cases ha

/-- The hypotheses of `C124_moves` for a round of `caller`, moved from 0x200 to 0x300: the return address on the
stack differs, and the jumps are to 0x300, but the same is stored. -/
example : ∃ tr e', Executes .debug (loadedAt 0x300 callerMoved) tr e' ∧
    tr.map (fun p => view p.2) = [(.Jsr, .absolute 0x306), (.Inc, .zeroPage 0x10), (.Rts, .implied),
      (.Jmp, .absolute 0x300)] ∧ e'.pc = 0x300 ∧ e'.sp = 1 ∧ e'.address_map.mem 0x10 = 1 ∧
    addressIn e'.address_map.mem 0x100 0x101 = 0x302 := by
  obtain ⟨tr, e', m, m', h1, h2, h3, h4, h5, h6⟩ := C124_moves (flatRam_coherent .debug) (flatRam_coherent .debug)
    (flat_acceptsAt .debug _) rfl rfl caller_linked (e := loadedAt 0x300 callerMoved) (by decide +kernel)
    caller_moves
  refine ⟨tr, e', h1, h2, congrArg Regs.pc h3, congrArg Regs.sp h3, ?_, ?_⟩
  · rw [h5, h6.data, ← h4]
    · decide +kernel
    · rintro (hd | hd | hd)
      · exact absurd (caller_differs hd) (by decide)
      · exact absurd hd (by decide)
      · exact absurd hd (by decide)
  · rw [h5, h6.address _ _ ⟨rfl, rfl⟩, ← h4]
    decide +kernel

/-- `JMP $0200` at 0x200. -/
def loop : Program := fun p => if p = 0x200 then some (.Jmp, .absolute 0x200) else none

theorem loop_step : Step .debug (loadedAt 0x200 [0x4c, 0x00, 0x02]) (.JmpAbsolute 0x200)
    (loadedAt 0x200 [0x4c, 0x00, 0x02]) :=
  flat_step (b := .debug) (r := { sampleRegs with pc := word 0x200 })
    (mem := loaded 0x200 [0x4c, 0x00, 0x02] fun _ => 0) (i := .JmpAbsolute 0x200) (by decide)
    (by decide +kernel) trivial

theorem loop_stays {l : List Operations} {c : Mos6502 FlatRam}
    (h : Instructions .debug (loadedAt 0x200 [0x4c, 0x00, 0x02]) l c) :
    c = loadedAt 0x200 [0x4c, 0x00, 0x02] := by
  obtain ⟨-, ops, hx⟩ := loop_step
  generalize hc : loadedAt 0x200 [0x4c, 0x00, 0x02] = c₀ at h
  induction h with
  | nil c => rfl
  | cons h1 _ ih =>
    subst hc
    rw [hx] at h1
    cases h1
    exact ih rfl

/-- The hypotheses of `C124_run`: a `JMP` to itself, moved by a page, for any number of cycles. (`C111` leaves
jumps out.) -/
example (n : Nat) : ∃ s s', run .debug (loadedAt 0x200 [0x4c, 0x00, 0x02]) n = .ok s ∧
    run .debug (loadedAt 0x300 [0x4c, 0x00, 0x03]) n = .ok s' ∧
    regs s'.unwrap = movedRegs 0x100 (regs s.unwrap) := by
  obtain ⟨hat₀, ops, hx⟩ := loop_step
  have stay := @loop_stays
  cases h : run .debug (loadedAt 0x200 [0x4c, 0x00, 0x02]) n with
  | error p =>
    obtain ⟨l, c1, h1, -, h2⟩ := C12_panic.1 h
    rw [stay h1, hx] at h2
    cases h2
  | ok s =>
    have hlink : LinkedMem 0x100 loop (fun _ _ => False)
        (fun a => (0x200 ≤ a.toNat ∧ a.toNat < 0x203) ∨ (0x300 ≤ a.toNat ∧ a.toNat < 0x303))
        (loaded 0x200 [0x4c, 0x00, 0x02] fun _ => 0) (loaded 0x300 [0x4c, 0x00, 0x03] fun _ => 0) := by
      refine ⟨?_, fun _ _ h => h.elim, ?_⟩
      · intro p l hp
        unfold loop at hp
        split at hp
        · next hp' =>
          cases hp
          subst hp'
          refine ⟨[0x4c, 0x00, 0x03], ⟨rfl, by decide +kernel⟩, ?_⟩
          intro k v hk
          obtain ⟨hlt, -⟩ := List.getElem?_eq_some_iff.1 hk
          have hall : ∀ k < 3, ∀ v : Byte, [(0x4c : Byte), 0x00, 0x03][k]? = some v →
              loaded 0x300 [0x4c, 0x00, 0x03] (fun _ => 0) (word ((0x200 + 0x100 : Word).toNat + k)) = v := by
            decide +kernel
          exact hall k hlt v hk
        · cases hp
      · intro a ha
        simp only [not_or, not_and, Nat.not_lt] at ha
        unfold loaded
        simp only [List.length_cons, List.length_nil]
        rw [if_neg (by omega), if_neg (by omega)]
    obtain ⟨s', -, -, -, h1, h2, -⟩ := C124_run (d := 0x100) (W := fun _ => True) (P := loop)
      (T := fun _ _ _ => False)
      (E := fun _ a => (0x200 ≤ a.toNat ∧ a.toNat < 0x203) ∨ (0x300 ≤ a.toNat ∧ a.toNat < 0x303))
      (e := loadedAt 0x300 [0x4c, 0x00, 0x03]) (by decide) (flatRam_coherent .debug)
      (flatRam_coherent .debug) (flat_acceptsAt .debug _) rfl rfl hlink (by decide +kernel) h (by
        intro l c1 i m hl _ hat _
        rw [stay hl] at hat ⊢
        obtain rfl : i = .JmpAbsolute 0x200 :=
          Except.ok.inj ((show fetch _ _ = _ from hat).symm.trans hat₀)
        refine ⟨⟨rfl, fun a ha => ?_, fun lo hi h => ?_, fun a ha => by cases ha⟩, fun _ _ h => h.elim, ?_,
          .inr (by decide), fun _ _ => trivial⟩
        · simp [dataUses, view, modeUses, pointerUses, operandUses, mnemonicUses] at ha
        · simp [jumpsBy, view] at h
        · rintro a (⟨ha, -⟩ | ⟨lo, hi, h, -⟩)
          · exact ha
          · cases h)
    exact ⟨s, s', rfl, h1, h2⟩

/-- Memory with `BRK` at `p`, `RTI` 0x80 bytes on, and the interrupt vector there. -/
def interrupted (p : Word) : Mem := fun a =>
  if a = p + 0x80 then 0x40 else if a = 0xfffe then byte (p + 0x80).toNat
  else if a = 0xffff then byte ((p + 0x80).toNat / 256) else 0

/-- C124: what the conditions leave out. `BRK` pushes the address of the program low byte first, `RTI` takes it
high byte first: the pair of bytes `RTI` jumps by is not the one `BRK` has pushed. A program that returns from
an interrupt therefore cannot be moved: from 0x200 it goes to 0x103, from 0x300 to 0x104. -/
theorem C124_rti_differs :
    ∃ c c1 c2 e e1 e2 : Mos6502 FlatRam, Step .debug c .BrkImplied c1 ∧ Step .debug c1 .RtiImplied c2 ∧
      Step .debug e .BrkImplied e1 ∧ Step .debug e1 .RtiImplied e2 ∧
      c.address_map.mem = interrupted 0x200 ∧ e.address_map.mem = interrupted 0x300 ∧
      regs e = movedRegs 0x100 (regs c) ∧ regs e1 = movedRegs 0x100 (regs c1) ∧
      c2.pc = 0x103 ∧ e2.pc = 0x104 :=
  ⟨withRegs { sampleRegs with pc := 0x200 } ⟨interrupted 0x200⟩, _, _,
    withRegs { sampleRegs with pc := 0x300 } ⟨interrupted 0x300⟩, _, _,
    flat_step (by decide) (by decide +kernel) trivial, flat_step (by decide) (by decide +kernel) trivial,
    flat_step (by decide) (by decide +kernel) trivial, flat_step (by decide) (by decide +kernel) trivial,
    rfl, rfl, by decide +kernel, by decide +kernel, by decide +kernel, by decide +kernel⟩

end Verif.Props
