import Verif.Proofs.MosStackMove
import Verif.Props.Mos.Link

/-!
# C125: where the stack is does not matter

A program that reaches the stack page by pushing and pulling only does the same with any value of the stack
pointer, the stack page turned accordingly. The page is a ring: the stack may reach round its end in the one
machine and not in the other.
-/

namespace Verif.Props

open Verif Verif.Mos Verif.Spec Verif.Spec.Mos

section
variable {B B' : Type} [Addressable B] [Addressable B'] {b : Build} {I : B → Mem → Prop}
  {I' : B' → Mem → Prop} {W : Word → Prop} {k : Byte} {c c' : Mos6502 B}
  {e : Mos6502 B'} {mem mem' : Mem} {i : InstructionVariant} {ops : Operations}
  {tr : List (Mos6502 B × InstructionVariant)}

/-- The other machine is at the same instruction. -/
theorem C125_fetch (hI : Coherent b I) (hI' : Coherent b I') (hm : I c.address_map mem)
    (hm' : I' e.address_map mem') (hs : StackMoved k mem mem') (hr : regs e = spMoved k (regs c))
    (hown : ∀ k, k < size (view i).2 → ¬InStack (word (c.pc.toNat + k))) (hat : At b c i) : At b e i := by
  have hpc : e.pc = c.pc := congrArg Regs.pc hr
  have h1 := fetch_eq (cpu := c) (hI _ _ hm).1
  rw [show fetch b c = .ok i from hat] at h1
  unfold At
  rw [fetch_eq (cpu := e) (hI' _ _ hm').1, hpc]
  split at h1
  · cases h1
  · next hn =>
    rw [if_neg hn]
    split at h1
    · next j hj =>
      cases h1
      have key : ∀ k, k < size (view i).2 →
          mem' (c.pc + BitVec.ofNat 16 k) = mem (c.pc + BitVec.ofNat 16 k) := by
        intro k hk
        refine stackMoved_free hs ?_
        have := hown k hk
        rwa [show word (c.pc.toNat + k) = c.pc + BitVec.ofNat 16 k by
          apply BitVec.eq_of_toNat_eq
          simp only [word, BitVec.toNat_ofNat, BitVec.toNat_add]
          omega] at this
      have hsz := C15_length _ _ _ hj
      have k0 := key 0 (by omega)
      rw [BitVec.add_zero] at k0
      have hp : Isa.parseInstruction (mem' c.pc) (mem' (c.pc + 1)) (mem' (c.pc + 2)) = some i :=
        parse_own hj k0 (fun h => key 1 (by omega)) (fun h => key 2 (by omega))
      rw [hp]
    · cases h1

/-- C125: one instruction, with the same effect and the same number of cycles. -/
theorem C125_step (hI : Coherent b I) (hI' : Coherent b I') (hacc : AcceptsAt b I' W)
    (hm : I c.address_map mem) (hm' : I' e.address_map mem') (hs : StackMoved k mem mem')
    (hr : regs e = spMoved k (regs c)) (hin : StackFree (regs c) mem i)
    (hW : ∀ a ∈ writable (regs c) mem (view i).1 (view i).2, W (turned k a))
    (hat : At b c i) (hn : next b c = .ok (ops, c')) :
    ∃ ops' e' m m', At b e i ∧ next b e = .ok (ops', e') ∧ regs e' = spMoved k (regs c') ∧
      I c'.address_map m ∧ I' e'.address_map m' ∧ StackMoved k m m' ∧ ops'.cycles = ops.cycles := by
  have hat' := C125_fetch hI hI' hm hm' hs hr hin.own hat
  have hag : ∀ a ∈ addressed (regs c) mem (view i).1 (view i).2, mem' a = mem a :=
    fun a ha => stackMoved_free hs (hin.data a ha)
  obtain ⟨hok, hops, hregs, hws⟩ := step_inv hat (hI _ _ hm).1 (mn := (view i).1) (am := (view i).2) rfl hn
  have heff := effect_stackMoved hs hin
  have hok' := addrOk_stackMoved (k := k) hag hok
  have hcyc := cycles_stackMoved (k := k) hag
  rw [← hr] at heff hok' hcyc
  obtain ⟨bus, hbus⟩ := writeAll_accepted hI' hacc
    ((codeEffect (regs c) mem (view i).1 (view i).2).writes.map fun w => (turned k w.1, w.2)) hm'
    fun w hw => by
      obtain ⟨w', hw', rfl⟩ := List.mem_map.1 hw
      exact hW _ (by rw [← codeEffect_writes]; exact List.mem_map_of_mem hw')
  have hst := step_ok hat' (hI' _ _ hm').1 hok'
  rw [heff] at hst
  simp only [hbus] at hst
  refine ⟨_, _, _, _, hat', hst, ?_, writeAll_coherent hI _ hm hws, writeAll_coherent hI' _ hm' hbus,
    stackMoved_writes _ hs, ?_⟩
  · rw [hregs]; rfl
  · rw [hops]; exact hcyc

/-- C125: any execution. The machines execute the same instructions, in the same states but for the stack
pointer and the place of the stack. -/
theorem C125_executes (hI : Coherent b I) (hI' : Coherent b I') (hacc : AcceptsAt b I' W)
    (hm : I c.address_map mem) (hm' : I' e.address_map mem') (hs : StackMoved k mem mem')
    (hr : regs e = spMoved k (regs c)) (h : Executes b c tr c')
    (hin : ∀ p ∈ tr, ∀ m, I p.1.address_map m → StackFree (regs p.1) m p.2 ∧
      ∀ a ∈ writable (regs p.1) m (view p.2).1 (view p.2).2, W (turned k a)) :
    ∃ tr' e' m m', Executes b e tr' e' ∧ tr'.map Prod.snd = tr.map Prod.snd ∧
      tr'.map (fun p => regs p.1) = tr.map (fun p => spMoved k (regs p.1)) ∧
      regs e' = spMoved k (regs c') ∧
      I c'.address_map m ∧ I' e'.address_map m' ∧ StackMoved k m m' := by
  induction h generalizing e mem mem' with
  | nil c => exact ⟨[], e, mem, mem', .nil e, rfl, rfl, hr, hm, hm', hs⟩
  | @cons c c1 c2 i tr hx _ ih =>
    obtain ⟨hat, ops, hn⟩ := hx
    have hhead := hin (c, i) (by simp) mem hm
    obtain ⟨ops', e1, m, m', h1, h2, h3, h4, h5, h6, -⟩ :=
      C125_step hI hI' hacc hm hm' hs hr hhead.1 hhead.2 hat hn
    obtain ⟨tr', e2, m2, m2', q1, q2, q3, q4, q5⟩ := ih h4 h5 h6 h3 (fun p hp => hin p (by simp [hp]))
    exact ⟨(e, i) :: tr', e2, m2, m2', .cons ⟨h1, ops', h2⟩ q1, by simp [q2], by simp [q3, hr], q4, q5⟩

/-- Instructions with their cycles. -/
theorem C125_instructions {l : List Operations} (hI : Coherent b I)
    (hI' : Coherent b I') (hacc : AcceptsAt b I' W) (hm : I c.address_map mem)
    (hm' : I' e.address_map mem') (hs : StackMoved k mem mem') (hr : regs e = spMoved k (regs c))
    (h : Instructions b c l c') {n : Nat} (hn : totalCycles l ≤ n)
    (hin : ∀ l c1 i m, Instructions b c l c1 → totalCycles l < n → At b c1 i → I c1.address_map m →
      StackFree (regs c1) m i ∧ ∀ a ∈ writable (regs c1) m (view i).1 (view i).2, W (turned k a)) :
    ∃ l' e' m m', Instructions b e l' e' ∧ totalCycles l' = totalCycles l ∧
      regs e' = spMoved k (regs c') ∧ I c'.address_map m ∧ I' e'.address_map m' ∧ StackMoved k m m' := by
  induction h generalizing e mem mem' n with
  | nil c => exact ⟨[], e, mem, mem', .nil e, rfl, hr, hm, hm', hs⟩
  | @cons c c1 c2 ops l hx hl ih =>
    cases hf : fetch b c with
    | error p =>
      exfalso
      unfold next at hx
      rw [hf] at hx
      cases hx
    | ok i =>
      have hpos := (next_inv hx).1
      rw [totalCycles_cons] at hn
      obtain ⟨q1, q2⟩ := hin [] c i mem (.nil c) (by show 0 < n; omega) hf hm
      obtain ⟨ops', e1, m, m', h1, h2, h3, h4, h5, h6, h7⟩ :=
        C125_step hI hI' hacc hm hm' hs hr q1 q2 hf hx
      obtain ⟨l', e2, m2, m2', r1, r2, r3⟩ := ih h4 h5 h6 h3 (n := n - ops.cycles) (by omega)
        fun l d1 j m hl ht hj hm => hin (ops :: l) d1 j m (.cons hx hl)
          (by rw [totalCycles_cons]; omega) hj hm
      exact ⟨ops' :: l', e2, m2, m2', .cons h2 r1, by rw [totalCycles_cons, totalCycles_cons, h7, r2], r3⟩

/-- C125: `run` for any number of cycles leaves the machines the same but for the place of the stack. -/
theorem C125_run {n : Nat} {s : StepState (Mos6502 B)} (hI : Coherent b I)
    (hI' : Coherent b I') (hacc : AcceptsAt b I' W) (hm : I c.address_map mem)
    (hm' : I' e.address_map mem') (hs : StackMoved k mem mem') (hr : regs e = spMoved k (regs c))
    (h : run b c n = .ok s)
    (hin : ∀ l c1 i m, Instructions b c l c1 → totalCycles l < n → At b c1 i → I c1.address_map m →
      StackFree (regs c1) m i ∧ ∀ a ∈ writable (regs c1) m (view i).1 (view i).2, W (turned k a)) :
    ∃ s' m m', run b e n = .ok s' ∧ regs s'.unwrap = spMoved k (regs s.unwrap) ∧
      I s.unwrap.address_map m ∧ I' s'.unwrap.address_map m' ∧ StackMoved k m m' := by
  rw [run_eq] at h
  rcases runLoop_cases (b := b) n c with ⟨l, c', h1, h2, h3, h4⟩ | ⟨l, c', p, h1, h2, h3, h4⟩
  · rw [h4] at h
    simp only [Except.map, Except.ok.injEq] at h
    subst h
    obtain ⟨l', e', m, m', q1, q2, q3, q4, q5, q6⟩ := C125_instructions hI hI' hacc hm hm' hs hr h1 h2 hin
    refine ⟨.ready e', m, m', C12_run_eq q1 (by omega) ?_, q3, q4, q5, q6⟩
    rcases h3 with h3 | ⟨ops, c'', hx, hlt⟩
    · exact .inl (by omega)
    · by_cases ht : totalCycles l = n
      · exact .inl (by omega)
      cases hf : fetch b c' with
      | error p =>
        exfalso
        unfold next at hx
        rw [hf] at hx
        cases hx
      | ok i =>
        obtain ⟨r1, r2⟩ := hin l c' i m h1 (by omega) hf q4
        obtain ⟨ops', e1, -, -, -, g2, -, -, -, -, g7⟩ := C125_step hI hI' hacc q4 q5 q6 q3 r1 r2 hf hx
        exact .inr ⟨ops', e1, g2, by rw [g7]; omega⟩
  · rw [h4] at h
    cases h

end

/-! ### Witnesses -/

/-- The machine with `caller` in memory and a stack pointer. -/
def callerFrom (sp : Byte) : Mos6502 FlatRam :=
  withRegs (callerRegs sp sampleRegs.p 0x200) ⟨loaded 0x200 caller fun _ => 0⟩

theorem loaded_stackMoved (k : Byte) :
    StackMoved k (loaded 0x200 caller fun _ => 0) (loaded 0x200 caller fun _ => 0) := by
  have out : ∀ a : Word, a.toNat < 512 → loaded 0x200 caller (fun _ => 0) a = 0 := by
    intro a h
    unfold loaded
    rw [if_neg (by omega)]
  intro a
  by_cases h : 256 ≤ a.toNat ∧ a.toNat < 512
  · have e : turned k a = stack (a.toNat + k.toNat) := if_pos h
    rw [e, out a h.2, out]
    simp only [stack, word, BitVec.toNat_ofNat]
    omega
  · rw [turned_free h]

/-- A round of `caller`: it wraps round the stack page. -/
theorem caller_executes : Executes .debug (callerFrom 0)
    [(callerFrom 0, .JsrAbsolute 0x206),
      (withRegs (callerRegs 0xfe sampleRegs.p 0x206)
        ⟨upd (upd (loaded 0x200 caller fun _ => 0) 0x100 0x02) 0x1ff 0x02⟩, .IncZeroPage 0x10),
      (withRegs (callerRegs 0xfe (setNZ sampleRegs.p 1) 0x208)
        ⟨upd (upd (upd (loaded 0x200 caller fun _ => 0) 0x100 0x02) 0x1ff 0x02) 0x10 1⟩, .RtsImplied)]
    (withRegs (callerRegs 0 (setNZ sampleRegs.p 1) 0x203)
        ⟨upd (upd (upd (loaded 0x200 caller fun _ => 0) 0x100 0x02) 0x1ff 0x02) 0x10 1⟩) := by
  have st : ∀ {r r' : Regs} {mem mem' : Mem} {i : InstructionVariant} (ws : List (Word × Byte)),
      r.pc.toNat < 65534 → Isa.parseInstruction (mem r.pc) (mem (r.pc + 1)) (mem (r.pc + 2)) = some i →
      AddrOk .debug r mem (view i).2 → (codeEffect r mem (view i).1 (view i).2).regs = r' →
      (codeEffect r mem (view i).1 (view i).2).writes = ws →
      ws.foldl (fun m w => upd m w.1 w.2) mem = mem' →
      Step .debug (withRegs r (⟨mem⟩ : FlatRam)) i (withRegs r' ⟨mem'⟩) := by
    rintro r r' mem mem' i ws h1 h2 h3 rfl rfl rfl
    exact flat_step h1 h2 h3
  exact .cons (st [(0x100, 2), (0x1ff, 2)] (by decide) (by decide +kernel) trivial (by decide +kernel)
      (by decide +kernel) rfl)
    (.cons (st [(0x10, 1)] (by decide) (by decide +kernel) trivial (by decide +kernel) (by decide +kernel) rfl)
    (.cons (st [] (by decide) (by decide +kernel) trivial (by decide +kernel) (by decide +kernel) rfl) (.nil _)))

/-- The hypotheses of `C125_executes`: with the stack pointer at 0x80 the round of `caller` leaves the return
address at 0x17f instead of 0x1ff and 0x100. -/
example : ∃ tr' e', Executes .debug (callerFrom 0x80) tr' e' ∧
    tr'.map Prod.snd = [.JsrAbsolute 0x206, .IncZeroPage 0x10, .RtsImplied] ∧ e'.sp = 0x80 ∧ e'.pc = 0x203 ∧
    addressIn e'.address_map.mem 0x17f 0x180 = 0x202 ∧ e'.address_map.mem 0x10 = 1 := by
  obtain ⟨tr', e', m, m', h1, h2, -, h4, h5, h6, h7⟩ := C125_executes (k := 0x80) (W := fun _ => True)
    (e := callerFrom 0x80) (flatRam_coherent .debug) (flatRam_coherent .debug) (flat_acceptsAt .debug _) rfl rfl
    (loaded_stackMoved 0x80) (by decide +kernel) caller_executes (by
      intro p hp m _
      refine ⟨?_, fun _ _ => trivial⟩
      simp only [List.mem_cons, List.not_mem_nil, or_false] at hp
      rcases hp with rfl | rfl | rfl
      all_goals
        refine ⟨?_, ⟨by decide, by decide⟩, ?_⟩
        · intro k hk h
          simp only [view, size] at hk
          have hk : k = 0 ∨ k = 1 ∨ k = 2 := by omega
          rcases hk with rfl | rfl | rfl <;> exact absurd h.2 (by decide)
        · intro a ha
          simp only [view, addressed, List.not_mem_nil, List.mem_cons, or_false] at ha
          try
            have ha : a = word 16 := ha
            subst ha
            exact fun h => absurd h.1 (by decide))
  have e1 : ∀ a a' : Word, turned 0x80 a = a' → e'.address_map.mem a' =
      upd (upd (upd (loaded 0x200 caller fun _ => 0) 0x100 0x02) 0x1ff 0x02) 0x10 1 a := by
    rintro a _ rfl
    rw [show e'.address_map.mem = m' from h6, h7, ← show _ = m from h5]
    rfl
  refine ⟨tr', e', h1, h2, congrArg Regs.sp h4, congrArg Regs.pc h4, ?_, ?_⟩
  · unfold addressIn
    rw [e1 0x1ff 0x17f (by decide), e1 0x100 0x180 (by decide)]
    decide +kernel
  · rw [e1 0x10 0x10 (by decide)]
    decide +kernel

/-- The hypotheses of `C125_run`: a loop, for any number of cycles and any stack pointer. -/
example (n : Nat) (k : Byte) : ∃ s s', run .debug (loadedAt 0x200 [0x4c, 0x00, 0x02]) n = .ok s ∧
    run .debug (withRegs (spMoved k { sampleRegs with pc := 0x200 })
      (⟨loaded 0x200 [0x4c, 0x00, 0x02] fun _ => 0⟩ : FlatRam)) n = .ok s' ∧
    regs s'.unwrap = spMoved k (regs s.unwrap) := by
  obtain ⟨hat₀, ops, hx⟩ := loop_step
  cases h : run .debug (loadedAt 0x200 [0x4c, 0x00, 0x02]) n with
  | error p =>
    obtain ⟨l, c1, h1, -, h2⟩ := C12_panic.1 h
    rw [loop_stays h1, hx] at h2
    cases h2
  | ok s =>
    have hmove : StackMoved k (loaded 0x200 [0x4c, 0x00, 0x02] fun _ => 0)
        (loaded 0x200 [0x4c, 0x00, 0x02] fun _ => 0) := by
      have out : ∀ a : Word, a.toNat < 512 → loaded 0x200 [0x4c, 0x00, 0x02] (fun _ => 0) a = 0 := by
        intro a h
        unfold loaded
        rw [if_neg (by omega)]
      intro a
      by_cases h : 256 ≤ a.toNat ∧ a.toNat < 512
      · have e : turned k a = stack (a.toNat + k.toNat) := if_pos h
        rw [e, out a h.2, out]
        simp only [stack, word, BitVec.toNat_ofNat]
        omega
      · rw [turned_free h]
    obtain ⟨s', -, -, h1, h2, -⟩ := C125_run (k := k) (W := fun _ => True)
      (e := withRegs (spMoved k { sampleRegs with pc := 0x200 })
        (⟨loaded 0x200 [0x4c, 0x00, 0x02] fun _ => 0⟩ : FlatRam)) (flatRam_coherent .debug)
      (flatRam_coherent .debug) (flat_acceptsAt .debug _) rfl rfl hmove rfl h (by
        intro l c1 i m hl _ hat _
        rw [loop_stays hl] at hat ⊢
        obtain rfl : i = .JmpAbsolute 0x200 :=
          Except.ok.inj ((show fetch _ _ = _ from hat).symm.trans hat₀)
        refine ⟨⟨?_, ⟨by decide, by decide⟩, fun a ha => by cases ha⟩, fun _ _ => trivial⟩
        intro k hk h
        simp only [view, size] at hk
        have hk : k = 0 ∨ k = 1 ∨ k = 2 := by omega
        rcases hk with rfl | rfl | rfl <;> exact absurd h.2 (by decide))
    exact ⟨s, s', rfl, h1, h2⟩

/-- C125: the transfers of the stack pointer have to be left out. -/
theorem C125_tsx_differs :
    ∃ ops ops' c e, next .debug (machine { sampleRegs with sp := 5, pc := 0x200 } 0xba 0 0) = .ok (ops, c) ∧
      next .debug (machine { sampleRegs with sp := 6, pc := 0x200 } 0xba 0 0) = .ok (ops', e) ∧
      c.x = 5 ∧ e.x = 6 ∧ regs e ≠ spMoved 1 (regs c) :=
  ⟨_, _, _, _, rfl, rfl, rfl, rfl, by decide +kernel⟩

end Verif.Props
