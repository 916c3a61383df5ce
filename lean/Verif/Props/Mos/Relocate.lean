import Verif.Proofs.MosRelocate
import Verif.Props.Mos.Multibyte

/-!
# C111: position-independent 6502 code

Code without jumps, calls, returns and software interrupts, whose data lie elsewhere, does the same
wherever it is loaded: same instructions, same registers (with the program counter moved), same data.
The cycle counts can differ, by one for a taken branch, unless the code is moved by whole pages.
-/

namespace Verif.Props

open Verif Verif.Mos Verif.Spec Verif.Spec.Mos

section
variable {B B' : Type} [Addressable B] [Addressable B'] {b : Build} {I : B → Mem → Prop}
  {I' : B' → Mem → Prop} {W : Word → Prop} {d : Word} {code : Word → Prop} {c c' : Mos6502 B}
  {e : Mos6502 B'} {mem mem' : Mem} {i : InstructionVariant} {ops : Operations}
  {tr : List (Mos6502 B × InstructionVariant)}

/-- The moved machine is at the same instruction. -/
theorem C111_fetch (hI : Coherent b I) (hI' : Coherent b I') (hm : I c.address_map mem)
    (hm' : I' e.address_map mem') (hrel : Relocated d code mem mem') (hr : regs e = movedRegs d (regs c))
    (hown : ∀ k, k < size (view i).2 → code (word (c.pc.toNat + k))) (hf : FetchOk b (c.pc + d))
    (hat : At b c i) : At b e i := by
  have hpc : e.pc = c.pc + d := congrArg Regs.pc hr
  have h1 := fetch_eq (cpu := c) (hI _ _ hm).1
  rw [show fetch b c = .ok i from hat] at h1
  unfold At
  rw [fetch_eq (cpu := e) (hI' _ _ hm').1, hpc, if_neg]
  · split at h1
    · cases h1
    · split at h1
      · next j hj =>
        cases h1
        have add : ∀ k : Nat, c.pc + d + BitVec.ofNat 16 k = word (c.pc.toNat + k) + d := by
          intro k
          apply BitVec.eq_of_toNat_eq
          simp only [word, BitVec.toNat_ofNat, BitVec.toNat_add]
          omega
        have key : ∀ k, k < size (view i).2 →
            mem' (c.pc + d + BitVec.ofNat 16 k) = mem (c.pc + BitVec.ofNat 16 k) := by
          intro k hk
          rw [add, hrel.moved _ (hown k hk)]
          congr 1
          apply BitVec.eq_of_toNat_eq
          simp only [word, BitVec.toNat_ofNat, BitVec.toNat_add]
          omega
        have hsz := C15_length _ _ _ hj
        have k0 := key 0 (by omega)
        rw [BitVec.add_zero, BitVec.add_zero] at k0
        have hp : Isa.parseInstruction (mem' (c.pc + d)) (mem' (c.pc + d + 1)) (mem' (c.pc + d + 2)) = some i :=
          parse_own hj k0 (fun h => key 1 (by omega)) (fun h => key 2 (by omega))
        rw [hp]
      · cases h1
  · rintro ⟨h3, h4⟩
    rcases hf with hf | hf
    · rw [hf] at h3; cases h3
    · omega

/-- C111: one instruction. The moved machine executes the same instruction with the same effect. It takes
as many cycles, unless the instruction is a taken branch, when it can take one more or one less; moved
by whole pages, it always takes as many. -/
theorem C111_step (hI : Coherent b I) (hI' : Coherent b I') (hacc : AcceptsAt b I' W)
    (hm : I c.address_map mem) (hm' : I' e.address_map mem') (hrel : Relocated d code mem mem')
    (hr : regs e = movedRegs d (regs c)) (hin : Independent d code (regs c) mem i)
    (hW : ∀ a ∈ writable (regs c) mem (view i).1 (view i).2, W a) (hf : FetchOk b (c.pc + d))
    (hat : At b c i) (hn : next b c = .ok (ops, c')) :
    ∃ ops' e' m m', At b e i ∧ next b e = .ok (ops', e') ∧ regs e' = movedRegs d (regs c') ∧
      I c'.address_map m ∧ I' e'.address_map m' ∧ Relocated d code m m' ∧
      (taken (view i).1 c.ps ≠ some true → ops'.cycles = ops.cycles) ∧
      ops'.cycles ≤ ops.cycles + 1 ∧ ops.cycles ≤ ops'.cycles + 1 ∧
      (d.toNat % 256 = 0 → ops'.cycles = ops.cycles) := by
  have hat' := C111_fetch hI hI' hm hm' hrel hr hin.own hf hat
  have hag := relocated_agree (r := regs c) (i := i) hrel hin.data
  obtain ⟨hok, hops, hregs, hws⟩ := step_inv hat (hI _ _ hm).1 (mn := (view i).1) (am := (view i).2) rfl hn
  have heff := effect_moved (d := d) hin.free hag
  have hok' := addrOk_moved (d := d) hin.free hag hok
  rw [← hr] at heff hok'
  have hwr : ∀ w ∈ (codeEffect (regs c) mem (view i).1 (view i).2).writes,
      w.1 ∈ writable (regs c) mem (view i).1 (view i).2 := fun w hw => by
    rw [← codeEffect_writes]; exact List.mem_map_of_mem hw
  obtain ⟨bus, hbus⟩ := writeAll_accepted hI' hacc (codeEffect (regs c) mem (view i).1 (view i).2).writes hm'
    fun w hw => hW _ (hwr w hw)
  have hst := step_ok hat' (hI' _ _ hm').1 hok'
  have hcyc : ∀ {ops' : Operations}, ops' = Mos.code (regs e) mem' (view i).1 (view i).2 →
      (taken (view i).1 c.ps ≠ some true → ops'.cycles = ops.cycles) ∧
      ops'.cycles ≤ ops.cycles + 1 ∧ ops.cycles ≤ ops'.cycles + 1 ∧
      (d.toNat % 256 = 0 → ops'.cycles = ops.cycles) := by
    rintro ops' rfl
    subst hops
    simp only [Mos.code, hr]
    obtain ⟨p1, p2, p3⟩ := penalty_moved (d := d) hin.free hag
    exact ⟨p1, p2, p3, fun hd => by rw [penalty_aligned hd hin.free hag]⟩
  rw [heff] at hst
  simp only [hbus] at hst
  refine ⟨_, _, _, _, hat', hst, ?_, writeAll_coherent hI _ hm hws, writeAll_coherent hI' _ hm' hbus,
    relocated_writes _ hrel (fun w hw => hin.data _ (writable_data hin.free (hwr w hw))), hcyc rfl⟩
  rw [hregs]; rfl

/-- C111: any execution. The machine whose code is moved executes the same instructions, in the same
states but for the program counter and the place of the code. -/
theorem C111_executes (hI : Coherent b I) (hI' : Coherent b I') (hacc : AcceptsAt b I' W)
    (hm : I c.address_map mem) (hm' : I' e.address_map mem') (hrel : Relocated d code mem mem')
    (hr : regs e = movedRegs d (regs c)) (h : Executes b c tr c')
    (hin : ∀ p ∈ tr, ∀ m, I p.1.address_map m → Independent d code (regs p.1) m p.2 ∧
      ∀ a ∈ writable (regs p.1) m (view p.2).1 (view p.2).2, W a)
    (hf : ∀ p ∈ tr, FetchOk b (p.1.pc + d)) :
    ∃ tr' e' m m', Executes b e tr' e' ∧ tr'.map Prod.snd = tr.map Prod.snd ∧
      tr'.map (fun p => regs p.1) = tr.map (fun p => movedRegs d (regs p.1)) ∧
      regs e' = movedRegs d (regs c') ∧
      I c'.address_map m ∧ I' e'.address_map m' ∧ Relocated d code m m' := by
  induction h generalizing e mem mem' with
  | nil c => exact ⟨[], e, mem, mem', .nil e, rfl, rfl, hr, hm, hm', hrel⟩
  | @cons c c1 c2 i tr hx _ ih =>
    obtain ⟨hat, ops, hn⟩ := hx
    have hhead := hin (c, i) (by simp) mem hm
    obtain ⟨ops', e1, m, m', h1, h2, h3, h4, h5, h6, -⟩ :=
      C111_step hI hI' hacc hm hm' hrel hr hhead.1 hhead.2 (hf (c, i) (by simp)) hat hn
    obtain ⟨tr', e2, m2, m2', q1, q2, q3, q4, q5⟩ := ih h4 h5 h6 h3
      (fun p hp => hin p (by simp [hp])) (fun p hp => hf p (by simp [hp]))
    exact ⟨(e, i) :: tr', e2, m2, m2', .cons ⟨h1, ops', h2⟩ q1, by simp [q2], by simp [q3, hr], q4, q5⟩

/-- Instructions moved by whole pages, with their cycles. -/
theorem C111_instructions {l : List Operations} (hd : d.toNat % 256 = 0) (hI : Coherent b I)
    (hI' : Coherent b I') (hacc : AcceptsAt b I' W) (hm : I c.address_map mem)
    (hm' : I' e.address_map mem') (hrel : Relocated d code mem mem') (hr : regs e = movedRegs d (regs c))
    (h : Instructions b c l c') {n : Nat} (hn : totalCycles l ≤ n)
    (hin : ∀ l c1 i m, Instructions b c l c1 → totalCycles l < n → At b c1 i → I c1.address_map m →
      Independent d code (regs c1) m i ∧ FetchOk b (c1.pc + d) ∧
      ∀ a ∈ writable (regs c1) m (view i).1 (view i).2, W a) :
    ∃ l' e' m m', Instructions b e l' e' ∧ totalCycles l' = totalCycles l ∧
      regs e' = movedRegs d (regs c') ∧ I c'.address_map m ∧ I' e'.address_map m' ∧
      Relocated d code m m' := by
  induction h generalizing e mem mem' n with
  | nil c => exact ⟨[], e, mem, mem', .nil e, rfl, hr, hm, hm', hrel⟩
  | @cons c c1 c2 ops l hx hl ih =>
    cases hf : fetch b c with
    | error p =>
      exfalso
      unfold next at hx
      rw [hf] at hx
      cases hx
    | ok i =>
      have hpos := (next_inv hx).1
      rw [totalCycles_cons] at hn
      obtain ⟨q1, q2, q3⟩ := hin [] c i mem (.nil c) (by show 0 < n; omega) hf hm
      obtain ⟨ops', e1, m, m', h1, h2, h3, h4, h5, h6, -, -, -, h7⟩ :=
        C111_step hI hI' hacc hm hm' hrel hr q1 q3 q2 hf hx
      obtain ⟨l', e2, m2, m2', r1, r2, r3⟩ := ih h4 h5 h6 h3 (n := n - ops.cycles) (by omega)
        fun l d1 j m hl ht hj hm => hin (ops :: l) d1 j m (.cons hx hl)
          (by rw [totalCycles_cons]; omega) hj hm
      exact ⟨ops' :: l', e2, m2, m2', .cons h2 r1, by rw [totalCycles_cons, totalCycles_cons, h7 hd, r2], r3⟩

/-- C111: code moved by whole pages runs in step: after `run` for any number of cycles the machines are
again the same but for the place of the code. -/
theorem C111_run {n : Nat} {s : StepState (Mos6502 B)} (hd : d.toNat % 256 = 0) (hI : Coherent b I)
    (hI' : Coherent b I') (hacc : AcceptsAt b I' W) (hm : I c.address_map mem)
    (hm' : I' e.address_map mem') (hrel : Relocated d code mem mem') (hr : regs e = movedRegs d (regs c))
    (h : run b c n = .ok s)
    (hin : ∀ l c1 i m, Instructions b c l c1 → totalCycles l < n → At b c1 i → I c1.address_map m →
      Independent d code (regs c1) m i ∧ FetchOk b (c1.pc + d) ∧
      ∀ a ∈ writable (regs c1) m (view i).1 (view i).2, W a) :
    ∃ s' m m', run b e n = .ok s' ∧ regs s'.unwrap = movedRegs d (regs s.unwrap) ∧
      I s.unwrap.address_map m ∧ I' s'.unwrap.address_map m' ∧ Relocated d code m m' := by
  rw [run_eq] at h
  rcases runLoop_cases (b := b) n c with ⟨l, c', h1, h2, h3, h4⟩ | ⟨l, c', p, h1, h2, h3, h4⟩
  · rw [h4] at h
    simp only [Except.map, Except.ok.injEq] at h
    subst h
    obtain ⟨l', e', m, m', q1, q2, q3, q4, q5, q6⟩ :=
      C111_instructions hd hI hI' hacc hm hm' hrel hr h1 h2 hin
    refine ⟨.ready e', m, m', C12_run_eq q1 (by omega) ?_, q3, q4, q5, q6⟩
    rcases h3 with h3 | ⟨ops, c'', hx, hlt⟩
    · exact .inl (by omega)
    · by_cases ht : totalCycles l = n
      · exact .inl (by omega)
      cases hf : fetch b c' with
      | error p =>
        exfalso
        unfold next at hx
        rw [hf] at hx
        cases hx
      | ok i =>
        obtain ⟨r1, r2, r3⟩ := hin l c' i m h1 (by omega) hf q4
        obtain ⟨ops', e1, -, -, -, g2, -, -, -, -, -, -, -, g7⟩ :=
          C111_step hI hI' hacc q4 q5 q6 q3 r1 r3 r2 hf hx
        exact .inr ⟨ops', e1, g2, by rw [g7 hd]; omega⟩
  · rw [h4] at h
    cases h

end

/-- The same bytes at `p` and at `q`, with the same bytes elsewhere. -/
theorem C111_loaded {p q : Nat} {bytes : List Byte} {data : Mem} (hp : p + bytes.length ≤ 65536)
    (hq : q + bytes.length ≤ 65536) :
    Relocated (word q - word p) (InArea p bytes.length) (loaded p bytes data) (loaded q bytes data) where
  moved a ha := by
    obtain ⟨h1, h2⟩ := ha
    have e : (a + (word q - word p)).toNat = q + (a.toNat - p) := by
      simp only [word, BitVec.toNat_add, BitVec.toNat_sub, BitVec.toNat_ofNat]
      omega
    unfold loaded
    rw [e, if_pos ⟨by omega, by omega⟩, if_pos ⟨h1, h2⟩, Nat.add_sub_cancel_left]
  rest a ha ha' := by
    unfold loaded
    have : ¬(q ≤ a.toNat ∧ a.toNat < q + bytes.length) := by
      rintro ⟨h1, h2⟩
      have := a.isLt
      have e : (a - (word q - word p)).toNat = p + (a.toNat - q) := by
        simp only [word, BitVec.toNat_sub, BitVec.toNat_ofNat]
        omega
      exact ha' ⟨by omega, by omega⟩
    rw [if_neg this, if_neg (show ¬(p ≤ a.toNat ∧ a.toNat < p + bytes.length) from ha)]

/-! ### Witnesses -/

/-- `LDX #2`, `DEX`, `BNE` (back to the `DEX`), `STX $10`. -/
def countdown : List Byte := [0xa2, 2, 0xca, 0xd0, 0xff, 0x86, 0x10]

/-- A machine with `bytes` at `p`, nothing else in memory, and `pc` there. -/
def loadedAt (p : Nat) (bytes : List Byte) : Mos6502 FlatRam :=
  withRegs { sampleRegs with pc := word p } ⟨loaded p bytes fun _ => 0⟩

/-- The registers in the course of `countdown` at 0x200. -/
def countdownRegs (x : Byte) (pc : Word) : Regs :=
  { sampleRegs with x := x, pc := pc, p := setNZ sampleRegs.p x }

/-- The machine in the course of `countdown`. -/
def countdownAt (x : Byte) (pc : Word) : Mos6502 FlatRam :=
  withRegs (countdownRegs x pc) ⟨loaded 0x200 countdown fun _ => 0⟩

/-- One instruction on 64K of RAM. -/
theorem flat_step {b : Build} {r : Regs} {mem : Mem} {i : InstructionVariant} (hpc : r.pc.toNat < 65534)
    (hp : Isa.parseInstruction (mem r.pc) (mem (r.pc + 1)) (mem (r.pc + 2)) = some i)
    (hok : AddrOk b r mem (view i).2) : Step b (withRegs r (⟨mem⟩ : FlatRam)) i
      (withRegs (codeEffect r mem (view i).1 (view i).2).regs
        ⟨(codeEffect r mem (view i).1 (view i).2).writes.foldl (fun m w => upd m w.1 w.2) mem⟩) := by
  have hat : At b (withRegs r (⟨mem⟩ : FlatRam)) i := by
    unfold At
    rw [fetch_eq (mem := mem) (fun _ => rfl), if_neg]
    · show (match Isa.parseInstruction (mem r.pc) (mem (r.pc + 1)) (mem (r.pc + 2)) with
        | some i => _
        | none => _) = _
      rw [hp]
    · rintro ⟨-, h⟩
      exact absurd (show 65534 ≤ r.pc.toNat from h) (by omega)
  have hs := step_ok (mem := mem) hat (fun _ => rfl) hok
  have hw : ∀ (ws : List (Word × Byte)) (m : Mem), writeAll b (⟨m⟩ : FlatRam) ws =
      .ok ⟨ws.foldl (fun m w => upd m w.1 w.2) m⟩ := by
    intro ws
    induction ws with
    | nil => intro m; rfl
    | cons w ws ih => intro m; exact ih _
  rw [show (withRegs r (⟨mem⟩ : FlatRam)).address_map = ⟨mem⟩ from rfl, hw] at hs
  exact ⟨hat, _, hs⟩

theorem countdown_executes : ∃ c', Executes .debug (loadedAt 0x200 countdown)
    [(loadedAt 0x200 countdown, .LdxImmediate 2), (countdownAt 2 0x202, .DexImplied),
      (countdownAt 1 0x203, .BneRelative 0xff), (countdownAt 1 0x202, .DexImplied),
      (countdownAt 0 0x203, .BneRelative 0xff), (countdownAt 0 0x205, .StxZeroPage 0x10)] c' :=
  ⟨_, .cons (flat_step (by decide) (by decide +kernel) trivial)
    (.cons (flat_step (by decide) (by decide +kernel) trivial)
    (.cons (flat_step (by decide) (by decide +kernel) trivial)
    (.cons (flat_step (by decide) (by decide +kernel) trivial)
    (.cons (flat_step (by decide) (by decide +kernel) trivial)
    (.cons (flat_step (by decide) (by decide +kernel) trivial) (.nil _))))))⟩

/-- The hypotheses of `C111_executes` for `countdown`, moved from 0x200 to 0x2fd, where its branch is
taken across the boundary of a page: it executes the same six instructions there, and stores the same
byte. -/
example : ∃ tr' e', Executes .debug (loadedAt 0x2fd countdown) tr' e' ∧
    tr'.map Prod.snd = [.LdxImmediate 2, .DexImplied, .BneRelative 0xff, .DexImplied, .BneRelative 0xff,
      .StxZeroPage 0x10] ∧ e'.x = 0 ∧ e'.pc = 0x304 := by
  obtain ⟨c', h⟩ := countdown_executes
  have hx : regs c' = countdownRegs 0 0x207 := by
    obtain _ | ⟨h1, _ | ⟨h2, _ | ⟨h3, _ | ⟨h4, _ | ⟨h5, _ | ⟨h6, _ | _⟩⟩⟩⟩⟩⟩ := h
    obtain ⟨hr, -⟩ := step_mem (flatRam_coherent .debug) rfl h6
    rw [hr]
    decide +kernel
  obtain ⟨tr', e', m, m', h1, h2, -, h4, -⟩ := C111_executes (d := word 0x2fd - word 0x200)
    (W := fun _ => True) (code := InArea 0x200 countdown.length) (e := loadedAt 0x2fd countdown)
    (flatRam_coherent .debug) (flatRam_coherent .debug) (flat_acceptsAt .debug _) rfl rfl
    (C111_loaded (by decide) (by decide)) (by decide +kernel) h
    (by
      intro p hp m _
      refine ⟨?_, fun _ _ => trivial⟩
      simp only [List.mem_cons, List.not_mem_nil, or_false] at hp
      rcases hp with rfl | rfl | rfl | rfl | rfl | rfl
      all_goals
        refine ⟨?_, rfl, ?_⟩
        · intro k hk
          simp only [view, size] at hk
          have hk : k = 0 ∨ k = 1 := by omega
          rcases hk with rfl | rfl <;> first | omega | (constructor <;> decide)
        · intro a ha
          simp only [view, dataAddresses, List.not_mem_nil, List.mem_cons, or_false] at ha
          try
            have ha : a = 0x10 := ha
            subst ha
            exact ⟨fun h => absurd h.1 (by decide), fun h => absurd h.2 (by decide +kernel)⟩)
    (by
      intro p hp
      simp only [List.mem_cons, List.not_mem_nil, or_false] at hp
      rcases hp with rfl | rfl | rfl | rfl | rfl | rfl <;> exact .inr (by decide))
  rw [hx] at h4
  exact ⟨tr', e', h1, h2, congrArg Regs.x h4, congrArg Regs.pc h4⟩

/-- The hypotheses of `C111_run`: a taken `BNE` with displacement 0 (to itself), moved by a page, for any number
of cycles. -/
example (n : Nat) : ∃ s s', run .debug (loadedAt 0x200 [0xd0, 0]) n = .ok s ∧
    run .debug (loadedAt 0x300 [0xd0, 0]) n = .ok s' ∧
    regs s'.unwrap = movedRegs (word 0x300 - word 0x200) (regs s.unwrap) := by
  have hx : ∃ ops, next .debug (loadedAt 0x200 [0xd0, 0]) = .ok (ops, loadedAt 0x200 [0xd0, 0]) := by
    obtain ⟨-, ops, h⟩ := flat_step (b := .debug) (r := { sampleRegs with pc := word 0x200 })
      (mem := loaded 0x200 [0xd0, 0] fun _ => 0) (i := .BneRelative 0) (by decide) (by decide +kernel) trivial
    exact ⟨ops, h⟩
  obtain ⟨ops, hx⟩ := hx
  have stay : ∀ l c1, Instructions .debug (loadedAt 0x200 [0xd0, 0]) l c1 → c1 = loadedAt 0x200 [0xd0, 0] := by
    intro l c1 h
    generalize hc : loadedAt 0x200 [0xd0, 0] = c at h
    induction h with
    | nil c => rfl
    | cons h1 _ ih =>
      subst hc
      rw [hx] at h1
      cases h1
      exact ih rfl
  cases h : run .debug (loadedAt 0x200 [0xd0, 0]) n with
  | error p =>
    obtain ⟨l, c1, h1, -, h2⟩ := C12_panic.1 h
    rw [stay l c1 h1, hx] at h2
    cases h2
  | ok s =>
    obtain ⟨s', -, -, h1, h2, -⟩ := C111_run (d := word 0x300 - word 0x200) (W := fun _ => True)
      (code := InArea 0x200 2) (e := loadedAt 0x300 [0xd0, 0]) (by decide) (flatRam_coherent .debug)
      (flatRam_coherent .debug) (flat_acceptsAt .debug _) rfl rfl
      (C111_loaded (bytes := [0xd0, 0]) (by decide) (by decide)) (by decide +kernel) h (by
        intro l c1 i m hl _ hat _
        rw [stay l c1 hl] at hat ⊢
        have hi : i = .BneRelative 0 := by
          obtain ⟨hat', -⟩ := flat_step (b := .debug) (r := { sampleRegs with pc := word 0x200 })
            (mem := loaded 0x200 [0xd0, 0] fun _ => 0) (i := .BneRelative 0) (by decide) (by decide +kernel)
            trivial
          exact Except.ok.inj ((show fetch _ _ = _ from hat).symm.trans hat')
        subst hi
        refine ⟨⟨?_, rfl, fun a ha => ?_⟩, .inr (by decide), fun _ _ => trivial⟩
        · intro k hk
          simp only [view, size] at hk
          have hk : k = 0 ∨ k = 1 := by omega
          rcases hk with rfl | rfl <;> constructor <;> decide
        · simp [view, dataAddresses] at ha)
    exact ⟨s, s', rfl, h1, h2⟩

/-- C111: cycles are not kept. A taken `BNE` one byte back takes three cycles at 0x201 and four at 0x300,
where it crosses the boundary of a page. -/
theorem C111_cycles_differ :
    ∃ ops ops' c e, next .debug (machine (countdownRegs 1 0x201) 0xd0 0xff 0) = .ok (ops, c) ∧
      next .debug (machine (countdownRegs 1 0x300) 0xd0 0xff 0) = .ok (ops', e) ∧
      regs e = movedRegs 0xff (regs c) ∧ ops.cycles = 3 ∧ ops'.cycles = 4 :=
  ⟨_, _, _, _, rfl, rfl, by decide +kernel, by decide, by decide⟩

/-- C111: jumps have to be left out. `JMP $0200` at 0x200 stays there; moved to 0x300 it leads back to
0x200. -/
theorem C111_jump_differs :
    ∃ ops ops' c e, next .debug (machine (countdownRegs 1 0x200) 0x4c 0x00 0x02) = .ok (ops, c) ∧
      next .debug (machine (countdownRegs 1 0x300) 0x4c 0x00 0x02) = .ok (ops', e) ∧
      c.pc = 0x200 ∧ e.pc = 0x200 ∧ regs e ≠ movedRegs 0x100 (regs c) :=
  ⟨_, _, _, _, rfl, rfl, rfl, rfl, by decide +kernel⟩

end Verif.Props
