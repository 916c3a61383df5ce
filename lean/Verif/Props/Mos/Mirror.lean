import Verif.Proofs.MosMirror
import Verif.Props.Mos.Uses

/-!
# C118: X and Y can be exchanged

A program in which every instruction with an index register is replaced by its counterpart for the other
register does the same with X and Y exchanged, in the same cycles. This is false of the code because of
`DEY`, which sets the flags from X - 1; it holds for all other instructions, and for `DEX` and `DEY` exactly
when X - 1 and Y - 1 give the same flags.
-/

namespace Verif.Props

open Verif Verif.Mos Verif.Spec Verif.Spec.Mos

section
variable {B B' : Type} [Addressable B] [Addressable B'] {b : Build} {I : B → Mem → Prop}
  {I' : B' → Mem → Prop} {W : Word → Prop} {O : Word → Prop} {c c' : Mos6502 B}
  {e : Mos6502 B'} {mem mem' : Mem} {i : InstructionVariant} {ops : Operations}
  {tr : List (Mos6502 B × InstructionVariant)}

/-- What C118 claims for one instruction: the machine with the counterparts and X and Y exchanged executes an
instruction as well, in as many cycles, and after it X and Y are exchanged again and nothing else differs. -/
def C118_statement : Prop :=
  ∀ (B B' : Type) [Addressable B] [Addressable B'] (b : Build) (I : B → Mem → Prop) (I' : B' → Mem → Prop)
    (W O : Word → Prop) (c c' : Mos6502 B) (e : Mos6502 B') (mem mem' : Mem) (i : InstructionVariant)
    (ops : Operations), Coherent b I → Coherent b I' → AcceptsAt b I' W → I c.address_map mem →
    I' e.address_map mem' → Mirrored O mem mem' → regs e = exchanged (regs c) → OwnCode O (regs c) mem i →
    (∀ a ∈ writable (regs c) mem (view i).1 (view i).2, W a) → At b c i → next b c = .ok (ops, c') →
    ∃ ops' e' m m', next b e = .ok (ops', e') ∧ ops'.cycles = ops.cycles ∧
      regs e' = exchanged (regs c') ∧ I c'.address_map m ∧ I' e'.address_map m' ∧ Mirrored O m m'

theorem mirrored_upd (h : Mirrored O mem mem') {a : Word} (ha : ¬O a) (v : Byte) :
    Mirrored O (upd mem a v) (upd mem' a v) where
  code x hx := by
    unfold upd
    rw [if_neg, if_neg]
    · exact h.code x hx
    all_goals rintro rfl; exact ha hx
  rest x hx := by
    unfold upd
    rw [h.rest x hx]

theorem mirrored_writes (ws : List (Word × Byte)) : ∀ {mem mem' : Mem}, Mirrored O mem mem' →
    (∀ w ∈ ws, ¬O w.1) →
    Mirrored O (ws.foldl (fun m w => upd m w.1 w.2) mem) (ws.foldl (fun m w => upd m w.1 w.2) mem') := by
  induction ws with
  | nil => intro _ _ h _; exact h
  | cons w ws ih =>
    intro mem mem' h hw
    exact ih (mirrored_upd h (hw w (by simp)) _) fun x hx => hw x (by simp [hx])

/-- The other machine is at the counterpart, which exists. -/
theorem C118_fetch (hv : BusView b c.address_map mem) (hv' : BusView b e.address_map mem')
    (h : Mirrored O mem mem') (hpc : e.pc = c.pc) (ho : OwnCode O (regs c) mem i) (hat : At b c i) :
    paired i = true ∧ At b e (mirror i) := by
  have h1 := fetch_eq (cpu := c) hv
  rw [show fetch b c = .ok i from hat] at h1
  unfold At
  rw [fetch_eq (cpu := e) hv', hpc]
  split at h1
  · cases h1
  · next hov =>
    rw [if_neg hov]
    split at h1
    · next j hj =>
      cases h1
      have word_add : ∀ k : Nat, word (c.pc.toNat + k) = c.pc + BitVec.ofNat 16 k := by
        intro k
        apply BitVec.eq_of_toNat_eq
        simp only [word, BitVec.toNat_ofNat, BitVec.toNat_add]
        omega
      have key : ∀ k, 1 ≤ k → k < size (view i).2 →
          mem' (c.pc + BitVec.ofNat 16 k) = mem (c.pc + BitVec.ofNat 16 k) := by
        intro k h1 h2
        rw [← word_add]
        exact h.rest _ (ho.operand k h1 h2)
      obtain ⟨hpd, hpm⟩ := parse_counterpart hj (h.code _ ho.first)
      refine ⟨hpd, ?_⟩
      have hpm' : Isa.parseInstruction (mem' c.pc) (mem' (c.pc + 1)) (mem' (c.pc + 2)) = some (mirror i) :=
        parse_own hpm rfl (fun hk => key 1 (by omega) (by rw [size_mirror] at hk; exact hk))
          (fun hk => key 2 (by omega) (by rw [size_mirror] at hk; exact hk))
      rw [hpm']
    · cases h1

/-- C118 for one instruction, under the condition on `DEX` and `DEY`. Missing for the full property: these two
when X - 1 and Y - 1 differ in sign or in being zero, where the code breaks it (`C118_decrements_partial`). -/
theorem C118_step_partial (hI : Coherent b I) (hI' : Coherent b I') (hacc : AcceptsAt b I' W)
    (hm : I c.address_map mem) (hm' : I' e.address_map mem') (h : Mirrored O mem mem')
    (hr : regs e = exchanged (regs c)) (ho : OwnCode O (regs c) mem i)
    (hW : ∀ a ∈ writable (regs c) mem (view i).1 (view i).2, W a)
    (hd : DecrementsAlike (regs c) (view i).1) (hat : At b c i) (hn : next b c = .ok (ops, c')) :
    ∃ ops' e' m m', next b e = .ok (ops', e') ∧ ops'.cycles = ops.cycles ∧
      regs e' = exchanged (regs c') ∧ I c'.address_map m ∧ I' e'.address_map m' ∧ Mirrored O m m' := by
  obtain ⟨hpd, hat'⟩ := C118_fetch (hI _ _ hm).1 (hI' _ _ hm').1 h (congrArg Regs.pc hr) ho hat
  obtain ⟨hok, hops, hregs, hws⟩ := step_inv hat (hI _ _ hm).1 (mn := (view i).1) (am := (view i).2) rfl hn
  have hag : ∀ a, .mem a ∈ dataUses (regs c) mem i → mem' a = mem a := fun a ha => h.rest a (ho.data a ha)
  obtain ⟨g1, g2⟩ := effect_mem hag
  have hok' := addrOk_mirror hpd (addrOk_mem hag hok)
  have heff := effect_mirror (r := regs c) (mem := mem') hpd hd
  have hcyc := cycles_mirror (r := regs c) (mem := mem') hpd
  rw [g2] at heff
  rw [g1] at hcyc
  rw [← hr] at heff hcyc hok'
  have hwr : ∀ w ∈ (codeEffect (regs c) mem (view i).1 (view i).2).writes,
      w.1 ∈ writable (regs c) mem (view i).1 (view i).2 := fun w hw => by
    rw [← codeEffect_writes]; exact List.mem_map_of_mem hw
  obtain ⟨bus, hbus⟩ := writeAll_accepted hI' hacc (codeEffect (regs c) mem (view i).1 (view i).2).writes hm'
    fun w hw => hW _ (hwr w hw)
  have hst := step_ok hat' (hI' _ _ hm').1 hok'
  rw [heff] at hst
  simp only [hbus] at hst
  refine ⟨_, _, _, _, hst, by rw [hcyc, hops], ?_, writeAll_coherent hI _ hm hws,
    writeAll_coherent hI' _ hm' hbus, mirrored_writes _ h fun w hw => ho.written _ (hwr w hw)⟩
  rw [hregs]; rfl

/-- C118 for instructions executed in a number of cycles. -/
theorem C118_instructions_partial {l : List Operations} (hI : Coherent b I)
    (hI' : Coherent b I') (hacc : AcceptsAt b I' W) (hm : I c.address_map mem)
    (hm' : I' e.address_map mem') (h : Mirrored O mem mem') (hr : regs e = exchanged (regs c))
    (hx : Instructions b c l c') {n : Nat} (hn : totalCycles l ≤ n)
    (hin : ∀ l c1 i m, Instructions b c l c1 → totalCycles l < n → At b c1 i → I c1.address_map m →
      OwnCode O (regs c1) m i ∧ DecrementsAlike (regs c1) (view i).1 ∧
      ∀ a ∈ writable (regs c1) m (view i).1 (view i).2, W a) :
    ∃ l' e' m m', Instructions b e l' e' ∧ l'.map Operations.cycles = l.map Operations.cycles ∧
      regs e' = exchanged (regs c') ∧ I c'.address_map m ∧ I' e'.address_map m' ∧ Mirrored O m m' := by
  induction hx generalizing e mem mem' n with
  | nil c => exact ⟨[], e, mem, mem', .nil e, rfl, hr, hm, hm', h⟩
  | @cons c c1 c2 ops l hx hl ih =>
    cases hf : fetch b c with
    | error p =>
      exfalso
      unfold next at hx
      rw [hf] at hx
      cases hx
    | ok i =>
      have hpos := (next_inv hx).1
      rw [totalCycles_cons] at hn
      obtain ⟨q1, q2, q3⟩ := hin [] c i mem (.nil c) (by show 0 < n; omega) hf hm
      obtain ⟨ops', e1, m, m', h1, h2, h3, h4, h5, h6⟩ :=
        C118_step_partial hI hI' hacc hm hm' h hr q1 q3 q2 hf hx
      obtain ⟨l', e2, m2, m2', r1, r2, r3⟩ := ih h4 h5 h6 h3 (n := n - ops.cycles) (by omega)
        fun l d1 j m hl ht hj hm => hin (ops :: l) d1 j m (.cons hx hl)
          (by rw [totalCycles_cons]; omega) hj hm
      exact ⟨ops' :: l', e2, m2, m2', .cons h1 r1, by simp [h2, r2], r3⟩

theorem totalCycles_eq {l l' : List Operations} (h : l'.map Operations.cycles = l.map Operations.cycles) :
    totalCycles l' = totalCycles l := by
  unfold totalCycles; rw [h]

/-- C118 for `run` and any number of cycles: the two machines run in step, and afterwards X and Y are exchanged
and all else is the same. -/
theorem C118_run_partial {n : Nat} {s : StepState (Mos6502 B)} (hI : Coherent b I)
    (hI' : Coherent b I') (hacc : AcceptsAt b I' W) (hm : I c.address_map mem)
    (hm' : I' e.address_map mem') (h : Mirrored O mem mem') (hr : regs e = exchanged (regs c))
    (hx : run b c n = .ok s)
    (hin : ∀ l c1 i m, Instructions b c l c1 → totalCycles l < n → At b c1 i → I c1.address_map m →
      OwnCode O (regs c1) m i ∧ DecrementsAlike (regs c1) (view i).1 ∧
      ∀ a ∈ writable (regs c1) m (view i).1 (view i).2, W a) :
    ∃ s' m m', run b e n = .ok s' ∧ regs s'.unwrap = exchanged (regs s.unwrap) ∧
      I s.unwrap.address_map m ∧ I' s'.unwrap.address_map m' ∧ Mirrored O m m' := by
  rw [run_eq] at hx
  rcases runLoop_cases (b := b) n c with ⟨l, c', h1, h2, h3, h4⟩ | ⟨l, c', p, h1, h2, h3, h4⟩
  · rw [h4] at hx
    simp only [Except.map, Except.ok.injEq] at hx
    subst hx
    obtain ⟨l', e', m, m', q1, q2, q3, q4, q5, q6⟩ :=
      C118_instructions_partial hI hI' hacc hm hm' h hr h1 h2 hin
    have q2 := totalCycles_eq q2
    refine ⟨.ready e', m, m', C12_run_eq q1 (by omega) ?_, q3, q4, q5, q6⟩
    rcases h3 with h3 | ⟨ops, c'', hx, hlt⟩
    · exact .inl (by omega)
    · by_cases ht : totalCycles l = n
      · exact .inl (by omega)
      cases hf : fetch b c' with
      | error p =>
        exfalso
        unfold next at hx
        rw [hf] at hx
        cases hx
      | ok i =>
        obtain ⟨r1, r2, r3⟩ := hin l c' i m h1 (by omega) hf q4
        obtain ⟨ops', e1, -, -, g1, g2, -⟩ := C118_step_partial hI hI' hacc q4 q5 q6 q3 r1 r3 r2 hf hx
        exact .inr ⟨ops', e1, g1, by rw [g2]; omega⟩
  · rw [h4] at hx
    cases hx

/-- C118: for `DEX` and `DEY` the condition is exact. The counterpart leaves the exchanged registers, flags
included, iff X - 1 and Y - 1 give the same flags. -/
theorem C118_decrements_partial {ops' : Operations} {e' : Mos6502 B'} (hv : BusView b c.address_map mem)
    (hv' : BusView b e.address_map mem') (hr : regs e = exchanged (regs c))
    (hi : (i = .DexImplied ∧ At b e .DeyImplied) ∨ (i = .DeyImplied ∧ At b e .DexImplied)) (hat : At b c i)
    (hn : next b c = .ok (ops, c')) (hn' : next b e = .ok (ops', e')) :
    e'.x = c'.y ∧ e'.y = c'.x ∧ e'.acc = c'.acc ∧ e'.sp = c'.sp ∧ e'.pc = c'.pc ∧
      (regs e' = exchanged (regs c') ↔ setNZ c.ps (c.x - 1) = setNZ c.ps (c.y - 1)) := by
  have hx : e.x = c.y := congrArg Regs.x hr
  have hy : e.y = c.x := congrArg Regs.y hr
  have ha : e.acc = c.acc := congrArg Regs.a hr
  have hs : e.sp = c.sp := congrArg Regs.sp hr
  have hp : e.pc = c.pc := congrArg Regs.pc hr
  have hf : e.ps = c.ps := congrArg Regs.p hr
  rcases hi with ⟨rfl, hat'⟩ | ⟨rfl, hat'⟩ <;>
  · obtain ⟨-, -, h1, -⟩ := step_inv hat hv rfl hn
    obtain ⟨-, -, h2, -⟩ := step_inv hat' hv' rfl hn'
    simp only [codeEffect, regs, Regs.mk.injEq, nextPc] at h1 h2
    obtain ⟨a1, a2, a3, a4, a5, a6⟩ := h1
    obtain ⟨b1, b2, b3, b4, b5, b6⟩ := h2
    refine ⟨by rw [b2, a3, hx], by rw [b3, a2, hy], by rw [b1, a1, ha], by rw [b4, a4, hs],
      by rw [b5, a5, hp], ?_⟩
    simp only [regs, exchanged, Regs.mk.injEq]
    rw [b1, b2, b3, b4, b5, b6, a1, a2, a3, a4, a5, a6, ha, hs, hp, hx, hy, hf]
    exact ⟨fun h => h.2.2.2.2.2.symm, fun h => ⟨rfl, rfl, rfl, rfl, rfl, h.symm⟩⟩

end

/-! ### Witnesses -/

theorem mirrored_codeAt {pc : Word} {o o' o2 o3 : Byte} (h : counterpart o = some o') :
    Mirrored (· = pc) (codeAt pc o o2 o3 fun _ => 0) (codeAt pc o' o2 o3 fun _ => 0) where
  code a ha := by subst ha; simp [codeAt, h]
  rest a ha := by simp [codeAt, ha]

/-- C118 is false: `DEX` with X = 1 and Y = 2 sets the zero flag; `DEY` with Y = 1 and X = 2 does not. -/
theorem C118_dey : ¬C118_statement := by
  intro h
  obtain ⟨ops', e', m, m', h1, -, h3, -⟩ := h FlatRam FlatRam .debug (fun d m => d.mem = m)
    (fun d m => d.mem = m) (fun _ => True) (· = sampleRegs.pc)
    (machine { sampleRegs with x := 1, y := 2 } 0xca 0 0)
    _
    (machine { sampleRegs with x := 2, y := 1 } 0x88 0 0) _ _ .DexImplied _
    (flatRam_coherent _) (flatRam_coherent _) (flat_acceptsAt _ _) rfl rfl
    (mirrored_codeAt (by decide)) rfl
    ⟨rfl, fun k h1 h2 => absurd h2 (by simp [view, size]; omega), fun a ha => by
        simp [dataUses, view, modeUses, pointerUses, operandUses, mnemonicUses] at ha,
      fun a ha => by simp [writable, view, writesMem, isStore, isRmw] at ha⟩
    (fun _ _ => trivial) (machine_at _ _ _ _ _ _ (by decide) rfl) rfl
  cases h1
  exact absurd h3 (by decide +kernel)

/-- `INX`, `STA $0300,X`, `JMP $0200`. -/
def fillX : List Byte := [0xe8, 0x9d, 0x00, 0x03, 0x4c, 0x00, 0x02]

/-- `INY`, `STA $0300,Y`, `JMP $0200`. -/
def fillY : List Byte := [0xc8, 0x99, 0x00, 0x03, 0x4c, 0x00, 0x02]

/-- The places of the opcodes of `fillX`. -/
def fillOpcodes (a : Word) : Prop := a = 0x200 ∨ a = 0x201 ∨ a = 0x204

/-- A machine in the course of `fillX`. -/
structure Filling (c : Mos6502 FlatRam) : Prop where
  pc : fillOpcodes c.pc
  code : ∀ k : Fin 7, c.address_map.mem (0x200 + BitVec.ofNat 16 k.1) = fillX[k.1]

theorem filling_at {c : Mos6502 FlatRam} (h : Filling c) :
    (c.pc = 0x200 ∧ At .debug c .InxImplied) ∨ (c.pc = 0x201 ∧ At .debug c (.StaAbsoluteIndexedWithX 0x300)) ∨
      (c.pc = 0x204 ∧ At .debug c (.JmpAbsolute 0x200)) := by
  have h0 : c.address_map.mem 0x200 = 0xe8 := h.code 0
  have h1 : c.address_map.mem 0x201 = 0x9d := h.code 1
  have h2 : c.address_map.mem 0x202 = 0x00 := h.code 2
  have h3 : c.address_map.mem 0x203 = 0x03 := h.code 3
  have h4 : c.address_map.mem 0x204 = 0x4c := h.code 4
  have h5 : c.address_map.mem 0x205 = 0x00 := h.code 5
  have h6 : c.address_map.mem 0x206 = 0x02 := h.code 6
  rcases h.pc with hp | hp | hp
  · refine .inl ⟨hp, ?_⟩
    unfold At
    rw [fetch_eq (mem := c.address_map.mem) (fun _ => rfl), hp, if_neg (by decide), h0]
    rfl
  · refine .inr (.inl ⟨hp, ?_⟩)
    unfold At
    rw [fetch_eq (mem := c.address_map.mem) (fun _ => rfl), hp, if_neg (by decide), h1,
      show (0x201 : Word) + 1 = 0x202 from rfl, show (0x201 : Word) + 2 = 0x203 from rfl, h2, h3]
    rfl
  · refine .inr (.inr ⟨hp, ?_⟩)
    unfold At
    rw [fetch_eq (mem := c.address_map.mem) (fun _ => rfl), hp, if_neg (by decide), h4,
      show (0x204 : Word) + 1 = 0x205 from rfl, show (0x204 : Word) + 2 = 0x206 from rfl, h5, h6]
    rfl

/-- The bytes `fillX` writes are not its own. -/
theorem fill_target (x : Byte) (k : Nat) (hk : k < 7) :
    (0x200 : Word) + BitVec.ofNat 16 k ≠ word ((0x300 : Word).toNat + x.toNat) := by
  have := x.isLt
  intro h
  have h := congrArg BitVec.toNat h
  have e1 : (0x200 : Word).toNat = 512 := rfl
  have e2 : (0x300 : Word).toNat = 768 := rfl
  simp only [word, BitVec.toNat_add, BitVec.toNat_ofNat, e1, e2] at h
  omega

theorem filling_step {c c' : Mos6502 FlatRam} {ops : Operations} (h : Filling c)
    (hn : next .debug c = .ok (ops, c')) : Filling c' := by
  rcases filling_at h with ⟨hp, hat⟩ | ⟨hp, hat⟩ | ⟨hp, hat⟩
  all_goals
    obtain ⟨hr, hm⟩ := step_mem (flatRam_coherent .debug) (mem := c.address_map.mem) rfl ⟨hat, _, hn⟩
    have hpc := congrArg Regs.pc hr
    simp only [view, codeEffect, List.foldl_nil, List.foldl_cons, ea, regs, nextPc, hp] at hpc hm
  · exact ⟨.inr (.inl hpc), fun k => by rw [hm]; exact h.code k⟩
  · refine ⟨.inr (.inr hpc), fun k => ?_⟩
    rw [hm, upd, if_neg (fill_target _ _ k.2)]
    exact h.code k
  · exact ⟨.inl hpc, fun k => by rw [hm]; exact h.code k⟩

theorem filling_instructions {c c' : Mos6502 FlatRam} {l : List Operations} (hx : Instructions .debug c l c')
    (h : Filling c) : Filling c' := by
  induction hx with
  | nil c => exact h
  | cons hx _ ih => exact ih (filling_step h hx)

theorem filling_own {c : Mos6502 FlatRam} {i : InstructionVariant} (h : Filling c) (hat : At .debug c i) :
    OwnCode fillOpcodes (regs c) c.address_map.mem i ∧ DecrementsAlike (regs c) (view i).1 := by
  have hne : ∀ x : Byte, ¬fillOpcodes (word ((0x300 : Word).toNat + x.toNat)) := by
    rintro x (h | h | h)
    · exact fill_target x 0 (by decide) h.symm
    · exact fill_target x 1 (by decide) h.symm
    · exact fill_target x 4 (by decide) h.symm
  have eq : ∀ {j}, At .debug c j → i = j := fun hj =>
    Except.ok.inj ((show fetch _ _ = _ from hat).symm.trans hj)
  rcases filling_at h with ⟨hp, hj⟩ | ⟨hp, hj⟩ | ⟨hp, hj⟩
  all_goals
    obtain rfl := eq hj
    refine ⟨⟨h.pc, fun k h1 h2 => ?_, fun a ha => ?_, fun a ha => ?_⟩, by rintro (h | h) <;> cases h⟩
  · simp only [view, size] at h2; omega
  · simp [dataUses, view, modeUses, pointerUses, operandUses, mnemonicUses] at ha
  · simp [writable, view, writesMem, isStore, isRmw] at ha
  · simp only [view, size] at h2
    have hk : k = 1 ∨ k = 2 := by omega
    rw [show (regs c).pc = 0x201 from hp]
    unfold fillOpcodes
    rcases hk with rfl | rfl <;> decide
  · simp [dataUses, view, modeUses, pointerUses, operandUses, mnemonicUses] at ha
  · simp [writable, view, writesMem, isStore, isRmw, ea] at ha
    subst ha
    exact hne _
  · simp only [view, size] at h2
    have hk : k = 1 ∨ k = 2 := by omega
    rw [show (regs c).pc = 0x204 from hp]
    unfold fillOpcodes
    rcases hk with rfl | rfl <;> decide
  · simp [dataUses, view, modeUses, pointerUses, operandUses, mnemonicUses] at ha
  · simp [writable, view, writesMem, isStore, isRmw] at ha

/-- The hypotheses of `C118_run_partial`: two programs that fill a page with A for ever, one counting in X and one
in Y, run in step for any number of cycles. -/
example (n : Nat) (s : StepState (Mos6502 FlatRam)) (h : run .debug (loadedAt 0x200 fillX) n = .ok s) :
    ∃ s', run .debug (withRegs (exchanged { sampleRegs with pc := 0x200 })
        (⟨loaded 0x200 fillY fun _ => 0⟩ : FlatRam)) n = .ok s' ∧
      s'.unwrap.y = s.unwrap.x ∧ s'.unwrap.pc = s.unwrap.pc ∧
      ∀ a, 0x300 ≤ a.toNat → s'.unwrap.address_map.mem a = s.unwrap.address_map.mem a := by
  have start : Filling (loadedAt 0x200 fillX) := ⟨.inl rfl, by decide +kernel⟩
  obtain ⟨s', m, m', h1, h2, h3, h4, h5⟩ := C118_run_partial (W := fun _ => True) (O := fillOpcodes)
    (c := loadedAt 0x200 fillX) (mem := loaded 0x200 fillX fun _ => 0)
    (e := withRegs (exchanged { sampleRegs with pc := 0x200 }) (⟨loaded 0x200 fillY fun _ => 0⟩ : FlatRam))
    (mem' := loaded 0x200 fillY fun _ => 0) (flatRam_coherent .debug) (flatRam_coherent .debug)
    (flat_acceptsAt .debug _) rfl rfl
    ⟨by rintro a (rfl | rfl | rfl) <;> decide +kernel, fun a ha => by
      unfold loaded
      by_cases hr : 0x200 ≤ a.toNat ∧ a.toNat < 0x207
      · have : a.toNat = 0x202 ∨ a.toNat = 0x203 ∨ a.toNat = 0x205 ∨ a.toNat = 0x206 := by
          have e0 : a.toNat ≠ 0x200 := fun e => ha (.inl (BitVec.eq_of_toNat_eq e))
          have e1 : a.toNat ≠ 0x201 := fun e => ha (.inr (.inl (BitVec.eq_of_toNat_eq e)))
          have e4 : a.toNat ≠ 0x204 := fun e => ha (.inr (.inr (BitVec.eq_of_toNat_eq e)))
          omega
        rcases this with e | e | e | e <;> simp [e, fillX, fillY]
      · rw [if_neg (by simpa [fillY] using hr), if_neg (by simpa [fillX] using hr)]⟩ rfl h
    (fun l c1 i m a1 _ a3 a4 => by
      have hf := filling_instructions a1 start
      obtain ⟨q1, q2⟩ := filling_own hf a3
      rw [show m = c1.address_map.mem from a4.symm]
      exact ⟨q1, q2, fun _ _ => trivial⟩)
  refine ⟨s', h1, congrArg Regs.y h2, congrArg Regs.pc h2, fun a ha => ?_⟩
  rw [show s'.unwrap.address_map.mem = m' from h4, show s.unwrap.address_map.mem = m from h3]
  refine h5.rest a ?_
  rintro (rfl | rfl | rfl) <;> exact absurd ha (by decide)

/-- The hypotheses of `C118_decrements_partial`, and both outcomes: with X = 5 and Y = 7 the flags agree, with X = 1
and Y = 2 they do not. -/
example : ∃ ops ops' c e, next .debug (machine { sampleRegs with x := 5, y := 7 } 0xca 0 0) = .ok (ops, c) ∧
    next .debug (machine { sampleRegs with x := 7, y := 5 } 0x88 0 0) = .ok (ops', e) ∧
    regs e = exchanged (regs c) := by
  refine ⟨_, _, _, _, rfl, rfl, ?_⟩
  exact ((C118_decrements_partial (i := .DexImplied) (b := .debug)
    (c := machine { sampleRegs with x := 5, y := 7 } 0xca 0 0)
    (e := machine { sampleRegs with x := 7, y := 5 } 0x88 0 0)
    (machine_view _ _ _ _ _ _) (machine_view _ _ _ _ _ _) rfl
    (.inl ⟨rfl, machine_at _ _ _ _ _ _ (by decide) rfl⟩) (machine_at _ _ _ _ _ _ (by decide) rfl)
    rfl rfl).2.2.2.2.2).2 (by decide +kernel)

end Verif.Props
