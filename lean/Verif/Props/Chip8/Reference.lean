import Verif.Proofs.Chip8Ref
import Verif.Props.Chip8.Panic
import Verif.Props.Chip8.Control

/-!
# CHIP-8: the emulator against a complete reference interpreter (C72 – C74)
-/

namespace Verif.Props.Chip8

open Verif Verif.Chip8 Verif.Spec.Chip8
open Verif.Mos (FlatRam flatRam_coherent writeAll_coherent)
open Verif.Spec.Mos (Mem BusView writeAll Coherent upd)

section
variable {B R : Type} [Addressable B] {b : Build} {e : Env} {cpu c : Chip8 B R} {mem : Mem}
  {I : B → Mem → Prop} {s s' : Vip} {env : Nat → Env}

/-! ## C72 One instruction -/

/-- What C72 claims: from an agreeing state, `run(1)` leads to the state of the reference machine. -/
def C72_statement : Prop :=
  ∀ (B R : Type) [Addressable B] (b : Build) (I : B → Mem → Prop) (e : Env) (cpu : Chip8 B R)
    (s s' : Vip), Coherent b I → AcceptsLow b I → WellFormed cpu → Agrees I cpu s →
    s.step (worldOf e) = some s' → ∃ c, StepsTo b e cpu c ∧ Agrees I c s'

/-- The instruction of the reference machine is the one the emulator finds. -/
theorem ref_at (hI : Coherent b I) (h : Agrees I cpu s) {w : World}
    (hs : s.step w = some s') :
    ∃ op, Valid op ∧ At b cpu op ∧ encode op = s.word ∧ execWord w s (encode op) = some s' := by
  unfold Vip.step at hs
  by_cases hpc : s.pc.toNat + 1 < 4096
  · rw [if_pos hpc] at hs
    have hlt : s.word < 65536 := by
      unfold Vip.word wordAt
      have := (s.mem s.pc).isLt
      have := (s.mem (s.pc + 1)).isLt
      omega
    obtain ⟨op, hv, he⟩ := ref_op hlt hs
    refine ⟨op, hv, ?_, he, by rw [he]; exact hs⟩
    refine (C40_fetch (hI _ _ h.mem).1 (by rw [h.pc]; omega) op).2 ⟨hv, ?_⟩
    rw [h.pc, he]
    rfl
  · rw [if_neg hpc] at hs
    cases hs

theorem wellFormed_step {op : Opcode} (hat : At b cpu op) (hv : BusView b cpu.address_space mem)
    (hw : WellFormed cpu) (hst : StepsTo b e cpu c) : WellFormed c := by
  by_cases hc : ChangesStack op
  · cases op <;> simp only [ChangesStack] at hc
    obtain ⟨-, h8, h9⟩ := C61_stack_cell hat hv hw hst (cpu.sp.inner.toNat % 16 + 1) (by omega)
    exact ⟨h8.trans hw.1, h9.trans hw.2⟩
  · unfold WellFormed
    rw [C61_stack hat hv hw hst hc]
    exact hw

/-- What holds: the emulator agrees after the instruction exactly if the instruction is `Faithful`:
no use of VF (so none of 8xy4 – 8xyE and Dxyn), Fx0A only with a key held, Fx07 only while the two
clocks agree, Bnnn only below 4096, RET only if the cell at the stack pointer holds the address to
return to. -/
theorem C72_partial (hI : Coherent b I) (hacc : AcceptsLow b I) (hw : WellFormed cpu)
    (h : Agrees I cpu s) (hs : s.step (worldOf e) = some s') :
    (∃ c, StepsTo b e cpu c ∧ Agrees I c s') ↔ s.FaithfulAt (worldOf e) (returnTarget cpu) := by
  obtain ⟨op, hval, hat, he, hex⟩ := ref_at hI h hs
  have hv := (hI _ _ h.mem).1
  have key := core_iff (b := b) hval (Shows.of h) hex
  have hF : s.FaithfulAt (worldOf e) (returnTarget cpu) =
      FaithfulWord (worldOf e) s (returnTarget cpu) (encode op) := by rw [he]; rfl
  rw [hF]
  constructor
  · rintro ⟨c, hst, ha⟩
    obtain ⟨hr, bus, -, rfl⟩ := step_inv hat hv hw hst
    have ha := Shows.of ha
    exact key.1 ⟨hr, ha.v, ha.i, ha.pc, trivial, ha.screen, ha.dt, ha.st, ha.key⟩
  · intro hf
    obtain ⟨hr, hsh⟩ := key.2 hf
    obtain ⟨hmem, hlow⟩ := core_mem hval (Shows.of h) hex hr.1
    obtain ⟨bus', mem', hwa, -⟩ := writeAll_at (W := fun a => a.toNat < 4096) hI hacc
      (writes cpu op) hlow h.mem
    have hm := writeAll_coherent hI _ h.mem hwa
    rw [hmem] at hm
    have hst := step_ok (e := e) hat hr (fun _ => hv) (fun _ => hw)
    unfold StepWrites at hst
    rw [hwa] at hst
    exact ⟨_, hst, hsh.v, hsh.i, hsh.pc, hm, hsh.screen, hsh.dt, hsh.st, hsh.key⟩

/-! ## C73 Whole executions -/

/-- The instruction at the program counter is faithful, whatever the emulator's stack holds (so it is
not RET). -/
def Followed (w : World) (s : Vip) : Prop := ∀ ret, s.FaithfulAt w ret

/-- The return address of the reference machine, in terms of the emulator's stack: two more than what
the emulator would return to. -/
def StackBehind (cpu : Chip8 B R) (s : Vip) : Prop :=
  ∀ a, s.stack.head? = some a → a = returnTarget cpu + 2

theorem head_step (hI : Coherent b I) (hw : WellFormed cpu) (h : Agrees I cpu s)
    (hs : s.step (worldOf e) = some s') (hst : StepsTo b e cpu c) (hf : Followed (worldOf e) s)
    (hb : StackBehind cpu s) : StackBehind c s' := by
  obtain ⟨op, hval, hat, he, hex⟩ := ref_at hI h hs
  have hv := (hI _ _ h.mem).1
  obtain ⟨hr, -⟩ := step_inv hat hv hw hst
  have hcell : ¬ ChangesStack op → ¬ MovesSp op → returnTarget c = returnTarget cpu := by
    intro hc hsp
    unfold returnTarget
    rw [C61_stack hat hv hw hst hc, C61_sp hat hv hw hst hsp]
  cases op
  case Ret =>
    exfalso
    have F : Fields 0x00EE 0 0 0xE 0xE 0xEE 0x0EE := by constructor <;> rfl
    have h0 : ∀ ret, Faithful (worldOf e) s ret 0 0 0xE 0xE 0xEE 0x0EE := by
      intro ret
      rw [← faithfulWord_eq F]
      have := hf ret
      unfold Vip.FaithfulAt at this
      rw [← he] at this
      exact this
    have h1 := h0 0 rfl
    have h2 := h0 1 rfl
    rw [h1] at h2
    exact absurd (Option.some.inj h2) (by decide)
  case Call a =>
    rw [show encode (.Call a) = nnn 2 a from rfl, execWord_eq (fields_nnn 2 a hval)] at hex
    simp only [Vip.exec] at hex
    split at hex
    · obtain rfl := Option.some.inj hex
      intro x hx
      obtain rfl := Option.some.inj hx
      have hlen := hw.2
      obtain ⟨-, bus, -, rfl⟩ := step_inv hat hv hw hst
      show _ = (cpu.stack.inner.set (cpu.sp.inner.toNat % 16) cpu.pc)[cpu.sp.inner.toNat % 16]?.getD 0 + 2
      rw [List.getElem?_set_self (by omega), Option.getD_some, h.pc]
      apply BitVec.eq_of_toNat_eq
      rw [BitVec.toNat_ofNat, BitVec.toNat_add]
      rfl
    · cases hex
  case Sys a =>
    rw [show encode (.Sys a) = nnn 0 a from rfl, execWord_eq (fields_nnn 0 a hval.1)] at hex
    simp only [Vip.exec, if_neg hval.2.1, if_neg hval.2.2, Option.some.injEq] at hex
    subst hex
    intro x hx
    rw [hb x hx, hcell (fun h => h) (fun h => h)]
  all_goals
    have hstk : s'.stack = s.stack := by
      first
        | exact absurd trivial hr.1
        | (obtain rfl := Option.some.inj hex; rfl)
        | (simp only [encode] at hex
           first
             | rw [execWord_eq (fields_nnn _ _ hval)] at hex
             | rw [execWord_eq (fields_nnn _ _ hval.1)] at hex
             | rw [execWord_eq (fields_xkk _ _ _)] at hex
             | rw [execWord_eq (fields_xyn _ _ _ _ (by omega))] at hex
           first
             | (obtain rfl := Option.some.inj hex; rfl)
             | (simp only [Vip.exec, Vip.misc] at hex
                (repeat' split at hex) <;> first
                  | (obtain rfl := Option.some.inj hex; rfl)
                  | cases hex))
    intro x hx
    rw [hstk] at hx
    rw [hb x hx, hcell (fun h => h) (fun h => h)]

theorem follow (hI : Coherent b I) (hacc : AcceptsLow b I) (hw : WellFormed cpu)
    (h : Agrees I cpu s) (hb : StackBehind cpu s) (n : Nat) :
    ∀ {s' : Vip}, s.steps (fun k => worldOf (env k)) n = some s' →
    (∀ j t, j < n → s.steps (fun k => worldOf (env k)) j = some t → Followed (worldOf (env j)) t) →
    ∃ c, Steps b env n cpu c ∧ Agrees I c s' ∧ WellFormed c ∧ StackBehind c s' := by
  induction n with
  | zero =>
    intro s' hs _
    obtain rfl := Option.some.inj hs
    exact ⟨cpu, .zero _, h, hw, hb⟩
  | succ n ih =>
    intro s' hs hf
    simp only [Vip.steps] at hs
    cases ht : s.steps (fun k => worldOf (env k)) n with
    | none => rw [ht] at hs; cases hs
    | some t =>
      rw [ht] at hs
      obtain ⟨c, h1, h2, h3, h4⟩ := ih ht fun j t hj => hf j t (by omega)
      have hfo := hf n t (by omega) ht
      obtain ⟨c', h5, h6⟩ := (C72_partial hI hacc h3 h2 hs).2 (hfo _)
      obtain ⟨op, -, hat, -, -⟩ := ref_at hI h2 hs
      exact ⟨c', .succ h1 h5, h6, wellFormed_step hat (hI _ _ h2.mem).1 h3 h5,
        head_step hI h3 h2 hs h5 hfo h4⟩

/-- As long as the instructions of the reference machine are faithful (RET is not), `run(n)` leads to
the state of the reference machine, for every `n`; here the clock does not move within one
instruction. -/
theorem C73_run (hI : Coherent b I) (hacc : AcceptsLow b I) (hw : WellFormed cpu)
    (h : Agrees I cpu s) (hst : s.stack = []) (hc : ∀ k, (env k).iterAt = (env k).foldAt) {n : Nat}
    (hs : s.steps (fun k => worldOf (env k)) n = some s')
    (hf : ∀ j t, j < n → s.steps (fun k => worldOf (env k)) j = some t →
      Followed (worldOf (env j)) t) :
    ∃ c, run b env cpu n = .ok (.ready c) ∧ Agrees I c s' := by
  obtain ⟨c, h1, h2, -⟩ := follow hI hacc hw h (fun a ha => by rw [hst] at ha; cases ha) n hs hf
  exact ⟨c, (C59_steps_partial hc n c).2 h1, h2⟩

theorem generate_foldAt (t : Instant) (op : Opcode) :
    generate b { e with foldAt := t } cpu op = generate b e cpu op := by
  cases op <;> rfl

theorem next_foldAt (t : Instant) : next b { e with foldAt := t } cpu = next b e cpu := by
  unfold next
  simp only [generate_foldAt]

theorem iterates_foldAt (f : Nat → Instant) (n k : Nat) (c : Chip8 B R) :
    iterates b (fun k => { env k with foldAt := f k }) n k c = iterates b env n k c := by
  induction n generalizing k c with
  | zero => rfl
  | succ n ih =>
    unfold iterates
    rw [next_foldAt]
    cases next b (env k) c with
    | error p => rfl
    | ok x => simp only [Res.ok_bind]; exact ih _ _

/-- The same for every clock: the final state agrees with the reference machine except for the
instants at which the timers were last written, which `run` takes from the clock twice. -/
theorem C73_any_clock (hI : Coherent b I) (hacc : AcceptsLow b I) (hw : WellFormed cpu)
    (h : Agrees I cpu s) (hst : s.stack = []) {n : Nat}
    (hs : s.steps (fun k => ⟨(env k).readAt, (env k).iterAt, (env k).rand⟩) n = some s')
    (hf : ∀ j t, j < n → s.steps (fun k => ⟨(env k).readAt, (env k).iterAt, (env k).rand⟩) j = some t →
      Followed ⟨(env j).readAt, (env j).iterAt, (env j).rand⟩ t) :
    ∃ c td ts, run b env cpu n = .ok (.ready c) ∧
      Agrees I { c with dt := { c.dt with written_at := td }, st := { c.st with written_at := ts } }
        s' := by
  obtain ⟨it, h1, h2⟩ := C73_run (b := b) (env := fun k => { env k with foldAt := (env k).iterAt })
    hI hacc hw h hst (fun _ => rfl) hs hf
  rw [run_eq_iterates (fun _ => rfl), iterates_foldAt] at h1
  rcases C59_iterator_agrees_partial (b := b) (env := env) (cpu := cpu) n with
    ⟨p, h3, -⟩ | ⟨it', c, h3, h4, td, ts, rfl⟩
  · rw [h3] at h1; cases h1
  · rw [h3] at h1
    cases h1
    exact ⟨_, it.dt.written_at, it.st.written_at, h4, h2⟩

/-- The first return of an execution always goes wrong, however the clock moves: after the subroutine
calls and other faithful instructions before it, RET leads two bytes before where the reference machine
returns to. -/
theorem C73_first_return (hI : Coherent b I) (hacc : AcceptsLow b I) (hw : WellFormed cpu)
    (h : Agrees I cpu s) (hst : s.stack = []) {n : Nat} {t : Vip}
    (ht : s.steps (fun k => ⟨(env k).readAt, (env k).iterAt, (env k).rand⟩) n = some t)
    (hf : ∀ j t, j < n → s.steps (fun k => ⟨(env k).readAt, (env k).iterAt, (env k).rand⟩) j = some t →
      Followed ⟨(env j).readAt, (env j).iterAt, (env j).rand⟩ t) (hret : t.word = 0x00EE)
    (hs : t.step ⟨(env n).readAt, (env n).iterAt, (env n).rand⟩ = some s') :
    ∃ c, run b env cpu (n + 1) = .ok (.ready c) ∧ c.pc + 2 = s'.pc := by
  let env' : Nat → Env := fun k => { env k with foldAt := (env k).iterAt }
  obtain ⟨c₀, h3, h4, h5, h6⟩ := follow (b := b) (env := env')
    hI hacc hw h (fun a ha => by rw [hst] at ha; cases ha) n ht hf
  obtain ⟨op, hval, hat, he, hex⟩ := ref_at hI h4 hs
  have hop : op = .Ret := by
    rw [hret] at he
    exact C40_unambiguous _ _ hval trivial (he.trans rfl)
  subst hop
  have h7 := step_to (b := b) (e := env' n) hat ⟨fun h => h, fun h => h.2⟩
    (mem := s.mem) (fun h => by obtain ⟨_, h⟩ := h; cases h) (fun _ => h5) rfl
  have h8 := (C59_steps_partial (env := env') (fun _ => rfl) (n + 1) _).2 (.succ h3 h7)
  rw [run_eq_iterates (fun _ => rfl), iterates_foldAt] at h8
  rcases C59_iterator_agrees_partial (b := b) (env := env) (cpu := cpu) (n + 1) with
    ⟨p, h9, -⟩ | ⟨it, c, h9, h10, td, ts, rfl⟩
  · rw [h9] at h8; cases h8
  · rw [h9] at h8
    cases h8
    refine ⟨_, h10, ?_⟩
    show returnTarget c₀ + 2 = s'.pc
    have F : Fields 0x00EE 0 0 0xE 0xE 0xEE 0x0EE := by constructor <;> rfl
    rw [show encode .Ret = 0x00EE from rfl, execWord_eq F] at hex
    simp only [Vip.exec] at hex
    cases hl : t.stack with
    | nil => rw [hl] at hex; cases hex
    | cons a l =>
      rw [hl] at hex
      cases hex
      exact (h6 a (by rw [hl]; rfl)).symm

end

/-! ### The full C72 is false -/

/-- The reference machine in the state of an emulated machine with 64K of RAM, VF being 0. -/
def vipOf (cpu : Chip8 FlatRam Unit) : Vip where
  v := fun k => cpu.gp_registers[k]?.getD 0
  i := cpu.i
  pc := cpu.pc
  stack := []
  mem := cpu.address_space.mem
  screen := lit cpu.display
  dt := ⟨cpu.dt.inner, cpu.dt.written_at⟩
  st := ⟨cpu.st.inner, cpu.st.written_at⟩
  key := cpu.interrupt.map fun | .KeyPress key => keyNum key

theorem vipOf_agrees (cpu : Chip8 FlatRam Unit) :
    Agrees (fun (d : FlatRam) mem => d.mem = mem) cpu (vipOf cpu) := by
  refine ⟨fun _ _ => rfl, rfl, rfl, rfl, fun _ _ _ _ => rfl, rfl, rfl, fun n => ?_⟩
  show Pressed cpu n ↔ (cpu.interrupt.map fun | .KeyPress key => keyNum key) = some n
  cases hk : cpu.interrupt with
  | none => exact ⟨fun h => absurd h (pressed_none hk n), fun h => by cases h⟩
  | some k =>
    obtain ⟨key⟩ := k
    rw [pressed_some hk]
    simp

theorem flat_low (b : Build) : AcceptsLow b (fun (d : FlatRam) mem => d.mem = mem) :=
  fun _ _ _ _ _ _ => ⟨_, _, rfl⟩

theorem step_word {s : Vip} {w : World} {n : Nat} (hpc : s.pc.toNat + 1 < 4096) (hw : s.word = n) :
    s.step w = execWord w s n := by
  unfold Vip.step
  rw [if_pos hpc, hw]
  rfl

/-- `8014` (ADD V0, V1): the reference machine adds, the emulator panics. -/
theorem C72_refuted : ¬ C72_statement := by
  intro h
  have hI := flatRam_coherent .debug
  have hag := vipOf_agrees (place sample (.AddVxVy .V0 .V1))
  have hst : (vipOf (place sample (.AddVxVy .V0 .V1))).step (worldOf ⟨0, 0, 0, 0⟩) = some
      (((vipOf (place sample (.AddVxVy .V0 .V1))).setF 0 0x0f true).on 2) := by
    rw [step_word (n := 0x8014) (by decide) (by decide)]
    rfl
  obtain ⟨c, h1, h2⟩ := h FlatRam Unit .debug _ ⟨0, 0, 0, 0⟩ _ _ _ hI (flat_low _) ⟨rfl, rfl⟩ hag hst
  have := (C72_partial hI (flat_low _) ⟨rfl, rfl⟩ hag hst).1 ⟨c, h1, h2⟩
  have hw : (vipOf (place sample (.AddVxVy .V0 .V1))).word = 0x8014 := by decide
  unfold Vip.FaithfulAt at this
  rw [hw] at this
  have : (4 : Nat) < 4 := this.1
  omega

/-- `7105` (ADD V1, 5) with V1 = 0xfe: both machines step to V1 = 3. -/
example : ∃ s' c, (vipOf (place sample (.AddImmediate .V1 5))).step (worldOf ⟨0, 0, 0, 0⟩) = some s' ∧
    StepsTo .debug ⟨0, 0, 0, 0⟩ (place sample (.AddImmediate .V1 5)) c ∧
    Agrees (fun (d : FlatRam) mem => d.mem = mem) c s' ∧ s'.v 1 = 3 := by
  have hst : (vipOf (place sample (.AddImmediate .V1 5))).step (worldOf ⟨0, 0, 0, 0⟩) = some
      (((vipOf (place sample (.AddImmediate .V1 5))).set 1 3).on 2) := by
    rw [step_word (n := 0x7105) (by decide) (by decide)]
    rfl
  obtain ⟨c, h1, h2⟩ := (C72_partial (flatRam_coherent .debug) (flat_low _) ⟨rfl, rfl⟩
    (vipOf_agrees (place sample (.AddImmediate .V1 5))) hst).2 (by
      have hw : (vipOf (place sample (.AddImmediate .V1 5))).word = 0x7105 := by decide
      unfold Vip.FaithfulAt
      rw [hw]
      exact (by decide : (1 : Nat) ≠ 15))
  exact ⟨_, c, hst, h1, h2, rfl⟩

/-! ### Programs that meet the hypotheses of C73 -/

/-- `6005` (LD V0, 5), `2206` (CALL 0x206), then at 0x206 `7103` (ADD V1, 3), `1206` (JP 0x206): a
subroutine that loops for ever. -/
def loopMem : Mem := fun a =>
  ([0x60, 0x05, 0x22, 0x06, 0, 0, 0x71, 0x03, 0x12, 0x06][a.toNat - 0x200]?).getD 0

/-- The machine with this program. -/
def loopCpu : Chip8 FlatRam Unit := { sample with address_space := ⟨loopMem⟩ }

theorem loop_inv (w : Nat → World) (n : Nat) : ∃ t, (vipOf loopCpu).steps w n = some t ∧
    t.mem = loopMem ∧ t.stack.length ≤ 1 ∧
    ((t.pc = 0x200 ∧ t.stack = []) ∨ (t.pc = 0x202 ∧ t.stack = []) ∨ t.pc = 0x206 ∨ t.pc = 0x208) := by
  induction n with
  | zero => exact ⟨vipOf loopCpu, rfl, by simp only [vipOf, loopCpu], Nat.zero_le _, .inl ⟨rfl, rfl⟩⟩
  | succ n ih =>
    obtain ⟨t, h1, h2, h3, h4⟩ := ih
    have hstep : ∀ t', t.step (w n) = some t' → (vipOf loopCpu).steps w (n + 1) = some t' := by
      intro t' h
      simp only [Vip.steps, h1, Option.bind_some, h]
    have hword : t.word = wordAt loopMem t.pc := by unfold Vip.word; rw [h2]
    rcases h4 with ⟨h4, h5⟩ | ⟨h4, h5⟩ | h4 | h4
    · have hw : t.word = 0x6005 := by rw [hword, h4]; decide
      refine ⟨(t.set 0 5).on 2, hstep _ ?_, h2, h3, .inr (.inl ⟨?_, h5⟩)⟩
      · unfold Vip.step
        rw [if_pos (by rw [h4]; decide), hw]
        rfl
      · show BitVec.ofNat 16 (t.pc.toNat + 2) = _
        rw [h4]; rfl
    · have hw : t.word = 0x2206 := by rw [hword, h4]; decide
      refine ⟨{ t with pc := 0x206, stack := BitVec.ofNat 16 (t.pc.toNat + 2) :: t.stack },
        hstep _ ?_, h2, by simp [h5], .inr (.inr (.inl rfl))⟩
      unfold Vip.step
      rw [if_pos (by rw [h4]; decide), hw]
      show (if t.stack.length < 16 then _ else _) = _
      rw [if_pos (by omega)]
      rfl
    · have hw : t.word = 0x7103 := by rw [hword, h4]; decide
      refine ⟨(t.set 1 (BitVec.ofNat 8 ((t.v 1).toNat + 3))).on 2, hstep _ ?_, h2, h3,
        .inr (.inr (.inr ?_))⟩
      · unfold Vip.step
        rw [if_pos (by rw [h4]; decide), hw]
        rfl
      · show BitVec.ofNat 16 (t.pc.toNat + 2) = _
        rw [h4]; rfl
    · have hw : t.word = 0x1206 := by rw [hword, h4]; decide
      refine ⟨{ t with pc := 0x206 }, hstep _ ?_, h2, h3, .inr (.inr (.inl rfl))⟩
      unfold Vip.step
      rw [if_pos (by rw [h4]; decide), hw]
      rfl

/-- The hypotheses of `C73_run` and `C73_any_clock` hold for it, for every number of instructions. -/
example (w : Nat → World) (n : Nat) : (∃ s', (vipOf loopCpu).steps w n = some s') ∧
    ∀ j t, j < n → (vipOf loopCpu).steps w j = some t → Followed (w j) t := by
  obtain ⟨s', h, -⟩ := loop_inv w n
  refine ⟨⟨s', h⟩, fun j t _ ht => ?_⟩
  obtain ⟨t', h1, h2, -, h4⟩ := loop_inv w j
  rw [ht] at h1
  obtain rfl := Option.some.inj h1
  have hword : t.word = wordAt loopMem t.pc := by unfold Vip.word; rw [h2]
  intro ret
  unfold Vip.FaithfulAt
  rcases h4 with ⟨h4, -⟩ | ⟨h4, -⟩ | h4 | h4
  · have hw : t.word = 0x6005 := by rw [hword, h4]; decide
    rw [hw]; exact (by decide : (0 : Nat) ≠ 15)
  · have hw : t.word = 0x2206 := by rw [hword, h4]; decide
    rw [hw]; exact trivial
  · have hw : t.word = 0x7103 := by rw [hword, h4]; decide
    rw [hw]; exact (by decide : (1 : Nat) ≠ 15)
  · have hw : t.word = 0x1206 := by rw [hword, h4]; decide
    rw [hw]; exact trivial

theorem steps_one (w : Nat → World) (s : Vip) : s.steps w 1 = s.step (w 0) := rfl

theorem callStep (w : World) (s : Vip) (hs : s.stack = []) (hp : s.pc = 0x200) :
    execWord w s 0x2204 = some { s with pc := 0x204, stack := [0x202] } := by
  show (if s.stack.length < 16 then _ else _) = _
  rw [if_pos (by rw [hs]; decide), hs, hp]
  rfl

/-- `2204` (CALL 0x204), then at 0x204 `00EE` (RET): the hypotheses of `C73_first_return` hold for
n = 1. -/
def retCpu : Chip8 FlatRam Unit := { sample with address_space := ⟨fun a =>
  ([0x22, 0x04, 0, 0, 0x00, 0xEE][a.toNat - 0x200]?).getD 0⟩ }

example (w : Nat → World) : ∃ t s', (vipOf retCpu).steps w 1 = some t ∧
    (∀ j t, j < 1 → (vipOf retCpu).steps w j = some t → Followed (w j) t) ∧ t.word = 0x00EE ∧
    t.step (w 1) = some s' ∧ s'.pc = 0x202 := by
  have hw : (vipOf retCpu).word = 0x2204 := by decide
  have h1 := callStep (w 0) (vipOf retCpu) (by simp only [vipOf]) (by decide)
  rw [← step_word (by decide) hw] at h1
  replace h1 : (vipOf retCpu).steps w 1 = _ := (steps_one w _).trans h1
  refine ⟨_, { vipOf retCpu with pc := 0x202 }, h1, ?_, by decide, ?_, rfl⟩
  case refine_2 =>
    rw [step_word (n := 0x00EE) (by decide) (by decide)]
    simp only [execWord, Vip.exec]
    rfl
  intro j t hj ht ret
  obtain rfl : j = 0 := by omega
  obtain rfl := Option.some.inj ht
  unfold Vip.FaithfulAt
  rw [hw]
  exact trivial

/-! ## C74 Timers at sixty per second -/

/-- What C74 claims: a timer loses one sixty times a second. -/
def C74_statement : Prop :=
  ∀ (b : Build) (t now : Instant) (v : Byte), (ClockDecrementing.withValue t v).read b now =
    .ok (BitVec.ofNat 8 (v.toNat - (now - t) * 60 / 1000000000))

/-- One second after writing 60 the timer shows 59 instead of 0. -/
theorem C74_one_per_second : ¬ C74_statement := by
  intro h
  have := h .debug 0 1000000000 60
  rw [timer_read] at this
  revert this
  decide

/-- Exactly when the timer is right: within the first sixtieth of a second, and when it has run out
even at one per second. -/
theorem C74_partial (b : Build) (t now : Instant) (v : Byte) :
    (ClockDecrementing.withValue t v).read b now =
      .ok (BitVec.ofNat 8 (v.toNat - (now - t) * 60 / 1000000000)) ↔
    (now - t) * 60 < 1000000000 ∨ v.toNat ≤ (now - t) / 1000000000 := by
  rw [timer_read, Except.ok.injEq]
  exact timer_iff ⟨v, t⟩ now

/-- The timer is sixty times slower: what it should show after `d` it shows after `60 d`. -/
theorem C74_slower_partial (b : Build) (t d : Instant) (v : Byte) :
    (ClockDecrementing.withValue t v).read b (t + 60 * d) =
      .ok (BitVec.ofNat 8 (v.toNat - d * 60 / 1000000000)) := by
  rw [timer_read]
  unfold timerAt ClockDecrementing.withValue
  have e : @HSub.hSub Nat Nat Nat _ (t + 60 * d) t = d * 60 := by
    rw [Nat.add_sub_cancel_left, Nat.mul_comm]
  simp only
  rw [e]

/-- 60, a quarter of a second after it was written: 45 is due, 60 is shown; fifteen seconds after:
45 is shown. -/
example : (ClockDecrementing.withValue 0 60).read .debug 250000000 = .ok 60 ∧
    60 - 250000000 * 60 / 1000000000 = 45 ∧
    (ClockDecrementing.withValue 0 60).read .debug 15000000000 = .ok 45 := ⟨rfl, rfl, rfl⟩

end Verif.Props.Chip8
