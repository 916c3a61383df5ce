import Verif.Props.Chip8.Frame
import Verif.Props.Chip8.RunWorld
import Verif.Props.Chip8.Reference

/-!
# C86: what no executed instruction touches stays (CHIP-8)
-/

namespace Verif.Props.Chip8

open Verif Verif.Chip8 Verif.Spec.Chip8
open Verif.Mos (FlatRam flatRam_coherent writeAll_coherent)
open Verif.Spec.Mos (Mem BusView writeAll Coherent upd)

/-- From `c` to `c'` the machine executes the instructions in `tr`, each given with the state before
it, one `run(1)` after the other, in whatever world. -/
inductive Executes {B R : Type} [Addressable B] (b : Build) :
    Chip8 B R → List (Chip8 B R × Opcode) → Chip8 B R → Prop
  | nil (c : Chip8 B R) : Executes b c [] c
  | cons {c c' c'' : Chip8 B R} {op : Opcode} {e : Env} {tr : List (Chip8 B R × Opcode)} :
      At b c op → StepsTo b e c c' → Executes b c' tr c'' → Executes b c ((c, op) :: tr) c''

section
variable {B R : Type} [Addressable B] {b : Build} {I : B → Mem → Prop} {c c' : Chip8 B R} {mem : Mem}
  {tr : List (Chip8 B R × Opcode)}

theorem executes_append {c'' : Chip8 B R} {tr' : List (Chip8 B R × Opcode)} (h : Executes b c tr c')
    (h' : Executes b c' tr' c'') : Executes b c (tr ++ tr') c'' := by
  induction h with
  | nil => exact h'
  | cons h1 h2 _ ih => exact .cons h1 h2 (ih h')

/-- C86: the instructions of every run that does not panic are such an execution, however the clock
moves. -/
theorem C86_chip8_run {env : Nat → Env} {n : Nat}
    (h : run b env c n = .ok (.ready c')) : ∃ tr, Executes b c tr c' ∧ tr.length = n := by
  obtain ⟨env', -, hr⟩ := C59_world_partial (b := b) (env := env) (c := c)
  rw [(hr n).2] at h
  clear hr
  induction h with
  | zero c => exact ⟨[], .nil c, rfl⟩
  | @succ n c c₁ c₂ h1 h2 ih =>
    obtain ⟨tr, h3, h4⟩ := ih
    cases hf : fetch b c₁ with
    | error p =>
      exfalso
      unfold StepsTo at h2
      rw [run_one] at h2
      unfold next at h2
      rw [hf] at h2
      cases h2
    | ok op => exact ⟨tr ++ [(c₁, op)], executes_append h3 (.cons hf h2 (.nil _)), by simp [h4]⟩

theorem executes_induction (hI : Coherent b I) (h : Executes b c tr c') (hm : I c.address_space mem)
    (hw : WellFormed c) {P : Chip8 B R → Mem → Prop} (h0 : P c mem)
    (hs : ∀ d d' e op mem, (d, op) ∈ tr → I d.address_space mem → WellFormed d → At b d op →
      StepsTo b e d d' → P d mem → ∀ mem', I d'.address_space mem' →
      (∀ a, (∀ n k, memSpan op = some n → k ≤ n → a ≠ iPlus d k) → mem' a = mem a) → P d' mem') :
    ∃ mem', I c'.address_space mem' ∧ WellFormed c' ∧ P c' mem' := by
  induction h generalizing mem with
  | nil c => exact ⟨mem, hm, hw, h0⟩
  | @cons c d e op env tr h1 h2 _ ih =>
    obtain ⟨mem', hm', hk⟩ := C61_memory hI hm h1 hw h2
    exact ih hm' (wellFormed_step h1 (hI _ _ hm).1 hw h2)
      (hs _ _ _ _ _ (by simp) hm hw h1 h2 h0 _ hm' hk)
      fun d d' e op m hop => hs d d' e op m (by simp [hop])

/-- C86: a register keeps its value through every execution none of whose instructions is documented
to change it. -/
theorem C86_chip8_registers (hI : Coherent b I) (hm : I c.address_space mem) (hw : WellFormed c)
    (h : Executes b c tr c') (r : GpRegisters) (hr : ∀ p ∈ tr, ¬ ChangesV p.2 r) : V c' r = V c r := by
  obtain ⟨-, -, -, e⟩ := executes_induction hI h hm hw (P := fun d _ => V d r = V c r) rfl
    fun d d' env op m hop hd hwf hat hst e _ _ _ =>
      (C61_registers hat (hI _ _ hd).1 hwf hst r (hr _ hop)).trans e
  exact e

/-- C86: likewise I, the timers, the stack, the stack pointer and the display; the pending key and
the generator never change. -/
theorem C86_chip8_state (hI : Coherent b I) (hm : I c.address_space mem) (hw : WellFormed c)
    (h : Executes b c tr c') :
    ((∀ p ∈ tr, ¬ ChangesI p.2) → c'.i = c.i) ∧
    ((∀ p ∈ tr, ¬ ChangesDelay p.2) → c'.dt = c.dt) ∧
    ((∀ p ∈ tr, ¬ ChangesSound p.2) → c'.st = c.st) ∧
    ((∀ p ∈ tr, ¬ ChangesStack p.2) → c'.stack = c.stack) ∧
    ((∀ p ∈ tr, ¬ MovesSp p.2) → c'.sp = c.sp) ∧
    ((∀ p ∈ tr, ¬ ChangesDisplay p.2) → c'.display = c.display) ∧
    c'.interrupt = c.interrupt ∧ c'.rng = c.rng := by
  refine ⟨fun hp => ?_, fun hp => ?_, fun hp => ?_, fun hp => ?_, fun hp => ?_, fun hp => ?_, ?_⟩
  · obtain ⟨-, -, -, e⟩ := executes_induction hI h hm hw (P := fun d _ => d.i = c.i) rfl
      fun d d' env op m hop hd hwf hat hst e _ _ _ =>
        (C61_i hat (hI _ _ hd).1 hwf hst (hp _ hop)).trans e
    exact e
  · obtain ⟨-, -, -, e⟩ := executes_induction hI h hm hw (P := fun d _ => d.dt = c.dt) rfl
      fun d d' env op m hop hd hwf hat hst e _ _ _ =>
        (C61_delay hat (hI _ _ hd).1 hwf hst (hp _ hop)).trans e
    exact e
  · obtain ⟨-, -, -, e⟩ := executes_induction hI h hm hw (P := fun d _ => d.st = c.st) rfl
      fun d d' env op m hop hd hwf hat hst e _ _ _ =>
        (C61_sound hat (hI _ _ hd).1 hwf hst (hp _ hop)).trans e
    exact e
  · obtain ⟨-, -, -, e⟩ := executes_induction hI h hm hw (P := fun d _ => d.stack = c.stack) rfl
      fun d d' env op m hop hd hwf hat hst e _ _ _ =>
        (C61_stack hat (hI _ _ hd).1 hwf hst (hp _ hop)).trans e
    exact e
  · obtain ⟨-, -, -, e⟩ := executes_induction hI h hm hw (P := fun d _ => d.sp = c.sp) rfl
      fun d d' env op m hop hd hwf hat hst e _ _ _ =>
        (C61_sp hat (hI _ _ hd).1 hwf hst (hp _ hop)).trans e
    exact e
  · obtain ⟨-, -, -, e⟩ := executes_induction hI h hm hw (P := fun d _ => d.display = c.display) rfl
      fun d d' env op m hop hd hwf hat hst e _ _ _ =>
        (C61_display hat (hI _ _ hd).1 hwf hst (hp _ hop)).trans e
    exact e
  · obtain ⟨-, -, -, e⟩ := executes_induction hI h hm hw
      (P := fun d _ => d.interrupt = c.interrupt ∧ d.rng = c.rng) ⟨rfl, rfl⟩
      fun d d' env op m hop hd hwf hat hst e _ _ _ => by
        obtain ⟨h1, h2⟩ := C61_key_rng hat (hI _ _ hd).1 hwf hst
        exact ⟨h1.trans e.1, h2.trans e.2⟩
    exact e

/-- C86: a byte of memory keeps its value unless an Fx33 or Fx55 is executed with the byte in its span
I .. I + 2, or I .. I + x. -/
theorem C86_chip8_memory (hI : Coherent b I) (hm : I c.address_space mem) (hw : WellFormed c)
    (h : Executes b c tr c') :
    ∃ mem', I c'.address_space mem' ∧
      ∀ a, (∀ p ∈ tr, ∀ n k, memSpan p.2 = some n → k ≤ n → a ≠ iPlus p.1 k) → mem' a = mem a := by
  obtain ⟨mem', h1, -, h2⟩ := executes_induction hI h hm hw
    (P := fun _ m => ∀ a, (∀ p ∈ tr, ∀ n k, memSpan p.2 = some n → k ≤ n → a ≠ iPlus p.1 k) →
      m a = mem a) (fun _ _ => rfl)
    fun d d' env op m hop hd hwf hat hst e m' hm' hk a ha =>
      (hk a fun n k h1 h2 => ha _ hop n k h1 h2).trans (e a ha)
  exact ⟨mem', h1, h2⟩

/-- C86: an execution without Fx33 and Fx55 leaves the whole bus, devices included, as it is. -/
theorem C86_chip8_bus (hv : BusView b c.address_space mem) (hw : WellFormed c)
    (h : Executes b c tr c') (hs : ∀ p ∈ tr, memSpan p.2 = none) :
    c'.address_space = c.address_space := by
  induction h with
  | nil c => rfl
  | @cons c d e op env tr h1 h2 _ ih =>
    have hd := C61_bus h1 hv hw h2 (hs (c, op) (by simp))
    rw [ih (by rw [hd]; exact hv) (wellFormed_step h1 hv hw h2) fun p hp => hs p (by simp [hp]), hd]

/-- C86: the 16 cells of the stack are all there ever is. -/
theorem C86_chip8_wellFormed (hI : Coherent b I) (hm : I c.address_space mem) (hw : WellFormed c)
    (h : Executes b c tr c') : WellFormed c' := by
  obtain ⟨-, -, h1, -⟩ := executes_induction hI h hm hw (P := fun _ _ => True) trivial
    fun _ _ _ _ _ _ _ _ _ _ _ _ _ _ => trivial
  exact h1

end

/-! ### A concrete case -/

/-- The state after one instruction (for examples). -/
def after1 {B R : Type} [Addressable B] (b : Build) (e : Env) (c : Chip8 B R) : Chip8 B R :=
  match run b (fun _ => e) c 1 with
  | .ok s => s.unwrap
  | .error _ => c

theorem steps_after1 {B R : Type} [Addressable B] {b : Build} {e : Env} {c : Chip8 B R}
    (h : (run b (fun _ => e) c 1).isOk = true) : StepsTo b e c (after1 b e c) := by
  unfold StepsTo after1
  rw [run_one] at h ⊢
  cases h1 : next b e c with
  | error p => rw [h1] at h; cases h
  | ok x =>
    rw [h1, Res.ok_bind] at h
    rw [Res.ok_bind]
    cases h2 : executeAll b e.foldAt c x.1 with
    | error p => rw [h2] at h; cases h
    | ok d => rfl

/-- `LD V1, 123; LD I, 0x300; LD B, V1`. -/
def bcdProgram : Chip8 FlatRam Unit :=
  { sample with i := 0, address_space := ⟨fun a =>
      if a = 0x200 then 0x61 else if a = 0x201 then 123 else if a = 0x202 then 0xa3 else
      if a = 0x204 then 0xf1 else if a = 0x205 then 0x33 else 0⟩ }

/-- `bcdProgram` after one instruction. -/
def bcd1 : Chip8 FlatRam Unit := after1 .debug ⟨0, 0, 0, 0⟩ bcdProgram

/-- `bcdProgram` after two instructions. -/
def bcd2 : Chip8 FlatRam Unit := after1 .debug ⟨0, 0, 0, 0⟩ bcd1

theorem bcd_at1 : At .debug bcd1 (.LdAbsolute ⟨0x300⟩) :=
  (C40_fetch (view _ _) (by decide +kernel) _).2
    ⟨by show (0x300 : Word).toNat < 0x1000; decide, by decide +kernel⟩

theorem bcd_at2 : At .debug bcd2 (.LdBcd .V1) :=
  (C40_fetch (view _ _) (by decide +kernel) _).2 ⟨trivial, by decide +kernel⟩

/-- It changes V1, I and the three bytes at 0x300; V2, the timers, the stack, the display and all
other bytes must stay. -/
example : ∃ tr c', Executes .debug bcdProgram tr c' ∧ WellFormed bcdProgram ∧ tr.length = 3 ∧
    (∀ p ∈ tr, ¬ ChangesV p.2 .V2) ∧ (∀ p ∈ tr, ¬ ChangesDelay p.2) ∧
    (∀ p ∈ tr, ¬ ChangesDisplay p.2) ∧ V c' .V1 = 123 ∧ c'.i = 0x300 ∧
    c'.address_space.mem 0x302 = 3 := by
  refine ⟨[(bcdProgram, .LdImmediate .V1 123), (bcd1, .LdAbsolute ⟨0x300⟩), (bcd2, .LdBcd .V1)],
    after1 .debug ⟨0, 0, 0, 0⟩ bcd2,
    .cons (c' := bcd1) (e := ⟨0, 0, 0, 0⟩) rfl (steps_after1 (by decide +kernel))
      (.cons (c' := bcd2) (e := ⟨0, 0, 0, 0⟩) bcd_at1 (steps_after1 (by decide +kernel))
        (.cons (e := ⟨0, 0, 0, 0⟩) bcd_at2 (steps_after1 (by decide +kernel)) (.nil _))), ⟨rfl, rfl⟩, rfl, ?_, ?_, ?_,
    by decide +kernel, by decide +kernel, by decide +kernel⟩ <;>
  · intro p hp
    simp only [List.mem_cons, List.not_mem_nil, or_false] at hp
    rcases hp with rfl | rfl | rfl <;> simp [ChangesV, ChangesDelay, ChangesDisplay]

end Verif.Props.Chip8
