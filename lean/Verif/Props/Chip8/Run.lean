import Verif.Proofs.Chip8Effect
import Verif.Proofs.Chip8Sample

/-!
# CHIP-8: running several instructions (C59)

`run` executes the microcode of each instruction twice: on the copy of the CPU inside the iterator,
from which the next instruction is generated, and on the CPU it returns. Both copies see the same
microcode, but a timer write takes the instant from the clock, and the clock moves between the two
executions. So the two copies differ in the instants at which the timers were written, and splitting
a run can change what a program reads from the delay timer: C59 is false, and true of every run in
which the clock does not move between the two executions of a timer write.
-/

namespace Verif.Props.Chip8

open Verif Verif.Chip8 Verif.Spec.Chip8
open Verif.Mos (FlatRam)
open Verif.Spec.Mos (Mem BusView writeAll)

variable {B R : Type} [Addressable B] {b : Build} {env : Nat → Env} {cpu : Chip8 B R}

/-- The clock never goes back: the reads and writes of timers happen in program order. -/
def ClockMoves (env : Nat → Env) : Prop :=
  ∀ k, (env k).readAt ≤ (env k).iterAt ∧ (env k).iterAt ≤ (env k).foldAt ∧
    (env k).foldAt ≤ (env (k + 1)).readAt

/-- `n` single steps, the `k`-th in the world `env k`. -/
inductive Steps (b : Build) (env : Nat → Env) : Nat → Chip8 B R → Chip8 B R → Prop
  | zero (c : Chip8 B R) : Steps b env 0 c c
  | succ {n : Nat} {c c' c'' : Chip8 B R} :
      Steps b env n c c' → StepsTo b (env n) c' c'' → Steps b env (n + 1) c c''

/-- The number of microcode batches is the number of cycles: a run that stops early does not
exist, it is `n` calls of the iterator. -/
def iterates (b : Build) (env : Nat → Env) : Nat → Nat → Chip8 B R → Res (Chip8 B R)
  | 0, _, it => .ok it
  | n + 1, k, it => next b (env k) it >>= fun r => iterates b env n (k + 1) r.2

/-- C59 in full: a run is single steps, and it can be split. -/
def C59_statement : Prop :=
  ∀ (B R : Type) [Addressable B] (b : Build) (env : Nat → Env) (c : Chip8 B R) (m n : Nat),
    ClockMoves env →
    (∀ c', run b env c n = .ok (.ready c') ↔ Steps b env n c c') ∧
    ∀ c', run b env c m = .ok (.ready c') →
      run b env c (m + n) = run b (fun k => env (m + k)) c' n

/-! ### When the clock does not move within an instruction -/

theorem next_exec {c : Chip8 B R} {e : Env} {mcs : List Microcode} {it : Chip8 B R}
    (h : next b e c = .ok (mcs, it)) : executeAll b e.iterAt c mcs = .ok it := by
  unfold next at h
  cases h1 : fetch b c with
  | error p => rw [h1] at h; cases h
  | ok op =>
    rw [h1, Res.ok_bind] at h
    cases h2 : generate b e c op with
    | error p => rw [h2] at h; cases h
    | ok l =>
      rw [h2, Res.ok_bind] at h
      simp only at h
      cases h3 : executeAll b e.iterAt c (l ++ [.Inc16bitRegister .ProgramCounter 2]) with
      | error p => rw [h3] at h; cases h
      | ok c' =>
        rw [h3, Res.ok_bind] at h
        cases h
        exact h3

theorem loop_eq (hc : ∀ k, (env k).iterAt = (env k).foldAt) (n k : Nat) (c : Chip8 B R) :
    runLoop b env n k c c = iterates b env n k c := by
  induction n generalizing k c with
  | zero => rfl
  | succ n ih =>
    unfold runLoop iterates
    cases h : next b (env k) c with
    | error p => rfl
    | ok x =>
      obtain ⟨mcs, it⟩ := x
      simp only [Res.ok_bind]
      rw [← hc k, next_exec h, Res.ok_bind, ih]

theorem iterates_shift (m n k : Nat) (c : Chip8 B R) :
    iterates b env n (m + k) c = iterates b (fun k => env (m + k)) n k c := by
  induction n generalizing k c with
  | zero => rfl
  | succ n ih =>
    unfold iterates
    cases next b (env (m + k)) c with
    | error p => rfl
    | ok x =>
      simp only [Res.ok_bind]
      rw [Nat.add_assoc, ih]

theorem iterates_add (m n k : Nat) (c : Chip8 B R) :
    iterates b env (m + n) k c =
      (iterates b env m k c >>= fun c' => iterates b env n (k + m) c') := by
  induction m generalizing k c with
  | zero => simp [iterates]
  | succ m ih =>
    rw [Nat.succ_add]
    simp only [iterates]
    cases next b (env k) c with
    | error p => rfl
    | ok x =>
      simp only [Res.ok_bind]
      rw [ih, show k + 1 + m = k + (m + 1) by omega]

theorem run_eq_iterates (hc : ∀ k, (env k).iterAt = (env k).foldAt) (n : Nat) (c : Chip8 B R) :
    run b env c n = (iterates b env n 0 c).map .ready := by
  unfold run
  rw [loop_eq hc]
  cases iterates b env n 0 c <;> rfl

/-- If the clock does not move between the two executions of a timer write, a run can be split
anywhere. Missing for C59: the clock does move. -/
theorem C59_split_partial (hc : ∀ k, (env k).iterAt = (env k).foldAt) (m n : Nat)
    {c' : Chip8 B R} (h : run b env cpu m = .ok (.ready c')) :
    run b env cpu (m + n) = run b (fun k => env (m + k)) c' n := by
  rw [run_eq_iterates hc, iterates_add, run_eq_iterates (fun k => hc (m + k))]
  rw [run_eq_iterates hc] at h
  cases h1 : iterates b env m 0 cpu with
  | error p => rw [h1] at h; cases h
  | ok c =>
    rw [h1] at h
    cases h
    simp only [Res.ok_bind]
    have := iterates_shift (b := b) (env := env) m n 0 c'
    rw [Nat.add_zero] at this
    rw [Nat.zero_add, this]

/-- Likewise if the first part panics, so does the whole. -/
theorem C59_split_panic_partial (hc : ∀ k, (env k).iterAt = (env k).foldAt) (m n : Nat) {p : Panic}
    (h : run b env cpu m = .error p) : run b env cpu (m + n) = .error p := by
  rw [run_eq_iterates hc, iterates_add]
  rw [run_eq_iterates hc] at h
  cases h1 : iterates b env m 0 cpu with
  | error q =>
    rw [h1] at h
    cases h
    rfl
  | ok c => rw [h1] at h; cases h

/-- Under the same condition `run(n)` is `n` single steps. -/
theorem C59_steps_partial (hc : ∀ k, (env k).iterAt = (env k).foldAt) (n : Nat)
    (c' : Chip8 B R) : run b env cpu n = .ok (.ready c') ↔ Steps b env n cpu c' := by
  induction n generalizing c' with
  | zero =>
    constructor
    · intro h
      rw [run_eq_iterates hc] at h
      cases h
      exact .zero _
    · intro h
      cases h
      rfl
  | succ n ih =>
    have one : ∀ c : Chip8 B R, run b (fun k => env (n + k)) c 1 = run b (fun _ => env n) c 1 := by
      intro c
      unfold run runLoop runLoop
      rfl
    constructor
    · intro h
      cases h1 : run b env cpu n with
      | error p => rw [C59_split_panic_partial hc n 1 h1] at h; cases h
      | ok s =>
        rw [run_eq_iterates hc] at h1
        cases h2 : iterates b env n 0 cpu with
        | error p => rw [h2] at h1; cases h1
        | ok c₁ =>
          have h3 : run b env cpu n = .ok (.ready c₁) := by rw [run_eq_iterates hc, h2]; rfl
          refine .succ ((ih c₁).1 h3) ?_
          unfold StepsTo
          rw [← one, ← C59_split_partial hc n 1 h3]
          exact h
    · intro h
      cases h with
      | succ h1 h2 =>
        unfold StepsTo at h2
        rw [C59_split_partial hc n 1 ((ih _).2 h1), one]
        exact h2

/-! ### In general -/

/-- The same state, up to the instants at which the timers were written. -/
def SameButInstants (c c' : Chip8 B R) : Prop :=
  ∃ t u, c' = { c with dt := ⟨t, c.dt.inner⟩, st := ⟨u, c.st.inner⟩ }

/-- No microcode of an instruction increments a timer. -/
def NoTimerInc : Microcode → Prop
  | .Inc8bitRegister (.TimerRegisters _) _ => False
  | _ => True

omit [Addressable B] in
theorem same_refl (c : Chip8 B R) : SameButInstants c c := ⟨c.dt.written_at, c.st.written_at, rfl⟩

theorem same_exec {c c' : Chip8 B R} (h : SameButInstants c c') (t u : Instant) {mc : Microcode}
    (hm : NoTimerInc mc) :
    (∃ p, executeMut b t c mc = .error p ∧ executeMut b u c' mc = .error p) ∨
    ∃ d d', executeMut b t c mc = .ok d ∧ executeMut b u c' mc = .ok d' ∧ SameButInstants d d' := by
  obtain ⟨t₀, u₀, rfl⟩ := h
  cases mc with
  | WriteMemory a v =>
    simp only [executeMut, writeMemory]
    cases Addressable.write b c.address_space a v with
    | error p => exact .inl ⟨p, rfl, rfl⟩
    | ok x =>
      obtain ⟨r, am⟩ := x
      simp only [Res.ok_bind]
      cases unwrapResult r with
      | error p => exact .inl ⟨p, rfl, rfl⟩
      | ok y => exact .inr ⟨_, _, rfl, rfl, ⟨t₀, u₀, rfl⟩⟩
  | Write8bitRegister reg v =>
    cases reg with
    | GpRegisters g =>
      simp only [executeMut, write8]
      cases setGp c.gp_registers g v with
      | error p => exact .inl ⟨p, rfl, rfl⟩
      | ok y => exact .inr ⟨_, _, rfl, rfl, ⟨t₀, u₀, rfl⟩⟩
    | TimerRegisters r =>
      cases r with
      | Delay => exact .inr ⟨_, _, rfl, rfl, ⟨u, u₀, rfl⟩⟩
      | Sound => exact .inr ⟨_, _, rfl, rfl, ⟨t₀, u, rfl⟩⟩
  | Inc8bitRegister reg v =>
    cases reg with
    | GpRegisters g =>
      simp only [executeMut, inc8, readGpRegister]
      cases c.gp_registers[g.asUsize]? with
      | none => exact .inl ⟨_, rfl, rfl⟩
      | some w =>
        simp only [Res.ok_bind]
        cases setGp c.gp_registers g (w + v) with
        | error p => exact .inl ⟨p, rfl, rfl⟩
        | ok y => exact .inr ⟨_, _, rfl, rfl, ⟨t₀, u₀, rfl⟩⟩
    | TimerRegisters r => exact hm.elim
  | Dec8bitRegister reg v => exact .inr ⟨_, _, rfl, rfl, ⟨t₀, u₀, rfl⟩⟩
  | Write16bitRegister reg v => cases reg <;> exact .inr ⟨_, _, rfl, rfl, ⟨t₀, u₀, rfl⟩⟩
  | Inc16bitRegister reg v => cases reg <;> exact .inr ⟨_, _, rfl, rfl, ⟨t₀, u₀, rfl⟩⟩
  | Dec16bitRegister reg v => exact .inr ⟨_, _, rfl, rfl, ⟨t₀, u₀, rfl⟩⟩
  | PushStack v =>
    simp only [executeMut, pushStack]
    cases c.stack.write c.sp.read.toNat v with
    | error p => exact .inl ⟨p, rfl, rfl⟩
    | ok x =>
      obtain ⟨r, st⟩ := x
      simp only [Res.ok_bind]
      cases unwrapResult r with
      | error p => exact .inl ⟨p, rfl, rfl⟩
      | ok y => exact .inr ⟨_, _, rfl, rfl, ⟨t₀, u₀, rfl⟩⟩
  | PopStack v => exact .inr ⟨_, _, rfl, rfl, ⟨t₀, u₀, rfl⟩⟩
  | KeyPress k => exact .inr ⟨_, _, rfl, rfl, ⟨t₀, u₀, rfl⟩⟩
  | KeyRelease => exact .inr ⟨_, _, rfl, rfl, ⟨t₀, u₀, rfl⟩⟩
  | SetDisplayPixel xy v => exact .inr ⟨_, _, rfl, rfl, ⟨t₀, u₀, rfl⟩⟩
  | SetDisplayRange s e v =>
    simp only [executeMut, setDisplayRange_eq]
    cases rangeCounts b s e with
    | error p => exact .inl ⟨_, rfl, rfl⟩
    | ok n => exact .inr ⟨_, _, rfl, rfl, ⟨t₀, u₀, rfl⟩⟩

theorem same_execAll {c c' : Chip8 B R} (h : SameButInstants c c') (t u : Instant)
    {l : List Microcode} (hl : ∀ mc ∈ l, NoTimerInc mc) :
    (∃ p, executeAll b t c l = .error p ∧ executeAll b u c' l = .error p) ∨
    ∃ d d', executeAll b t c l = .ok d ∧ executeAll b u c' l = .ok d' ∧ SameButInstants d d' := by
  induction l generalizing c c' with
  | nil => exact .inr ⟨_, _, rfl, rfl, h⟩
  | cons mc l ih =>
    simp only [executeAll]
    rcases same_exec (b := b) h t u (hl mc (by simp)) with ⟨p, h1, h2⟩ | ⟨d, d', h1, h2, h3⟩
    · exact .inl ⟨p, by rw [h1]; rfl, by rw [h2]; rfl⟩
    · rw [h1, h2]
      exact ih h3 fun mc hm => hl mc (by simp [hm])

theorem mapM_mem {α β : Type} (f : α → Res β) (l : List α) {l' : List β} (h : l.mapM f = .ok l') :
    ∀ y ∈ l', ∃ x ∈ l, f x = .ok y := by
  induction l generalizing l' with
  | nil => cases h; simp
  | cons a l ih =>
    rw [List.mapM_cons] at h
    cases h1 : f a with
    | error p => rw [h1] at h; cases h
    | ok y =>
      rw [h1, Res.ok_bind] at h
      cases h2 : l.mapM f with
      | error p => rw [h2] at h; cases h
      | ok ys =>
        rw [h2, Res.ok_bind] at h
        cases h
        intro z hz
        rcases List.mem_cons.1 hz with rfl | hz
        · exact ⟨a, by simp, h1⟩
        · obtain ⟨x, hx, hf⟩ := ih h2 z hz
          exact ⟨x, by simp [hx], hf⟩

theorem bind_ok {α β : Type} {x : Res α} {f : α → Res β} {y : β} (h : (x >>= f) = .ok y) :
    ∃ a, x = .ok a ∧ f a = .ok y := by
  cases x with
  | error p => cases h
  | ok a => exact ⟨a, rfl, h⟩

theorem generate_noTimerInc {c : Chip8 B R} {e : Env} {op : Opcode} {l : List Microcode}
    (h : generate b e c op = .ok l) : ∀ mc ∈ l, NoTimerInc mc := by
  cases op <;> simp only [generate] at h
  case Drw x y n =>
    obtain ⟨sprite, -, h⟩ := bind_ok h
    obtain ⟨vx, -, h⟩ := bind_ok h
    obtain ⟨vy, -, h⟩ := bind_ok h
    obtain ⟨⟨col, px⟩, hf, h⟩ := bind_ok h
    cases h
    intro mc hm
    rcases List.mem_append.1 hm with hm | hm
    · obtain ⟨xy, v, rfl⟩ := drw_pixels _ _ _ _ _ _ _ hf (by simp) mc hm
      trivial
    · rw [List.mem_singleton.1 hm]
      trivial
  case ReadRegistersFromMemory x =>
    intro mc hm
    obtain ⟨r, -, hf⟩ := mapM_mem _ _ h mc hm
    obtain ⟨_, -, hf⟩ := bind_ok hf
    obtain ⟨_, -, hf⟩ := bind_ok hf
    obtain ⟨_, -, hf⟩ := bind_ok hf
    cases hf
    trivial
  case StoreRegistersToMemory x =>
    intro mc hm
    obtain ⟨r, -, hf⟩ := mapM_mem _ _ h mc hm
    obtain ⟨_, -, hf⟩ := bind_ok hf
    obtain ⟨_, -, hf⟩ := bind_ok hf
    obtain ⟨_, -, hf⟩ := bind_ok hf
    cases hf
    trivial
  case LdK x =>
    cases h
    intro mc hm
    unfold genLdK at hm
    split at hm <;> (rw [List.mem_singleton.1 hm]; trivial)
  case SeImmediate | SneImmediate =>
    obtain ⟨_, -, h⟩ := bind_ok h
    split at h <;> cases h <;> simp [NoTimerInc, incPc2]
  case SeVxVy | SneVxVy =>
    obtain ⟨_, -, h⟩ := bind_ok h
    obtain ⟨_, -, h⟩ := bind_ok h
    split at h <;> cases h <;> simp [NoTimerInc, incPc2]
  case Skp | Sknp =>
    obtain ⟨_, -, h⟩ := bind_ok h
    split at h
    · split at h <;> cases h <;> simp [NoTimerInc, incPc2]
    · cases h
      simp [NoTimerInc, incPc2]
  case Cls | Sys | Call | JpNonV0Indexed | LdAbsolute | LdImmediate | AddImmediate | Rnd =>
    cases h
    simp [NoTimerInc, writeGp, genCls, genCall, genJp, genLdAbsolute, genLdImmediate,
      genAddImmediate, genRnd]
  all_goals
    obtain ⟨_, -, h⟩ := bind_ok h
    try obtain ⟨_, -, h⟩ := bind_ok h
    try obtain ⟨_, -, h⟩ := bind_ok h
    cases h
    simp [NoTimerInc, writeGp]

theorem next_noTimerInc {c it : Chip8 B R} {e : Env} {l : List Microcode}
    (h : next b e c = .ok (l, it)) : ∀ mc ∈ l, NoTimerInc mc := by
  unfold next at h
  cases h1 : fetch b c with
  | error p => rw [h1] at h; cases h
  | ok op =>
    rw [h1, Res.ok_bind] at h
    cases h2 : generate b e c op with
    | error p => rw [h2] at h; cases h
    | ok l' =>
      rw [h2, Res.ok_bind] at h
      simp only at h
      cases h3 : executeAll b e.iterAt c (l' ++ [.Inc16bitRegister .ProgramCounter 2]) with
      | error p => rw [h3] at h; cases h
      | ok c' =>
        rw [h3, Res.ok_bind] at h
        cases h
        intro mc hm
        rcases List.mem_append.1 hm with hm | hm
        · exact generate_noTimerInc h2 mc hm
        · rw [List.mem_singleton.1 hm]
          trivial

theorem same_loop (n k : Nat) {it c : Chip8 B R} (h : SameButInstants it c) :
    (∃ p, iterates b env n k it = .error p ∧ runLoop b env n k it c = .error p) ∨
    ∃ d d', iterates b env n k it = .ok d ∧ runLoop b env n k it c = .ok d' ∧
      SameButInstants d d' := by
  induction n generalizing k it c with
  | zero => exact .inr ⟨_, _, rfl, rfl, h⟩
  | succ n ih =>
    simp only [iterates, runLoop]
    cases h1 : next b (env k) it with
    | error p => exact .inl ⟨p, rfl, rfl⟩
    | ok x =>
      obtain ⟨l, it'⟩ := x
      simp only [Res.ok_bind]
      rcases same_execAll (b := b) h (env k).iterAt (env k).foldAt (next_noTimerInc h1) with
        ⟨p, h2, -⟩ | ⟨d, d', h2, h3, h4⟩
      · rw [next_exec h1] at h2
        cases h2
      · rw [next_exec h1] at h2
        cases h2
        rw [h3, Res.ok_bind]
        exact ih (k + 1) h4

/-- In every run, however the clock moves, the CPU that `run(n)` returns and the copy inside the
iterator after `n` instructions agree in everything but the instants at which the timers were
written, and one panics exactly when the other does. Missing for C59: these instants. -/
theorem C59_iterator_agrees_partial (n : Nat) :
    (∃ p, iterates b env n 0 cpu = .error p ∧ run b env cpu n = .error p) ∨
    ∃ it c, iterates b env n 0 cpu = .ok it ∧ run b env cpu n = .ok (.ready c) ∧
      SameButInstants it c := by
  unfold run
  rcases same_loop (b := b) (env := env) n 0 (same_refl cpu) with ⟨p, h1, h2⟩ | ⟨d, d', h1, h2, h3⟩
  · exact .inl ⟨p, h1, by rw [h2]; rfl⟩
  · exact .inr ⟨d, d', h1, by rw [h2]; rfl, h3⟩

/-! ### The witness -/

/-- `F015` at 0x200 and `F107` at 0x202: V0 to the delay timer and the delay timer to V1. -/
def timerSample : Chip8 FlatRam Unit :=
  let c := place sample (.LdDelayTimerDestTx .V0)
  { c with address_space := { mem := placeMem c.address_space.mem 0x202 (.LdDelayTimerSrcTx .V1) } }

/-- The clock: the iterator writes the timer at instant 0, `run` half a second later; the second
instruction reads it after 1.2 seconds. -/
def timerEnv (k : Nat) : Env :=
  if k = 0 then ⟨0, 0, 0, 500000000⟩ else ⟨0, 1200000000, 1200000000, 1200000000⟩

theorem timerEnv_moves : ClockMoves timerEnv := by
  intro k
  by_cases h : k = 0
  · subst h
    decide
  · unfold timerEnv
    rw [if_neg h, if_neg (by omega)]
    decide

/-- V1 at the end of a run. -/
def endV1 (r : Res (StepState (Chip8 FlatRam Unit))) : Option Byte :=
  match r with
  | .ok (.ready c) => some (V c .V1)
  | _ => none

/-- C59 is false: `run(2)` reads 0x10 from the timer that was set to 0x11, `run(1)` and `run(1)`
read 0x11. -/
theorem C59_split_differs : ¬ C59_statement := by
  intro h
  let c₁ : Chip8 FlatRam Unit := { timerSample with dt := ⟨500000000, 0x11⟩, pc := 0x202 }
  have hat : At .debug timerSample (.LdDelayTimerDestTx .V0) :=
    (C40_fetch (view _ timerSample) (by decide) _).2 ⟨trivial, by decide⟩
  have h1 : run .debug timerEnv timerSample 1 = .ok (.ready c₁) :=
    step_to (e := timerEnv 0) (mem := fun _ => 0) hat
      ⟨GpRegisters.noConfusion, fun h => h.2⟩ (by simp) (by simp) rfl
  have h2 := congrArg endV1 ((h _ _ .debug timerEnv timerSample 1 1 timerEnv_moves).2 c₁ h1)
  have h3 : endV1 (run .debug timerEnv timerSample (1 + 1)) = some 0x10 := by decide +kernel
  have h4 : endV1 (run .debug (fun k => timerEnv (1 + k)) c₁ 1) = some 0x11 := by decide +kernel
  rw [h3, h4] at h2
  revert h2
  decide

/-- The two instructions of `timerSample` in a world in which the clock moves from
instruction to instruction, but not within one: -/
example : endV1 (run .debug (fun k => ⟨0, 1500000000 * k, 1500000000 * k, 1500000000 * k⟩)
    timerSample 2) = some 0x10 := by decide +kernel

end Verif.Props.Chip8
