import Verif.Props.Chip8.Run

/-!
# C59: what the second execution of the timer writes changes

`run` executes every microcode twice, on the iterator's copy and on the CPU it returns, and the clock may
move in between. A run in any world is the same as a run in a world in which the clock does not move
within an instruction and the delay timer is read somewhat later.
-/

namespace Verif.Props.Chip8

open Verif Verif.Chip8 Verif.Spec.Chip8

variable {B R : Type} [Addressable B] {b : Build} {env : Nat → Env} {c : Chip8 B R}

/-- The world in which the CPU `d` reads its delay timer as `it` does in the world `e`, and whose clock
does not move within an instruction. -/
def shifted (e : Env) (it d : Chip8 B R) : Env :=
  { e with readAt := e.readAt + d.dt.written_at - it.dt.written_at, iterAt := e.foldAt }

theorem generate_shifted {it d : Chip8 B R} (h : SameButInstants it d) (e : Env) (op : Opcode) :
    generate b (shifted e it d) d op = generate b e it op := by
  obtain ⟨t, u, rfl⟩ := h
  cases op
  case LdDelayTimerSrcTx r =>
    have : timerAt ⟨t, it.dt.inner⟩ (e.readAt + t - it.dt.written_at) = timerAt it.dt e.readAt := by
      unfold timerAt
      simp only
      have (a w t : Nat) : a + t - w - t = a - w := by omega
      rw [this]
    simp only [generate, genLdFromDelayTimer, timer_read, Res.ok_bind, shifted, this]
  all_goals rfl

/-- One instruction of the loop of `run`, as one instruction in the shifted world. -/
theorem next_shifted {it d : Chip8 B R} (h : SameButInstants it d) (e : Env) :
    (next b (shifted e it d) d >>= fun x => .ok x.2) =
      (next b e it >>= fun x => executeAll b e.foldAt d x.1) := by
  have hf : fetch b d = fetch b it := by obtain ⟨t, u, rfl⟩ := h; rfl
  unfold next
  rw [hf]
  cases h1 : fetch b it with
  | error p => rfl
  | ok op =>
    simp only [Res.ok_bind, generate_shifted h]
    cases h2 : generate b e it op with
    | error p => rfl
    | ok l =>
      simp only [Res.ok_bind]
      have hl : ∀ mc ∈ l ++ [.Inc16bitRegister .ProgramCounter 2], NoTimerInc mc := by
        intro mc hm
        rcases List.mem_append.1 hm with hm | hm
        · exact generate_noTimerInc h2 mc hm
        · rw [List.mem_singleton.1 hm]
          trivial
      show (executeAll b e.foldAt d _ >>= _) >>= _ = _
      rcases same_execAll (b := b) h e.iterAt e.foldAt hl with ⟨p, h3, h4⟩ | ⟨c', d', h3, h4, -⟩
      · rw [h3, h4]; rfl
      · rw [h3, h4]
        simp only [Res.ok_bind]
        rw [h4]

/-- The loop of `run`, taken apart at its last instruction. -/
theorem runLoop_last (n k : Nat) {it d : Chip8 B R} (h : SameButInstants it d) :
    runLoop b env (n + 1) k it d = (iterates b env n k it >>= fun it' => runLoop b env n k it d >>= fun d' =>
      next b (env (k + n)) it' >>= fun x => executeAll b (env (k + n)).foldAt d' x.1) := by
  induction n generalizing k it d with
  | zero =>
    simp only [runLoop, iterates, Res.ok_bind, Nat.add_zero]
    cases next b (env k) it with
    | error p => rfl
    | ok x =>
      simp only [Res.ok_bind]
      cases executeAll b (env k).foldAt d x.1 <;> rfl
  | succ n ih =>
    have e1 : runLoop b env (n + 1) k it d = (next b (env k) it >>= fun x =>
      executeAll b (env k).foldAt d x.1 >>= fun d' => runLoop b env n (k + 1) x.2 d') := rfl
    have e2 : runLoop b env (n + 1 + 1) k it d = (next b (env k) it >>= fun x =>
      executeAll b (env k).foldAt d x.1 >>= fun d' => runLoop b env (n + 1) (k + 1) x.2 d') := rfl
    have e3 : iterates b env (n + 1) k it = (next b (env k) it >>= fun x =>
      iterates b env n (k + 1) x.2) := rfl
    rw [e1, e2, e3]
    cases h1 : next b (env k) it with
    | error p => rfl
    | ok x =>
      obtain ⟨l, it'⟩ := x
      simp only [Res.ok_bind]
      rcases same_execAll (b := b) h (env k).iterAt (env k).foldAt (next_noTimerInc h1) with
        ⟨p, h2, -⟩ | ⟨c₁, d₁, h2, h3, h4⟩
      · rw [next_exec h1] at h2
        cases h2
      · rw [next_exec h1] at h2
        cases h2
        rw [h3, Res.ok_bind, ih (k + 1) h4]
        simp only [Res.ok_bind]
        rw [show k + 1 + n = k + (n + 1) by omega]

/-- The microcode that sets the delay timer. -/
def setsDelay : Microcode → Bool
  | .Write8bitRegister (.TimerRegisters .Delay) _ => true
  | _ => false

theorem delay_exec {d d' : Chip8 B R} {t : Instant} {mc : Microcode} (hn : NoTimerInc mc)
    (h : executeMut b t d mc = .ok d') :
    d'.dt.written_at = if setsDelay mc then t else d.dt.written_at := by
  cases mc with
  | WriteMemory a v =>
    simp only [executeMut, writeMemory] at h
    cases hw : Addressable.write b d.address_space a v with
    | error p => rw [hw] at h; cases h
    | ok x =>
      obtain ⟨q, m⟩ := x
      rw [hw, Res.ok_bind] at h
      cases q with
      | error m => cases h
      | ok q => cases h; rfl
  | Write8bitRegister reg v =>
    cases reg with
    | GpRegisters g =>
      obtain ⟨_, -, h⟩ := bind_ok h
      cases h
      rfl
    | TimerRegisters g => cases g <;> cases h <;> rfl
  | Inc8bitRegister reg v =>
    cases reg with
    | GpRegisters g =>
      obtain ⟨_, -, h⟩ := bind_ok h
      obtain ⟨_, -, h⟩ := bind_ok h
      cases h
      rfl
    | TimerRegisters g => exact hn.elim
  | Dec8bitRegister reg v => cases h; rfl
  | Write16bitRegister reg v => cases reg <;> cases h <;> rfl
  | Inc16bitRegister reg v => cases reg <;> cases h <;> rfl
  | Dec16bitRegister reg v => cases h; rfl
  | PushStack v =>
    simp only [executeMut, pushStack] at h
    obtain ⟨_, -, h⟩ := bind_ok h
    obtain ⟨_, -, h⟩ := bind_ok h
    cases h
    rfl
  | PopStack v => cases h; rfl
  | KeyPress k => cases h; rfl
  | KeyRelease => cases h; rfl
  | SetDisplayPixel xy v => cases h; rfl
  | SetDisplayRange s e v =>
    simp only [executeMut, setDisplayRange_eq] at h
    obtain ⟨_, -, h⟩ := bind_ok h
    cases h
    rfl

/-- The delay timer of `d` was written no earlier than that of `it`, and at most `δ` later. -/
def Late (δ : Nat) (it d : Chip8 B R) : Prop :=
  it.dt.written_at ≤ d.dt.written_at ∧ d.dt.written_at ≤ it.dt.written_at + δ

theorem late_execAll {δ : Nat} {t u : Instant} (h1 : t ≤ u) (h2 : u ≤ t + δ) (l : List Microcode) :
    ∀ {it d it' d' : Chip8 B R}, (∀ mc ∈ l, NoTimerInc mc) → Late δ it d →
    executeAll b t it l = .ok it' → executeAll b u d l = .ok d' → Late δ it' d' := by
  induction l with
  | nil =>
    intro it d it' d' _ h h3 h4
    cases h3
    cases h4
    exact h
  | cons mc l ih =>
    intro it d it' d' hl h h3 h4
    obtain ⟨it₁, h3, h5⟩ := bind_ok h3
    obtain ⟨d₁, h4, h6⟩ := bind_ok h4
    refine ih (fun m hm => hl m (by simp [hm])) ?_ h5 h6
    unfold Late
    rw [delay_exec (hl mc (by simp)) h3, delay_exec (hl mc (by simp)) h4]
    split
    · exact ⟨h1, h2⟩
    · exact h

theorem late_loop {δ : Nat} (h1 : ∀ k, (env k).iterAt ≤ (env k).foldAt)
    (h2 : ∀ k, (env k).foldAt ≤ (env k).iterAt + δ) (n : Nat) :
    ∀ (k : Nat) {it d it' d' : Chip8 B R}, Late δ it d → iterates b env n k it = .ok it' →
    runLoop b env n k it d = .ok d' → Late δ it' d' := by
  induction n with
  | zero =>
    intro k it d it' d' h h3 h4
    cases h3
    cases h4
    exact h
  | succ n ih =>
    intro k it d it' d' h h3 h4
    obtain ⟨⟨l, it₁⟩, h5, h3⟩ := bind_ok h3
    obtain ⟨⟨l', it₂⟩, h6, h8⟩ := bind_ok h4
    obtain ⟨d₁, h7, h9⟩ := bind_ok h8
    rw [h5] at h6
    cases h6
    exact ih (k + 1) (late_execAll (h1 k) (h2 k) l (next_noTimerInc h5) h (next_exec h5) h7) h3 h9

/-- The world of instruction `k` of a run of `c`: its delay timer is read as the iterator's copy reads
it in the world `env`. -/
def sameRun (b : Build) (env : Nat → Env) (c : Chip8 B R) (k : Nat) : Env :=
  match iterates b env k 0 c, runLoop b env k 0 c c with
  | .ok it, .ok d => shifted (env k) it d
  | _, _ => { env k with iterAt := (env k).foldAt }

theorem sameRun_fields (k : Nat) : (sameRun b env c k).rand = (env k).rand ∧
    (sameRun b env c k).iterAt = (env k).foldAt ∧ (sameRun b env c k).foldAt = (env k).foldAt := by
  unfold sameRun
  split <;> exact ⟨rfl, rfl, rfl⟩

theorem iterates_sameRun (n : Nat) :
    iterates b (sameRun b env c) n 0 c = runLoop b env n 0 c c := by
  induction n with
  | zero => rfl
  | succ n ih =>
    rw [iterates_add, ih, runLoop_last n 0 (same_refl c)]
    rcases same_loop (b := b) (env := env) n 0 (same_refl c) with ⟨p, h1, h2⟩ | ⟨it, d, h1, h2, h3⟩
    · rw [h1, h2]
      rfl
    · rw [h1, h2]
      have he : sameRun b env c n = shifted (env n) it d := by
        unfold sameRun
        rw [h1, h2]
      have := next_shifted (b := b) h3 (env n)
      simp only [Res.ok_bind, Nat.zero_add]
      rw [← this, ← he]
      rfl

/-- However the clock moves, a run is the run in a world in which the clock does not move within an
instruction, so that the run is single steps and can be split: one with the same random bytes, whose
instructions write the timers when `run` does, and in which the delay timer is read as much later as the
clock moves between the two executions of an instruction. Missing for C59: this lateness. -/
theorem C59_late_partial {δ : Nat} (h1 : ∀ k, (env k).iterAt ≤ (env k).foldAt)
    (h2 : ∀ k, (env k).foldAt ≤ (env k).iterAt + δ) :
    ∃ env' : Nat → Env, (∀ k, (env' k).rand = (env k).rand ∧ (env' k).iterAt = (env k).foldAt ∧
        (env' k).foldAt = (env k).foldAt ∧ (env k).readAt ≤ (env' k).readAt ∧
        (env' k).readAt ≤ (env k).readAt + δ) ∧
      ∀ n, run b env' c n = run b env c n := by
  refine ⟨sameRun b env c, fun k => ?_, fun n => ?_⟩
  · obtain ⟨e1, e2, e3⟩ := sameRun_fields (b := b) (env := env) (c := c) k
    refine ⟨e1, e2, e3, ?_⟩
    unfold sameRun
    split
    · rename_i it d h3 h4
      have := late_loop h1 h2 k 0 (it := c) (d := c) ⟨Nat.le_refl _, Nat.le_add_right _ _⟩ h3 h4
      obtain ⟨h5, h6⟩ := this
      have (r w w' : Nat) (h : w ≤ w') (h' : w' ≤ w + δ) : r ≤ r + w' - w ∧ r + w' - w ≤ r + δ := by
        omega
      exact this _ _ _ h5 h6
    · exact ⟨Nat.le_refl _, Nat.le_add_right _ _⟩
  · rw [run_eq_iterates fun k => by
      obtain ⟨-, e2, e3⟩ := sameRun_fields (b := b) (env := env) (c := c) k
      rw [e2, e3], iterates_sameRun]
    unfold run
    cases runLoop b env n 0 c c <;> rfl

/-- Likewise for every clock, however far it moves and even backwards: a run is a run of single steps with
the same random bytes and timer writes, in a world that differs only in when the delay timer is read. -/
theorem C59_world_partial : ∃ env' : Nat → Env,
    (∀ k, (env' k).rand = (env k).rand ∧ (env' k).iterAt = (env k).foldAt ∧
      (env' k).foldAt = (env k).foldAt) ∧
    ∀ n, run b env' c n = run b env c n ∧
      ∀ c', run b env c n = .ok (.ready c') ↔ Steps b env' n c c' := by
  have hf := sameRun_fields (b := b) (env := env) (c := c)
  have hs : ∀ k, (sameRun b env c k).iterAt = (sameRun b env c k).foldAt := fun k => by
    rw [(hf k).2.1, (hf k).2.2]
  have hr : ∀ n, run b (sameRun b env c) c n = run b env c n := fun n => by
    rw [run_eq_iterates hs, iterates_sameRun]
    unfold run
    cases runLoop b env n 0 c c <;> rfl
  refine ⟨sameRun b env c, hf, fun n => ⟨hr n, fun c' => ?_⟩⟩
  rw [← hr n, C59_steps_partial hs]

/-- The two instructions of `timerSample`, with a clock that moves by half a second between the two
executions of the first: the delay timer read half a second later, with the clock standing still, gives
the same V1. -/
example : (∀ k, (timerEnv k).iterAt ≤ (timerEnv k).foldAt) ∧
    (∀ k, (timerEnv k).foldAt ≤ (timerEnv k).iterAt + 500000000) ∧
    (sameRun .debug timerEnv timerSample 1).readAt = 1700000000 ∧
    endV1 (run .debug timerEnv timerSample 2) = some 0x10 ∧
    endV1 (run .debug (sameRun .debug timerEnv timerSample) timerSample 2) = some 0x10 := by
  refine ⟨fun k => ?_, fun k => ?_, by decide +kernel, by decide +kernel, by decide +kernel⟩ <;>
  · unfold timerEnv
    split <;> decide

end Verif.Props.Chip8
