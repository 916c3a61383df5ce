import Verif.Props.Chip8.Time

/-!
# CHIP-8: when exactly a run can be split (C59)

`C59_split_differs` shows that a run cannot always be split. Here is the exact condition: two copies
of the CPU are left at the split, one inside the iterator and one returned by `run`, and the run
splits after `m` instructions if and only if, from there on, no instruction that reads the delay
timer reads different values on the two copies. So a program that does not read the delay timer
after the split, or only after it has run out, can be split there however the clock moves.
-/

namespace Verif.Props.Chip8

open Verif Verif.Chip8 Verif.Spec.Chip8
open Verif.Mos (FlatRam)

variable {B R : Type} [Addressable B] {b : Build} {env : Nat → Env} {cpu : Chip8 B R}

/-- In none of `n` instructions from the `k`-th on do two machines run side by side read different
values from the delay timer. A read into VF does not count: it panics. -/
def ReadsAlike (b : Build) (env : Nat → Env) (n k : Nat) (x x' : Chip8 B R) : Prop :=
  ∀ j, j < n → ∀ y y', iterates b env j k x = .ok y → iterates b env j k x' = .ok y' →
    ∀ r, r ≠ .Vf → fetch b y = .ok (.LdDelayTimerSrcTx r) →
      y.dt.read b (env (k + j)).readAt = y'.dt.read b (env (k + j)).readAt

omit [Addressable B] in
theorem timer_read_ok (d : ClockDecrementing) (now : Instant) : ∃ v, d.read b now = .ok v := by
  unfold ClockDecrementing.read
  simp only
  split
  · rename_i h
    have hv := d.inner.isLt
    rw [if_pos (by omega)]
    unfold subU8
    split
    · rename_i h2
      exfalso
      simp only [BitVec.toNat_ofNat] at h2
      have := Nat.mod_le (d.elapsedSecs now) (2 ^ 8)
      simp at h2
      omega
    · exact ⟨_, rfl⟩
  · exact ⟨_, rfl⟩

omit [Addressable B] in
theorem same_trans {x c c' : Chip8 B R} (h : SameButInstants x c) (h' : SameButInstants x c') :
    SameButInstants c c' := by
  obtain ⟨t, u, rfl⟩ := h
  obtain ⟨t', u', rfl⟩ := h'
  exact ⟨t', u', rfl⟩

theorem fetch_same {x x' : Chip8 B R} (h : SameButInstants x x') : fetch b x' = fetch b x := by
  obtain ⟨t, u, rfl⟩ := h
  rfl

theorem setGp_ok (gp : Vector Byte 15) {r : GpRegisters} (hr : r ≠ .Vf) (v : Byte) :
    ∃ h : r.asUsize < 15, setGp gp r v = .ok (gp.set r.asUsize v h) := by
  cases r <;> first | exact absurd rfl hr | exact ⟨by decide, rfl⟩

/-- An instruction that generates the same on both machines does the same to both, up to the
instants. -/
theorem next_of_generate {x x' : Chip8 B R} (h : SameButInstants x x') {e : Env} {op : Opcode}
    (hf : fetch b x = .ok op) (hg : generate b e x' op = generate b e x op) :
    (∃ p, next b e x = .error p ∧ next b e x' = .error p) ∨
    ∃ l y y', next b e x = .ok (l, y) ∧ next b e x' = .ok (l, y') ∧ SameButInstants y y' := by
  unfold next
  rw [fetch_same h, hf]
  simp only [Res.ok_bind]
  rw [hg]
  cases h2 : generate b e x op with
  | error p => exact .inl ⟨p, rfl, rfl⟩
  | ok l =>
    simp only [Res.ok_bind]
    have hl : ∀ mc ∈ l ++ [Microcode.Inc16bitRegister .ProgramCounter 2], NoTimerInc mc := by
      intro mc hm
      rcases List.mem_append.1 hm with hm | hm
      · exact generate_noTimerInc h2 mc hm
      · rw [List.mem_singleton.1 hm]
        trivial
    rcases same_execAll (b := b) h e.iterAt e.iterAt hl with ⟨p, h3, h4⟩ | ⟨d, d', h3, h4, h5⟩
    · exact .inl ⟨p, by rw [h3]; rfl, by rw [h4]; rfl⟩
    · exact .inr ⟨_, d, d', by rw [h3]; rfl, by rw [h4]; rfl, h5⟩

/-- Reading the delay timer into VF panics, whatever it shows. -/
theorem next_Vf {x : Chip8 B R} {e : Env} (hf : fetch b x = .ok (.LdDelayTimerSrcTx .Vf)) :
    next b e x = .error .bounds := by
  obtain ⟨v, hv⟩ := timer_read_ok (b := b) x.dt e.readAt
  unfold next
  rw [hf]
  simp only [Res.ok_bind, generate, genLdFromDelayTimer, hv]
  rfl

theorem next_alike {x x' : Chip8 B R} (h : SameButInstants x x') {e : Env}
    (ha : ∀ r, r ≠ .Vf → fetch b x = .ok (.LdDelayTimerSrcTx r) →
      x.dt.read b e.readAt = x'.dt.read b e.readAt) :
    (∃ p, next b e x = .error p ∧ next b e x' = .error p) ∨
    ∃ l y y', next b e x = .ok (l, y) ∧ next b e x' = .ok (l, y') ∧ SameButInstants y y' := by
  cases hf : fetch b x with
  | error p =>
    refine .inl ⟨p, ?_, ?_⟩ <;> unfold next
    · rw [hf]; rfl
    · rw [fetch_same h, hf]; rfl
  | ok op =>
    by_cases hop : ∃ r, op = .LdDelayTimerSrcTx r
    · obtain ⟨r, rfl⟩ := hop
      by_cases hr : r = .Vf
      · subst hr
        exact .inl ⟨_, next_Vf hf, next_Vf (by rw [fetch_same h, hf])⟩
      · refine next_of_generate h hf ?_
        simp only [generate, genLdFromDelayTimer, ha r hr hf]
    · refine next_of_generate h hf ?_
      obtain ⟨t, u, rfl⟩ := h
      cases op <;> first | rfl | exact absurd ⟨_, rfl⟩ hop

theorem iterates_succ {n k : Nat} {x y : Chip8 B R} {l : List Microcode}
    (h : next b (env k) x = .ok (l, y)) :
    iterates b env (n + 1) k x = iterates b env n (k + 1) y := by
  simp only [iterates, h, Res.ok_bind]

theorem readsAlike_tail {n k : Nat} {x x' y y' : Chip8 B R} {l l' : List Microcode}
    (h : next b (env k) x = .ok (l, y)) (h' : next b (env k) x' = .ok (l', y'))
    (ha : ReadsAlike b env (n + 1) k x x') : ReadsAlike b env n (k + 1) y y' := by
  intro j hj z z' hz hz' r hr hf
  have := ha (j + 1) (by omega) z z' (by rw [iterates_succ h]; exact hz)
    (by rw [iterates_succ h']; exact hz') r hr hf
  rw [show k + (j + 1) = k + 1 + j by omega] at this
  exact this

theorem loop_alike (n : Nat) : ∀ (k : Nat) {x x' : Chip8 B R} (c : Chip8 B R), SameButInstants x x' →
    ReadsAlike b env n k x x' → runLoop b env n k x c = runLoop b env n k x' c := by
  induction n with
  | zero => intro k x x' c _ _; rfl
  | succ n ih =>
    intro k x x' c h ha
    unfold runLoop
    rcases next_alike (e := env k) h (fun r hr hf => ha 0 (by omega) x x' rfl rfl r hr hf) with
      ⟨p, h1, h2⟩ | ⟨l, y, y', h1, h2, h3⟩
    · rw [h1, h2]
    · rw [h1, h2]
      simp only [Res.ok_bind]
      cases executeAll b (env k).foldAt c l with
      | error p => rfl
      | ok d => exact ih (k + 1) d h3 (readsAlike_tail h1 h2 ha)

/-- The instruction that reads the delay timer, in a run: the register shows what was read from the
iterator's copy. -/
theorem loop_read {k : Nat} {x : Chip8 B R} (c : Chip8 B R) {r : GpRegisters} (hr : r ≠ .Vf)
    (hf : fetch b x = .ok (.LdDelayTimerSrcTx r)) {v : Byte}
    (hv : x.dt.read b (env k).readAt = .ok v) :
    ∃ h : r.asUsize < 15, runLoop b env 1 k x c =
      .ok { c with gp_registers := c.gp_registers.set r.asUsize v h, pc := c.pc + 2 } := by
  obtain ⟨h, h1⟩ := setGp_ok x.gp_registers hr v
  obtain ⟨_, h2⟩ := setGp_ok c.gp_registers hr v
  refine ⟨h, ?_⟩
  have hn : next b (env k) x = .ok ([writeGp r v] ++ [.Inc16bitRegister .ProgramCounter 2],
      { x with gp_registers := x.gp_registers.set r.asUsize v h, pc := x.pc + 2 }) := by
    unfold next
    rw [hf]
    simp only [Res.ok_bind, generate, genLdFromDelayTimer, hv, List.cons_append, List.nil_append,
      executeAll, writeGp, executeMut, write8, h1]
  simp only [runLoop, hn, Res.ok_bind, List.cons_append, List.nil_append, executeAll, writeGp,
    executeMut, write8, h2]

theorem loop_reads (n : Nat) : ∀ (k : Nat) {x x' c : Chip8 B R}, SameButInstants x x' →
    SameButInstants x c → (∀ j, j ≤ n → runLoop b env j k x c = runLoop b env j k x' c) →
    ReadsAlike b env n k x x' := by
  induction n with
  | zero => intro k x x' c _ _ _ j hj; omega
  | succ n ih =>
    intro k x x' c h hc he
    have h0 : ∀ r, r ≠ .Vf → fetch b x = .ok (.LdDelayTimerSrcTx r) →
        x.dt.read b (env k).readAt = x'.dt.read b (env k).readAt := by
      intro r hr hf
      obtain ⟨v, hv⟩ := timer_read_ok (b := b) x.dt (env k).readAt
      obtain ⟨v', hv'⟩ := timer_read_ok (b := b) x'.dt (env k).readAt
      obtain ⟨hlt, e1⟩ := loop_read c hr hf hv
      obtain ⟨_, e2⟩ := loop_read c hr (by rw [fetch_same h, hf]) hv'
      have e3 := he 1 (by omega)
      rw [e1, e2] at e3
      have e4 := congrArg (fun d : Chip8 B R => d.gp_registers[r.asUsize]'hlt) (Except.ok.inj e3)
      simp only [Vector.getElem_set_self] at e4
      rw [hv, hv', e4]
    rcases next_alike h h0 with ⟨p, h1, h2⟩ | ⟨l, y, y', h1, h2, h3⟩
    · intro j hj z z' hz hz' r hr hf
      cases j with
      | zero =>
        cases hz
        cases hz'
        exact h0 r hr hf
      | succ j =>
        unfold iterates at hz
        rw [h1] at hz
        cases hz
    · rcases same_execAll (b := b) hc (env k).iterAt (env k).foldAt (next_noTimerInc h1) with
        ⟨p, g1, -⟩ | ⟨d, d', g1, g2, g3⟩
      · rw [next_exec h1] at g1
        cases g1
      · rw [next_exec h1] at g1
        cases g1
        have ht := ih (k + 1) h3 g3 fun j hj => by
          have := he (j + 1) (by omega)
          simpa only [runLoop, h1, h2, g2, Res.ok_bind] using this
        intro j hj z z' hz hz' r hr hf
        cases j with
        | zero =>
          cases hz
          cases hz'
          exact h0 r hr hf
        | succ j =>
          rw [iterates_succ h1] at hz
          rw [iterates_succ h2] at hz'
          have := ht j (by omega) z z' hz hz' r hr hf
          rw [show k + 1 + j = k + (j + 1) by omega] at this
          exact this

theorem loop_add (m n : Nat) : ∀ (k : Nat) {it c : Chip8 B R}, SameButInstants it c →
    runLoop b env (m + n) k it c =
      (iterates b env m k it >>= fun it' => runLoop b env m k it c >>= fun c' =>
        runLoop b env n (k + m) it' c') := by
  induction m with
  | zero => intro k it c _; simp [iterates, runLoop]
  | succ m ih =>
    intro k it c h
    rw [Nat.succ_add]
    simp only [iterates, runLoop]
    cases h1 : next b (env k) it with
    | error p => rfl
    | ok x =>
      obtain ⟨l, y⟩ := x
      simp only [Res.ok_bind]
      rcases same_execAll (b := b) h (env k).iterAt (env k).foldAt (next_noTimerInc h1) with
        ⟨p, g1, -⟩ | ⟨d, d', g1, g2, g3⟩
      · rw [next_exec h1] at g1
        cases g1
      · rw [next_exec h1] at g1
        cases g1
        rw [g2]
        simp only [Res.ok_bind]
        rw [ih (k + 1) g3, show k + 1 + m = k + (m + 1) by omega]

theorem loop_shift (m n : Nat) : ∀ (k : Nat) (it c : Chip8 B R),
    runLoop b env n (m + k) it c = runLoop b (fun k => env (m + k)) n k it c := by
  induction n with
  | zero => intro k it c; rfl
  | succ n ih =>
    intro k it c
    unfold runLoop
    cases next b (env (m + k)) it with
    | error p => rfl
    | ok x =>
      simp only [Res.ok_bind]
      cases executeAll b (env (m + k)).foldAt c x.1 with
      | error p => rfl
      | ok d => exact ih (k + 1) x.2 d

/-- The two copies at the split. -/
theorem at_split {m : Nat} {c' : Chip8 B R} (h : run b env cpu m = .ok (.ready c')) :
    runLoop b env m 0 cpu cpu = .ok c' ∧ ∃ it, iterates b env m 0 cpu = .ok it ∧
      SameButInstants it c' := by
  rcases C59_iterator_agrees_partial (b := b) (env := env) (cpu := cpu) m with
    ⟨p, -, h1⟩ | ⟨it, c, h1, h2, h3⟩
  · rw [h1] at h; cases h
  · have h4 := h2
    rw [h] at h2
    cases h2
    refine ⟨?_, it, h1, h3⟩
    unfold run at h4
    cases h5 : runLoop b env m 0 cpu cpu with
    | error p => rw [h5] at h4; cases h4
    | ok d => rw [h5] at h4; cases h4; rfl

theorem run_split {m : Nat} {c' it : Chip8 B R} (h : run b env cpu m = .ok (.ready c'))
    (hi : iterates b env m 0 cpu = .ok it) (n : Nat) :
    run b env cpu (m + n) =
      (runLoop b (fun k => env (m + k)) n 0 it c').map .ready := by
  unfold run
  rw [loop_add m n 0 (same_refl cpu), hi, (at_split h).1]
  simp only [Res.ok_bind]
  rw [Nat.zero_add, show m = m + 0 by omega, loop_shift]
  cases runLoop b (fun k => env (m + k)) n 0 it c' <;> rfl

theorem run_map (e : Nat → Env) (c : Chip8 B R) (n : Nat) :
    run b e c n = (runLoop b e n 0 c c).map .ready := by
  unfold run
  cases runLoop b e n 0 c c <;> rfl

omit [Addressable B] in
theorem map_ready {x y : Res (Chip8 B R)}
    (h : x.map (StepState.ready (T := Chip8 B R)) = y.map StepState.ready) : x = y := by
  cases x <;> cases y <;> cases h <;> rfl

/-- Exactly when a run can be split after its first `m` instructions, for every clock: for all of the
next `n` instructions if and only if none of these reads different values from the delay timer on the
two copies, the iterator's and the one returned. Missing for C59: the other programs, whose split runs
do differ. -/
theorem C59_split_iff_partial {m n : Nat} {c' it : Chip8 B R}
    (h : run b env cpu m = .ok (.ready c')) (hi : iterates b env m 0 cpu = .ok it) :
    (∀ j, j ≤ n → run b env cpu (m + j) = run b (fun k => env (m + k)) c' j) ↔
      ReadsAlike b (fun k => env (m + k)) n 0 it c' := by
  obtain ⟨-, it', h1, h2⟩ := at_split h
  rw [hi] at h1
  cases h1
  constructor
  · intro he
    refine loop_reads n 0 h2 h2 fun j hj => ?_
    have := he j hj
    rw [run_split h hi, run_map] at this
    exact map_ready this
  · intro ha j hj
    rw [run_split h hi, run_map]
    exact congrArg _ (loop_alike j 0 c' h2 fun i hilt => ha i (by omega))

/-- If the first part panics, the whole panics likewise, for every clock. -/
theorem C59_panic_partial {m : Nat} {p : Panic} (h : run b env cpu m = .error p) (n : Nat) :
    run b env cpu (m + n) = .error p := by
  rcases C59_iterator_agrees_partial (b := b) (env := env) (cpu := cpu) m with
    ⟨q, h1, h2⟩ | ⟨it, c, -, h2, -⟩
  · rw [h] at h2
    cases h2
    unfold run
    rw [loop_add m n 0 (same_refl cpu), h1]
    rfl
  · rw [h] at h2; cases h2

/-- A program that does not read the delay timer after the split can be split there, however the clock
moves. -/
theorem C59_split_unread_partial {m n : Nat} {c' it : Chip8 B R}
    (h : run b env cpu m = .ok (.ready c')) (hi : iterates b env m 0 cpu = .ok it)
    (hu : ∀ j, j < n → ∀ y, iterates b env (m + j) 0 cpu = .ok y → ∀ r,
      fetch b y ≠ .ok (.LdDelayTimerSrcTx r)) :
    run b env cpu (m + n) = run b (fun k => env (m + k)) c' n := by
  refine (C59_split_iff_partial h hi).2 ?_ n (Nat.le_refl n)
  intro j hj y y' hy _ r _ hf
  refine absurd hf (hu j hj y ?_ r)
  rw [iterates_add, hi]
  simp only [Res.ok_bind]
  have := iterates_shift (b := b) (env := env) m j 0 it
  rw [Nat.add_zero] at this
  rw [Nat.zero_add, this]
  exact hy

/-! ### What the timers show -/

/-- Two machines that show the same on the delay timer from `t` on. -/
def DelayAlike (b : Build) (t : Instant) (x x' : Chip8 B R) : Prop :=
  SameButInstants x x' ∧ SameFrom b t x.dt x'.dt

theorem executeMut_delay {x x' y y' : Chip8 B R} {t now : Instant} (h : SameFrom b t x.dt x'.dt)
    {mc : Microcode} (hm : NoTimerInc mc) (h1 : executeMut b now x mc = .ok y)
    (h2 : executeMut b now x' mc = .ok y') : SameFrom b t y.dt y'.dt := by
  by_cases ht : OnTimer mc
  · cases mc with
    | Write8bitRegister reg v =>
      cases reg with
      | GpRegisters r => exact ht.elim
      | TimerRegisters r =>
        cases r with
        | Delay => cases h1; cases h2; exact fun _ _ => rfl
        | Sound => cases h1; cases h2; exact h
    | Inc8bitRegister reg v =>
      cases reg with
      | GpRegisters r => exact ht.elim
      | TimerRegisters r => exact hm.elim
    | _ => exact ht.elim
  · rw [(executeMut_keepsTimers ht h1).1, (executeMut_keepsTimers ht h2).1]
    exact h

theorem executeAll_delay {t now : Instant} (l : List Microcode) : ∀ {x x' y y' : Chip8 B R},
    SameFrom b t x.dt x'.dt → (∀ mc ∈ l, NoTimerInc mc) → executeAll b now x l = .ok y →
    executeAll b now x' l = .ok y' → SameFrom b t y.dt y'.dt := by
  induction l with
  | nil => intro x x' y y' h _ h1 h2; cases h1; cases h2; exact h
  | cons mc l ih =>
    intro x x' y y' h hl h1 h2
    simp only [executeAll] at h1 h2
    obtain ⟨z, g1, g2⟩ := bind_ok h1
    obtain ⟨z', g1', g2'⟩ := bind_ok h2
    exact ih (executeMut_delay h (hl mc (by simp)) g1 g1') (fun mc hm => hl mc (by simp [hm])) g2 g2'

theorem alike_of_delay {t : Instant} (n : Nat) : ∀ (k : Nat) {x x' : Chip8 B R},
    (∀ k, t ≤ (env k).readAt) → DelayAlike b t x x' → ReadsAlike b env n k x x' := by
  induction n with
  | zero => intro k x x' _ _ j hj; omega
  | succ n ih =>
    intro k x x' ht h j hj z z' hz hz' r hr hf
    cases j with
    | zero =>
      cases hz
      cases hz'
      exact h.2 _ (ht _)
    | succ j =>
      rcases next_alike (e := env k) h.1 (fun _ _ _ => h.2 _ (ht k)) with
        ⟨p, h1, h2⟩ | ⟨l, y, y', h1, h2, h3⟩
      · unfold iterates at hz
        rw [h1] at hz
        cases hz
      · rw [iterates_succ h1] at hz
        rw [iterates_succ h2] at hz'
        have := ih (k + 1) ht ⟨h3, executeAll_delay l h.2 (next_noTimerInc h1) (next_exec h1)
          (next_exec h2)⟩ j (by omega) z z' hz hz' r hr hf
        rw [show k + 1 + j = k + (j + 1) by omega] at this
        exact this

/-- If from the split on the delay timers of the two copies show the same, the run can be split there
for any number of further instructions, whatever these do. -/
theorem C59_split_shown_partial {m : Nat} {c' it : Chip8 B R} {t : Instant}
    (h : run b env cpu m = .ok (.ready c')) (hi : iterates b env m 0 cpu = .ok it)
    (ht : ∀ k, t ≤ (env (m + k)).readAt) (hd : SameFrom b t it.dt c'.dt) (n : Nat) :
    run b env cpu (m + n) = run b (fun k => env (m + k)) c' n := by
  obtain ⟨-, it', h1, h2⟩ := at_split h
  rw [hi] at h1
  cases h1
  exact (C59_split_iff_partial h hi).2 (alike_of_delay n 0 ht ⟨h2, hd⟩) n (Nat.le_refl n)

theorem executeMut_order {x c y d : Chip8 B R} {t u : Instant} (htu : t ≤ u)
    (h : x.dt.written_at ≤ c.dt.written_at) {mc : Microcode} (hm : NoTimerInc mc)
    (h1 : executeMut b t x mc = .ok y) (h2 : executeMut b u c mc = .ok d) :
    y.dt.written_at ≤ d.dt.written_at := by
  by_cases ht : OnTimer mc
  · cases mc with
    | Write8bitRegister reg v =>
      cases reg with
      | GpRegisters r => exact ht.elim
      | TimerRegisters r =>
        cases r with
        | Delay => cases h1; cases h2; exact htu
        | Sound => cases h1; cases h2; exact h
    | Inc8bitRegister reg v =>
      cases reg with
      | GpRegisters r => exact ht.elim
      | TimerRegisters r => exact hm.elim
    | _ => exact ht.elim
  · rw [(executeMut_keepsTimers ht h1).1, (executeMut_keepsTimers ht h2).1]
    exact h

theorem executeAll_order {t u : Instant} (htu : t ≤ u) (l : List Microcode) :
    ∀ {x c y d : Chip8 B R}, x.dt.written_at ≤ c.dt.written_at → (∀ mc ∈ l, NoTimerInc mc) →
    executeAll b t x l = .ok y → executeAll b u c l = .ok d →
    y.dt.written_at ≤ d.dt.written_at := by
  induction l with
  | nil => intro x c y d h _ h1 h2; cases h1; cases h2; exact h
  | cons mc l ih =>
    intro x c y d h hl h1 h2
    simp only [executeAll] at h1 h2
    obtain ⟨z, g1, g2⟩ := bind_ok h1
    obtain ⟨z', g1', g2'⟩ := bind_ok h2
    exact ih (executeMut_order htu h (hl mc (by simp)) g1 g1') (fun mc hm => hl mc (by simp [hm])) g2 g2'

theorem loop_order (hc : ClockMoves env) (n : Nat) : ∀ (k : Nat) {it c y d : Chip8 B R},
    it.dt.written_at ≤ c.dt.written_at → iterates b env n k it = .ok y →
    runLoop b env n k it c = .ok d → y.dt.written_at ≤ d.dt.written_at := by
  induction n with
  | zero => intro k it c y d h h1 h2; cases h1; cases h2; exact h
  | succ n ih =>
    intro k it c y d h h1 h2
    simp only [iterates, runLoop] at h1 h2
    obtain ⟨⟨l, z⟩, g1, g2⟩ := bind_ok h1
    rw [g1] at h2
    simp only [Res.ok_bind] at h2
    obtain ⟨c₁, g3, g4⟩ := bind_ok h2
    exact ih (k + 1) (executeAll_order (hc k).2.1 l h (next_noTimerInc g1) (next_exec g1) g3) g2 g4

/-- If the clock never goes back, a run can be split wherever the delay timer of the returned CPU has
run out before the next instruction: for any number of further instructions, whatever these do. -/
theorem C59_split_expired_partial (hc : ClockMoves env) {m : Nat} {c' : Chip8 B R}
    (h : run b env cpu m = .ok (.ready c'))
    (hx : c'.dt.written_at + c'.dt.inner.toNat * 1000000000 ≤ (env m).readAt) (n : Nat) :
    run b env cpu (m + n) = run b (fun k => env (m + k)) c' n := by
  obtain ⟨h0, it, hi, h2⟩ := at_split h
  have hle := loop_order hc m 0 (Nat.le_refl _) hi h0
  have hin : it.dt.inner = c'.dt.inner := by
    obtain ⟨t, u, rfl⟩ := h2
    rfl
  have hk : ∀ k, (env m).readAt ≤ (env (m + k)).readAt := by
    intro k
    induction k with
    | zero => exact Nat.le_refl _
    | succ k ih =>
      obtain ⟨a1, a2, a3⟩ := hc (m + k)
      exact Nat.le_trans ih (Nat.le_trans a1 (Nat.le_trans a2 a3))
  refine C59_split_shown_partial h hi hk (fun now hn => ?_) n
  rw [C112_expired b it.dt (env m).readAt 0 (Nat.le_trans (by rw [hin]; exact Nat.add_le_add_right hle _) hx) now hn,
    C112_expired b c'.dt (env m).readAt 0 hx now hn]

/-! ### Cases that meet the hypotheses -/

theorem timerSample_at : At .debug timerSample (.LdDelayTimerDestTx .V0) :=
  (C40_fetch (view _ timerSample) (by decide) _).2 ⟨trivial, by decide⟩

/-- `timerSample` after `F015` with the clock of `timerEnv`: the returned CPU's timer was set to 0x11
half a second later than the iterator's. -/
theorem timer_first : run .debug timerEnv timerSample 1 =
    .ok (.ready { timerSample with dt := ⟨500000000, 0x11⟩, pc := 0x202 }) :=
  step_to (e := timerEnv 0) (mem := fun _ => 0)
    timerSample_at
    ⟨GpRegisters.noConfusion, fun h => h.2⟩ (by simp) (by simp) rfl

/-- There the next instruction reads 0x10 and 0x11: the condition fails, and with it the split. -/
example : ∃ it, iterates .debug timerEnv 1 0 timerSample = .ok it ∧
    ¬ ReadsAlike .debug (fun k => timerEnv (1 + k)) 1 0 it
      { timerSample with dt := ⟨500000000, 0x11⟩, pc := 0x202 } := by
  obtain ⟨-, it, hi, hs⟩ := at_split timer_first
  refine ⟨it, hi, fun ha => ?_⟩
  have h1 := (C59_split_iff_partial timer_first hi).2 ha 1 (Nat.le_refl 1)
  have h2 := congrArg endV1 h1
  have h3 : endV1 (run .debug timerEnv timerSample (1 + 1)) = some 0x10 := by decide +kernel
  have h4 : endV1 (run .debug (fun k => timerEnv (1 + k))
    { timerSample with dt := ⟨500000000, 0x11⟩, pc := 0x202 } 1) = some 0x11 := by decide +kernel
  rw [h3, h4] at h2
  revert h2
  decide

/-- The same clock, with the second instruction 40 seconds later: the timer has run out. -/
def lateEnv (k : Nat) : Env :=
  if k = 0 then ⟨0, 0, 0, 500000000⟩ else ⟨0, 40000000000, 40000000000, 40000000000⟩

theorem lateEnv_moves : ClockMoves lateEnv := by
  intro k
  by_cases h : k = 0
  · subst h
    decide
  · unfold lateEnv
    rw [if_neg h, if_neg (by omega)]
    decide

example (n : Nat) : run .debug lateEnv timerSample (1 + n) =
    run .debug (fun k => lateEnv (1 + k))
      { timerSample with dt := ⟨500000000, 0x11⟩, pc := 0x202 } n :=
  C59_split_expired_partial lateEnv_moves
    (show run .debug lateEnv timerSample 1 = _ from step_to (e := lateEnv 0) (mem := fun _ => 0)
      timerSample_at
      ⟨GpRegisters.noConfusion, fun h => h.2⟩ (by simp) (by simp) rfl) (by decide) n

/-- `F015`, then `F018`, which does not read the delay timer, with the clock of `timerEnv`. -/
def soundSample : Chip8 FlatRam Unit :=
  let c := place sample (.LdDelayTimerDestTx .V0)
  { c with address_space := { mem := placeMem c.address_space.mem 0x202 (.LdSoundTimerDestTx .V1) } }

theorem soundSample_at : At .debug soundSample (.LdDelayTimerDestTx .V0) :=
  (C40_fetch (view _ soundSample) (by decide) _).2 ⟨trivial, by decide⟩

example : run .debug timerEnv soundSample (1 + 1) = run .debug (fun k => timerEnv (1 + k))
    { soundSample with dt := ⟨500000000, 0x11⟩, pc := 0x202 } 1 := by
  have h : run .debug timerEnv soundSample 1 =
      .ok (.ready { soundSample with dt := ⟨500000000, 0x11⟩, pc := 0x202 }) :=
    step_to (e := timerEnv 0) (mem := fun _ => 0)
      soundSample_at
      ⟨GpRegisters.noConfusion, fun h => h.2⟩ (by simp) (by simp) rfl
  obtain ⟨-, it, hi, -⟩ := at_split h
  refine C59_split_unread_partial h hi fun j hj y hy r hf => ?_
  have hj0 : j = 0 := by omega
  subst hj0
  have h5 : (iterates .debug timerEnv (1 + 0) 0 soundSample >>= fetch .debug) =
      .ok (.LdSoundTimerDestTx .V1) := rfl
  rw [hy, Res.ok_bind, hf] at h5
  cases h5

/-- A first part that panics: `F007` with VF in the place of V1. -/
example : run .debug timerEnv (place sample (.LdDelayTimerSrcTx .Vf)) 1 = .error .bounds := by
  rw [run_map]
  unfold runLoop
  rw [next_Vf rfl]
  rfl

end Verif.Props.Chip8
