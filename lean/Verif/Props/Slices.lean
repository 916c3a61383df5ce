import Verif.Spec.Slices
import Verif.Props.Mos.Throughput
import Verif.Props.Mos.Periodic
import Verif.Props.Chip8.Split
import Verif.Props.Chip8.RunWorld
import Verif.Proofs.MosSample

/-!
# C154: running in slices

A front end calls `run` with a number of cycles per frame. On the 6502 every call loses the cycles that
do not make up a whole instruction, so a sliced run is behind a single one, but by little and on the same
path; on the CHIP-8 nothing is lost. Also: exactly when a 6502 run can be split (C13).
-/

namespace Verif.Props

open Verif Verif.Mos Verif.Spec Verif.Spec.Mos

section
variable {B : Type} [Addressable B] {b : Build} {c c' d : Mos6502 B} {ns : List Nat}

/-- C154: a sliced run executes whole instructions of the program in their order, as one run of fewer
cycles would; of each slice of `n` cycles at least `n / 7` and at most `n / 2` instructions, and at most
6 cycles are lost. -/
theorem C154_slices {s : StepState (Mos6502 B)} (h : slices b (.ready c) ns = .ok s) :
    ∃ l c', Instructions b c l c' ∧ s = .ready c' ∧ run b c (totalCycles l) = .ok s ∧
      (ns.map (· / 7)).sum ≤ l.length ∧ l.length ≤ (ns.map (· / 2)).sum ∧
      totalCycles l ≤ ns.sum ∧ ns.sum ≤ totalCycles l + 6 * ns.length := by
  induction ns generalizing c with
  | nil =>
    cases h
    exact ⟨[], c, .nil _, rfl, C12_run_eq (.nil _) (Nat.le_refl _) (.inl rfl), by simp [totalCycles]⟩
  | cons n ns ih =>
    simp only [slices] at h
    cases h1 : (StepState.ready c).run b n with
    | error p => rw [h1] at h; cases h
    | ok s₁ =>
      rw [h1, Res.ok_bind] at h
      obtain ⟨l, c₁, g1, rfl, g3, g4, g5, g6⟩ := C77_throughput (show run b c n = .ok s₁ from h1)
      obtain ⟨l', c₂, k1, rfl, -, k3, k4, k5, k6⟩ := ih h
      refine ⟨l ++ l', c₂, instructions_append g1 k1, rfl,
        C12_run_eq (instructions_append g1 k1) (Nat.le_refl _) (.inl rfl), ?_⟩
      simp only [totalCycles_append, List.length_append, List.map_cons, List.sum_cons, List.length_cons]
      omega

/-- C154: a sliced run that panics does so at an instruction that a single run of as many cycles
reaches, and this panics likewise. -/
theorem C154_panics {p : Panic} (h : slices b (.ready c) ns = .error p) : run b c ns.sum = .error p := by
  rw [C12_panic]
  induction ns generalizing c with
  | nil => cases h
  | cons n ns ih =>
    simp only [slices] at h
    cases h1 : (StepState.ready c).run b n with
    | error q =>
      rw [h1] at h
      cases h
      obtain ⟨l, c', g1, g2, g3⟩ := C12_panic.1 (show run b c n = .error p from h1)
      exact ⟨l, c', g1, by rw [List.sum_cons]; omega, g3⟩
    | ok s₁ =>
      rw [h1, Res.ok_bind] at h
      obtain ⟨l, c₁, g1, g2, rfl, -⟩ := C12_run_ok (show run b c n = .ok s₁ from h1)
      obtain ⟨l', c₂, k1, k2, k3⟩ := ih h
      refine ⟨l ++ l', c₂, instructions_append g1 k1, ?_, k3⟩
      rw [totalCycles_append, List.sum_cons]
      omega

/-- C154: a single run of as many cycles is ahead of the sliced one, by instructions of at most 6 cycles
per slice. -/
theorem C154_behind (h : run b c ns.sum = .ok (.ready d)) :
    ∃ c' l, slices b (.ready c) ns = .ok (.ready c') ∧ Instructions b c' l d ∧
      totalCycles l ≤ 6 * ns.length := by
  cases h1 : slices b (.ready c) ns with
  | error p =>
    rw [C154_panics h1] at h
    cases h
  | ok s =>
    obtain ⟨l, c', g1, rfl, -, -, -, g2, g3⟩ := C154_slices h1
    obtain ⟨l', d', k1, k2, k3, k4⟩ := C12_run_ok h
    cases k3
    obtain ⟨l₁, rfl, e1⟩ := instructions_split g1 k1 (k4 _ _ g1 g2).length_le
    refine ⟨c', l₁, rfl, e1, ?_⟩
    rw [totalCycles_append] at k2
    omega

/-- C154: slices of 7 cycles or more get everywhere: whatever state a run reaches, a sliced run with
enough such slices that does not panic has passed it. -/
theorem C154_reaches {n : Nat} {s : StepState (Mos6502 B)} (h : run b c n = .ok (.ready d))
    (hn : ∀ m ∈ ns, 7 ≤ m) (hl : n / 2 ≤ ns.length) (hs : slices b (.ready c) ns = .ok s) :
    ∃ c' l, s = .ready c' ∧ Instructions b d l c' := by
  obtain ⟨l, c', g1, rfl, -, g2, -, -, -⟩ := C154_slices hs
  obtain ⟨l', d', k1, k2, -, k4, -, -⟩ := C77_throughput h
  cases k2
  have hk : ns.length ≤ (ns.map (· / 7)).sum := by
    clear hl hs g2 g1
    induction ns with
    | nil => simp
    | cons m ns ih =>
      have h1 := ih fun x hx => hn x (by simp [hx])
      have h2 := hn m (by simp)
      simp only [List.map_cons, List.sum_cons, List.length_cons]
      omega
  obtain ⟨l₁, -, e1⟩ := instructions_split k1 g1 (by omega)
  exact ⟨c', l₁, rfl, e1⟩

/-- C154: a machine whose next instruction takes more cycles than each slice never moves, however many
slices it is given. -/
theorem C154_stuck {ops : Operations} (hx : next b c = .ok (ops, d)) (hn : ∀ m ∈ ns, m < ops.cycles) :
    slices b (.ready c) ns = .ok (.ready c) := by
  induction ns with
  | nil => rfl
  | cons n ns ih =>
    have h1 : (StepState.ready c).run b n = .ok (.ready c) :=
      C12_run_eq (.nil c) (Nat.zero_le n) (.inr ⟨ops, d, hx, by
        have := hn n (by simp)
        simpa [totalCycles] using this⟩)
    simp only [slices, h1, Res.ok_bind]
    exact ih fun m hm => hn m (by simp [hm])

/-- C154: a wait (after `reset`) is taken out of the first slice; what of it does not fit is forgotten. -/
theorem C154_wait (w n : Nat) :
    (slices b (.notReady w c) (n :: ns)).map StepState.unwrap =
      (slices b (.ready c) ((n - w) :: ns)).map StepState.unwrap := by
  simp only [slices]
  by_cases h : n < w
  · have h1 : (StepState.notReady w c).run b n = .ok (.notReady 0 c) := by
      simp only [StepState.run, if_pos h]
    have h2 : (StepState.ready c).run b (n - w) = .ok (.ready c) := by
      rw [Nat.sub_eq_zero_of_le (Nat.le_of_lt h)]
      exact C12_run_eq (b := b) (.nil c) (Nat.le_refl _) (.inl rfl)
    rw [h1, h2, Res.ok_bind, Res.ok_bind]
    cases ns with
    | nil => rfl
    | cons m ns =>
      simp only [slices]
      have h3 : (StepState.notReady 0 c).run b m = (StepState.ready c).run b m := by
        simp [StepState.run]
      rw [h3]
  · have h1 : (StepState.notReady w c).run b n = (StepState.ready c).run b (n - w) := by
      simp only [StepState.run, if_neg h]
    rw [h1]

/-! ### Exactly when a 6502 run can be split -/

/-- A machine that is in the same state again after an instruction stays there. -/
theorem run_hang {ops : Operations} (h : next b c = .ok (ops, c)) (n : Nat) :
    run b c n = .ok (.ready c) := by
  have hc := (C77_cycles h).1
  have h1 := C85_repeats (.cons h (.nil c)) (n / ops.cycles) (n % ops.cycles)
  rw [show totalCycles [ops] = ops.cycles by simp [totalCycles], Nat.div_add_mod'] at h1
  rw [h1]
  refine C12_run_eq (.nil c) (Nat.zero_le _) (.inr ⟨ops, c, h, ?_⟩)
  have := Nat.mod_lt n (show ops.cycles > 0 by omega)
  simpa [totalCycles] using this

/-- Exactly when a run can be split after `m` cycles: if these end with an instruction, or if the machine
hangs in an instruction that leaves it as it is. Missing for C13: the other runs, whose split differs. -/
theorem C13_split_iff_partial {m : Nat} (h : run b c m = .ok (.ready c')) :
    (∀ n, run b c' n = run b c (m + n)) ↔
      (∃ l, Instructions b c l c' ∧ totalCycles l = m) ∨ ∃ ops, next b c' = .ok (ops, c') := by
  obtain ⟨l, d, h1, h2, h3, hmax⟩ := C12_run_ok h
  cases h3
  have key : ∀ n, run b c (m + n) = run b c' (m - totalCycles l + n) := by
    intro n
    rw [← run_add h1]
    congr 1
    omega
  constructor
  · intro hs
    by_cases ht : totalCycles l = m
    · exact .inl ⟨l, h1, ht⟩
    · right
      cases hn : next b c' with
      | error p =>
        rw [C12_panic.2 ⟨l, c', h1, by omega, hn⟩] at h
        cases h
      | ok x =>
        obtain ⟨ops, e⟩ := x
        have one : totalCycles [ops] = ops.cycles := by simp [totalCycles]
        have h4 : m < totalCycles l + ops.cycles := by
          apply Decidable.byContradiction
          intro hlt
          have hp := (hmax _ _ (instructions_append h1 (.cons hn (.nil e)))
            (by rw [totalCycles_append, one]; omega)).length_le
          rw [List.length_append, List.length_singleton] at hp
          omega
        have h5 := hs (totalCycles l + ops.cycles - m)
        rw [key, show m - totalCycles l + (totalCycles l + ops.cycles - m) = ops.cycles by omega,
          C12_run_eq (.nil c') (Nat.zero_le _) (.inr ⟨ops, e, hn, by
            rw [show totalCycles ([] : List Operations) = 0 from rfl]; omega⟩),
          C12_run_eq (n := ops.cycles) (.cons hn (.nil e)) (by rw [one])
            (.inl one)] at h5
        cases h5
        exact ⟨ops, rfl⟩
  · rintro (⟨l', g1, g2⟩ | ⟨ops, hn⟩) n
    · rw [← g2, run_add g1]
    · rw [key, run_hang hn, run_hang hn]

end

section
variable {B R : Type} [Addressable B] {b : Build} {env : Nat → Chip8.Env} {ns : List Nat}

/-- C154: on the CHIP-8 nothing is lost, where the clock does not move within an instruction: a sliced
run is one run. -/
theorem C154_chip8 (hc : ∀ k, (env k).iterAt = (env k).foldAt) (c : Chip8.Chip8 B R) :
    (chipSlices b env c ns).map StepState.ready = Chip8.run b env c ns.sum := by
  induction ns generalizing env c with
  | nil => rfl
  | cons n ns ih =>
    simp only [chipSlices, List.sum_cons]
    cases h : Chip8.run b env c n with
    | error p => rw [Chip8.C59_panic_partial h]; rfl
    | ok s =>
      obtain ⟨c', rfl⟩ : ∃ c', s = .ready c' := by
        rw [Chip8.run_map] at h
        cases h1 : Chip8.runLoop b env n 0 c c with
        | error p => rw [h1] at h; cases h
        | ok d => rw [h1] at h; cases h; exact ⟨_, rfl⟩
      rw [Res.ok_bind, Chip8.C59_split_partial hc n _ h]
      exact ih (fun k => hc (n + k)) c'

theorem chip_loop_world {env' : Nat → Chip8.Env} (n : Nat) : ∀ (k : Nat) (it c : Chip8.Chip8 B R),
    (∀ j, j < n → env' (k + j) = env (k + j)) →
    Chip8.runLoop b env' n k it c = Chip8.runLoop b env n k it c := by
  induction n with
  | zero => intro k it c _; rfl
  | succ n ih =>
    intro k it c h
    unfold Chip8.runLoop
    rw [show env' k = env k from h 0 (by omega)]
    cases Chip8.next b (env k) it with
    | error p => rfl
    | ok x =>
      simp only [Res.ok_bind]
      cases Chip8.executeAll b (env k).foldAt c x.1 with
      | error p => rfl
      | ok d =>
        refine ih (k + 1) x.2 d fun j hj => ?_
        have := h (j + 1) (by omega)
        rw [show k + 1 + j = k + (j + 1) by omega]
        exact this

/-- A run of `n` instructions does not depend on the world after them. -/
theorem chip_run_world {env' : Nat → Chip8.Env} (c : Chip8.Chip8 B R) (n : Nat)
    (h : ∀ k, k < n → env' k = env k) : Chip8.run b env' c n = Chip8.run b env c n := by
  rw [Chip8.run_map, Chip8.run_map,
    chip_loop_world (env := env) n 0 c c (fun j hj => by simpa using h j hj)]

/-- C154: however the clock moves, a sliced run of the CHIP-8 is one run, in a world with the same random
bytes and timer writes, in which the delay timer is read later by at most what the clock moves between the
two executions of an instruction. -/
theorem C154_chip8_clock {δ : Nat} (h1 : ∀ k, (env k).iterAt ≤ (env k).foldAt)
    (h2 : ∀ k, (env k).foldAt ≤ (env k).iterAt + δ) (c : Chip8.Chip8 B R) :
    ∃ env' : Nat → Chip8.Env, (∀ k, (env' k).rand = (env k).rand ∧ (env' k).iterAt = (env k).foldAt ∧
        (env' k).foldAt = (env k).foldAt ∧ (env k).readAt ≤ (env' k).readAt ∧
        (env' k).readAt ≤ (env k).readAt + δ) ∧
      (chipSlices b env c ns).map StepState.ready = Chip8.run b env' c ns.sum := by
  induction ns generalizing env c with
  | nil =>
    refine ⟨fun k => ⟨(env k).rand, (env k).readAt, (env k).foldAt, (env k).foldAt⟩,
      fun k => ⟨rfl, rfl, rfl, Nat.le_refl _, Nat.le_add_right _ _⟩, rfl⟩
  | cons n ns ih =>
    obtain ⟨env₁, e1, e2⟩ := Chip8.C59_late_partial (b := b) (c := c) h1 h2
    simp only [chipSlices, List.sum_cons]
    cases h : Chip8.run b env c n with
    | error p =>
      refine ⟨env₁, e1, ?_⟩
      rw [Chip8.C59_panic_partial (by rw [e2 n, h])]
      rfl
    | ok s =>
      obtain ⟨c', rfl⟩ : ∃ c', s = .ready c' := by
        rw [Chip8.run_map] at h
        cases h1 : Chip8.runLoop b env n 0 c c with
        | error p => rw [h1] at h; cases h
        | ok d => rw [h1] at h; cases h; exact ⟨_, rfl⟩
      obtain ⟨env₂, g1, g2⟩ := ih (fun k => h1 (n + k)) (fun k => h2 (n + k)) c'
      let env' : Nat → Chip8.Env := fun k => if k < n then env₁ k else env₂ (k - n)
      have hw : ∀ k, (env' k).rand = (env k).rand ∧ (env' k).iterAt = (env k).foldAt ∧
          (env' k).foldAt = (env k).foldAt ∧ (env k).readAt ≤ (env' k).readAt ∧
          (env' k).readAt ≤ (env k).readAt + δ := by
        intro k
        by_cases hk : k < n
        · have : env' k = env₁ k := if_pos hk
          rw [this]
          exact e1 k
        · have he : env' k = env₂ (k - n) := if_neg hk
          have := g1 (k - n)
          rw [show n + (k - n) = k by omega] at this
          rw [he]
          exact this
      refine ⟨env', hw, ?_⟩
      have hr : Chip8.run b env' c n = .ok (.ready c') := by
        rw [chip_run_world (env := env₁) c n (fun k hk => if_pos hk), e2 n, h]
      rw [Chip8.C59_split_partial (fun k => by rw [(hw k).2.1, (hw k).2.2.1]) n _ hr, Res.ok_bind]
      rw [show (fun k => env' (n + k)) = env₂ from funext fun k => by
        show (if n + k < n then env₁ (n + k) else env₂ (n + k - n)) = env₂ k
        rw [if_neg (by omega), Nat.add_sub_cancel_left]]
      exact g2

end

/-! ### Cases that meet the hypotheses -/

/-- NOP, NOP, JMP in slices of 5, 2 and 3 cycles: the first slice executes two NOPs and loses a cycle, the
second loses both; the third jumps. One run of ten cycles has executed one more NOP. -/
example : (slices .debug (.ready runProgram) [5, 2, 3]).map (fun s => s.unwrap.pc) = .ok 0x80fd ∧
    (run .debug runProgram 10).map (fun s => s.unwrap.pc) = .ok 0x80fe := by
  constructor <;> decide +kernel

/-- Slices of 7 cycles pass the state that a run of 4 cycles reaches, and come back to it. -/
example : (run .debug runProgram 4).map (fun s => s.unwrap.pc) = .ok 0x80ff ∧
    (slices .debug (.ready runProgram) [7, 9, 8]).map (fun s => s.unwrap.pc) = .ok 0x80fe := by
  constructor <;> decide +kernel

/-- A CHIP-8 in slices: `F015`, `F107` with a clock that moves from instruction to instruction. -/
example : ((chipSlices .debug (fun k => ⟨0, 1500000000 * k, 1500000000 * k, 1500000000 * k⟩)
    Chip8.timerSample [1, 0, 1]).map fun c => Spec.Chip8.V c .V1) = .ok 0x10 := by decide +kernel

/-- The clock of `timerEnv` moves half a second within the first instruction: sliced, the program reads
0x11 from the timer, in one run 0x10. -/
example : ((chipSlices .debug Chip8.timerEnv Chip8.timerSample [1, 1]).map
    fun c => Spec.Chip8.V c .V1) = .ok 0x11 ∧
    ∀ k, (Chip8.timerEnv k).iterAt ≤ (Chip8.timerEnv k).foldAt ∧
      (Chip8.timerEnv k).foldAt ≤ (Chip8.timerEnv k).iterAt + 500000000 := by
  refine ⟨by decide +kernel, fun k => ?_⟩
  unfold Chip8.timerEnv
  split <;> decide

/-- With slices of 2 cycles it arrives at the JMP and stays there, … -/
example : (slices .debug (.ready runProgram) (List.replicate 50 2)).map (fun s => s.unwrap.pc) =
    .ok 0x80ff := by decide +kernel

/-- … as `C154_stuck` says of any number of slices. -/
example (c : Mos6502 FlatRam) (ops : Operations) (d : Mos6502 FlatRam) (h : next .debug c = .ok (ops, d))
    (h3 : ops.cycles = 3) (k : Nat) : slices .debug (.ready c) (List.replicate k 2) = .ok (.ready c) :=
  C154_stuck h fun m hm => by rw [List.eq_of_mem_replicate hm]; omega

example : (next .debug (afterN .debug runProgram 2)).map (fun x => x.1.cycles) = .ok 3 := by
  decide +kernel

/-- `JMP 0x80fd` at 0x80fd hangs: there a run can be split after any number of cycles. -/
example : ∃ c : Mos6502 FlatRam, ∃ ops, next .debug c = .ok (ops, c) := by
  refine ⟨machine sampleRegs 0x4c 0xfd 0x80 (fun _ => 0), ⟨0, 3, [.Write16bitRegister .Pc 0x80fd]⟩, ?_⟩
  rfl

/-- A wait of 5 cycles, in slices of 3: a NOP in the second slice, where one run of six cycles has one
cycle left for it. -/
example : (slices .debug (.notReady 5 runProgram) [3, 3]).map (fun s => s.unwrap.pc) = .ok 0x80fe ∧
    (slices .debug (.notReady 5 runProgram) [6]).map (fun s => s.unwrap.pc) = .ok 0x80fd := by
  constructor <;> decide +kernel

end Verif.Props
