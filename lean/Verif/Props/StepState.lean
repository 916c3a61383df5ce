import Verif.Model.StepState

/-!
# Properties C09 – C10: `StepState`
-/

namespace Verif.Props

open Verif

/-- `n` calls of `decrement`. -/
def decrements {T : Type} : Nat → StepState T → StepState T
  | 0, s => s
  | n + 1, s => decrements n s.decrement

/-- The state is `Ready`. -/
def IsReady {T : Type} : StepState T → Prop
  | .ready _ => True
  | .notReady _ _ => False

instance {T : Type} (s : StepState T) : Decidable (IsReady s) := by
  cases s <;> unfold IsReady <;> infer_instance

/-! ## C09 StepState waits out its cycles before the CPU runs and never alters the CPU -/

/-- A waiting state with `c ≥ 1` cycles left becomes ready after exactly `c` decrements. -/
theorem decrements_notReady {T : Type} (t : T) (k c : Nat) (hc : 1 ≤ c) :
    IsReady (decrements k (.notReady c t)) ↔ c ≤ k := by
  induction k generalizing c with
  | zero => simp [decrements, IsReady]; omega
  | succ k ih =>
    rcases c with _ | _ | c
    · omega
    · simp only [decrements, StepState.decrement]
      have : ∀ j, IsReady (decrements j (.ready t)) := by
        intro j
        induction j with
        | zero => simp [decrements, IsReady]
        | succ j ihj => simpa [decrements, StepState.decrement] using ihj
      simp [this k]
    · simp only [decrements, StepState.decrement]
      rw [ih (c + 2 - 1) (by omega)]
      omega

/-- `StepState::new(n, cpu)` is `Ready` after `k` decrements iff `k ≥ n - 1`. -/
theorem C09_ready_after {T : Type} (t : T) (n k : Nat) :
    IsReady (decrements k (StepState.new n t)) ↔ n - 1 ≤ k := by
  have hr : ∀ j, IsReady (decrements j (.ready t)) := by
    intro j
    induction j with
    | zero => simp [decrements, IsReady]
    | succ j ihj => simpa [decrements, StepState.decrement] using ihj
  rcases n with _ | _ | n
  · simp [StepState.new, hr]
  · simp [StepState.new, hr]
  · have := decrements_notReady t k (n + 1) (by omega)
    simp only [StepState.new]
    rw [show n + 2 - 1 = n + 1 by omega]
    exact this

/-- Neither construction nor decrementing alters the wrapped CPU. -/
theorem C09_cpu_unaltered {T : Type} (t : T) (n k : Nat) :
    (decrements k (StepState.new n t)).unwrap = t ∧ (StepState.ofState t) = .ready t := by
  refine ⟨?_, rfl⟩
  have h : ∀ k (s : StepState T), (decrements k s).unwrap = s.unwrap := by
    intro k
    induction k with
    | zero => intro s; rfl
    | succ k ih =>
      intro s
      simp only [decrements]
      rw [ih]
      unfold StepState.decrement
      split <;> rfl
  rw [h]
  unfold StepState.new
  split <;> rfl

/-- Running a state with `r` cycles to wait for `c` cycles is running the CPU for `c - r` cycles
when `c ≥ r`; when `c < r` the CPU does not run (and is returned unaltered). `(r, cpu)` is what
`Into<(usize, T)>` shows of the state. -/
theorem C09_run_after_wait {T : Type} [Cpu T] (b : Build) (s : StepState T) (c : Nat) :
    (s.toPair.1 ≤ c → s.run b c = Cpu.run b s.unwrap (c - s.toPair.1)) ∧
    (c < s.toPair.1 → ∃ s', s.run b c = .ok s' ∧ s'.unwrap = s.unwrap) := by
  cases s with
  | ready t => simp [StepState.toPair, StepState.run, StepState.unwrap]
  | notReady r t =>
    simp only [StepState.toPair, StepState.run, StepState.unwrap]
    constructor
    · intro h; rw [if_neg (by omega)]
    · intro h; exact ⟨_, if_pos h, rfl⟩

/-- The remaining-cycle count of `Into<(usize, T)>` is the number of decrements still needed. -/
theorem C09_pair_counts {T : Type} (s : StepState T) (h : ∀ t, s ≠ .notReady 0 t) (k : Nat) :
    IsReady (decrements k s) ↔ s.toPair.1 ≤ k := by
  cases s with
  | ready t =>
    have := C09_ready_after t 0 k
    simpa [StepState.new, StepState.toPair] using this
  | notReady c t =>
    have hc : c ≠ 0 := by rintro rfl; exact h t rfl
    exact decrements_notReady t k c (by omega)

/-- Non-vacuity: a six-cycle wait is not ready after four decrements and ready after five, and no
freshly made state is the degenerate `NotReady(0, _)`. -/
example : ¬ IsReady (decrements 4 (StepState.new 6 ())) ∧ IsReady (decrements 5 (StepState.new 6 ()))
    ∧ (∀ t, StepState.new 6 () ≠ .notReady 0 t) := by
  refine ⟨by decide, by decide, by simp [StepState.new]⟩

/-! ## C10 Splitting a wait across several run calls does not shorten it -/

/-- A CPU whose own `run` can be split. -/
def RunSplits (T : Type) [Cpu T] (b : Build) : Prop :=
  ∀ (t : T) (x y : Nat),
    (Cpu.run b t x >>= fun s => s.run b y).map StepState.unwrap =
      (Cpu.run b t (x + y)).map StepState.unwrap

/-- The full statement of C10. -/
def C10_statement : Prop :=
  ∀ (T : Type) [Cpu T] (b : Build), RunSplits T b → ∀ (s : StepState T) (x y : Nat),
    (s.run b x >>= fun s' => s'.run b y).map StepState.unwrap =
      (s.run b (x + y)).map StepState.unwrap

/-- A CPU that counts the cycles it was run for. -/
structure Counter where
  count : Nat
  deriving DecidableEq

instance : Cpu Counter where
  run _ t n := .ok (.ready ⟨t.count + n⟩)

theorem counter_splits (b : Build) : RunSplits Counter b := by
  intro t x y
  simp [Cpu.run, StepState.run, Except.map, StepState.unwrap, Nat.add_assoc]

/-- C10 is false: a run that ends inside the wait forgets how much of it was left (indeed all of
it). Here a state with 5 cycles to wait, run for 3 and then 3 cycles, has run its CPU for 3
cycles, where a single run of 6 cycles runs it for 1. -/
theorem C10_wait_forgotten : ¬ C10_statement := by
  intro h
  have := h Counter Build.debug (counter_splits _) (.notReady 5 ⟨0⟩) 3 3
  revert this
  decide

/-- The exact behaviour: if the first run covers the wait (or there is none) splitting is
harmless; if it ends inside the wait, the second run starts the CPU immediately. Missing for the
full property: the second case, in which the code drops the rest of the wait. -/
theorem C10_partial {T : Type} [Cpu T] (b : Build) (hT : RunSplits T b) (s : StepState T)
    (x y : Nat) :
    (s.toPair.1 ≤ x →
      (s.run b x >>= fun s' => s'.run b y).map StepState.unwrap =
        (s.run b (x + y)).map StepState.unwrap) ∧
    (x < s.toPair.1 →
      (s.run b x >>= fun s' => s'.run b y) = Cpu.run b s.unwrap y) := by
  cases s with
  | ready t => exact ⟨fun _ => hT t x y, fun h => by simp [StepState.toPair] at h⟩
  | notReady r t =>
    constructor
    · intro h
      simp only [StepState.toPair] at h
      simp only [StepState.run]
      rw [if_neg (by omega), if_neg (by omega)]
      have := hT t (x - r) y
      rw [show x - r + y = x + y - r by omega] at this
      exact this
    · intro h
      simp only [StepState.toPair] at h
      simp [StepState.run, h, StepState.unwrap]

/-- Non-vacuity of `C10_partial`: a CPU that splits, and a wait in each of the two cases. -/
example : RunSplits Counter Build.debug ∧
    (StepState.notReady 5 (⟨0⟩ : Counter)).toPair.1 ≤ 7 ∧
    3 < (StepState.notReady 5 (⟨0⟩ : Counter)).toPair.1 :=
  ⟨counter_splits _, by decide, by decide⟩

end Verif.Props
