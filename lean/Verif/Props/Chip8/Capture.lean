import Verif.Model.Chip8.Capture
import Verif.Props.Chip8.Run

/-!
# CHIP-8: recording a run and replaying it (C152)

A recording is the microcode the iterator of a CPU emits, one item for each instruction. Replaying it
executes the microcode on a CPU at instants of the caller's choice. The replay asks neither the
memory nor the random number generator nor the keyboard for anything, and reads no clock but for
timer writes, so it ends in the state of the recording whatever the instants are, up to the instants
at which the timers were written.
-/

namespace Verif.Props.Chip8

open Verif Verif.Chip8 Verif.Spec.Chip8
open Verif.Mos (FlatRam)

variable {B R : Type} [Addressable B] {b : Build} {env : Nat → Env} {cpu : Chip8 B R}

/-- A microcode that sets a timer. -/
def SetsTimer (r : TimerRegisters) (v : Byte) (mc : Microcode) : Prop :=
  mc = .Write8bitRegister (.TimerRegisters r) v

/-- A microcode that changes the display. -/
def drawing : Microcode → Bool
  | .SetDisplayPixel _ _ => true
  | .SetDisplayRange _ _ _ => true
  | _ => false

/-! ### Lemmas -/

theorem replay_append (at' : Nat → Instant) (u w : List Microcode) (c : Chip8 B R) :
    replay b at' (u ++ w) c =
      (replay b at' u c >>= replay b (fun i => at' (u.length + i)) w) := by
  induction u generalizing at' c with
  | nil => simp [replay]
  | cons mc u ih =>
    simp only [List.cons_append, replay, List.length_cons]
    cases executeMut b (at' 0) c mc with
    | error p => rfl
    | ok d =>
      simp only [Res.ok_bind]
      rw [ih]
      have : (fun i => at' (u.length + i + 1)) = fun i => at' (u.length + 1 + i) := by
        funext i
        congr 1
        omega
      rw [this]

theorem replay_const (t : Instant) (l : List Microcode) (c : Chip8 B R) :
    replay b (fun _ => t) l c = executeAll b t c l := by
  induction l generalizing c with
  | nil => rfl
  | cons mc l ih =>
    simp only [replay, executeAll]
    cases executeMut b t c mc with
    | error p => rfl
    | ok d =>
      simp only [Res.ok_bind]
      exact ih d

/-- Only the instants at the positions of the list matter. -/
theorem replay_congr {at₁ at₂ : Nat → Instant} {l : List Microcode} (c : Chip8 B R)
    (h : ∀ i < l.length, at₁ i = at₂ i) : replay b at₁ l c = replay b at₂ l c := by
  induction l generalizing at₁ at₂ c with
  | nil => rfl
  | cons mc l ih =>
    simp only [replay]
    rw [h 0 (by simp)]
    cases executeMut b (at₂ 0) c mc with
    | error p => rfl
    | ok d =>
      simp only [Res.ok_bind]
      exact ih d fun i hi => h (i + 1) (by simp; omega)

theorem same_replay {c c' : Chip8 B R} (h : SameButInstants c c') (at₁ at₂ : Nat → Instant)
    {l : List Microcode} (hl : ∀ mc ∈ l, NoTimerInc mc) :
    (∃ p, replay b at₁ l c = .error p ∧ replay b at₂ l c' = .error p) ∨
    ∃ d d', replay b at₁ l c = .ok d ∧ replay b at₂ l c' = .ok d' ∧ SameButInstants d d' := by
  induction l generalizing c c' at₁ at₂ with
  | nil => exact .inr ⟨_, _, rfl, rfl, h⟩
  | cons mc l ih =>
    simp only [replay]
    rcases same_exec (b := b) h (at₁ 0) (at₂ 0) (hl mc (by simp)) with ⟨p, h1, h2⟩ | ⟨d, d', h1, h2, h3⟩
    · exact .inl ⟨p, by rw [h1]; rfl, by rw [h2]; rfl⟩
    · rw [h1, h2]
      exact ih h3 _ _ fun mc hm => hl mc (by simp [hm])

theorem record_iterates (n k : Nat) (c : Chip8 B R) :
    iterates b env n k c = (record b env n k c).map Prod.snd := by
  induction n generalizing k c with
  | zero => rfl
  | succ n ih =>
    simp only [iterates, record]
    cases next b (env k) c with
    | error p => rfl
    | ok x =>
      obtain ⟨mcs, it⟩ := x
      simp only [Res.ok_bind]
      rw [ih]
      cases record b env n (k + 1) it <;> rfl

theorem record_succ {n k : Nat} {c it : Chip8 B R} {items : List (List Microcode)}
    (h : record b env (n + 1) k c = .ok (items, it)) :
    ∃ mcs it₁ rest, next b (env k) c = .ok (mcs, it₁) ∧
      record b env n (k + 1) it₁ = .ok (rest, it) ∧ items = mcs :: rest := by
  simp only [record] at h
  cases h1 : next b (env k) c with
  | error p => rw [h1] at h; cases h
  | ok x =>
    obtain ⟨mcs, it₁⟩ := x
    rw [h1] at h
    simp only [Res.ok_bind] at h
    cases h2 : record b env n (k + 1) it₁ with
    | error p => rw [h2] at h; cases h
    | ok y =>
      obtain ⟨rest, it₂⟩ := y
      rw [h2] at h
      simp only [Res.ok_bind] at h
      cases h
      exact ⟨mcs, it₁, rest, rfl, h2, rfl⟩

theorem record_noTimerInc {n k : Nat} {c it : Chip8 B R} {items : List (List Microcode)}
    (h : record b env n k c = .ok (items, it)) : ∀ mc ∈ items.flatten, NoTimerInc mc := by
  induction n generalizing k c items with
  | zero => cases h; simp
  | succ n ih =>
    obtain ⟨mcs, it₁, rest, h1, h2, rfl⟩ := record_succ h
    intro mc hm
    rw [List.flatten_cons, List.mem_append] at hm
    exact hm.elim (next_noTimerInc h1 mc) (ih h2 mc)

/-- Instants that are `t` for the first `n` microcodes and those of `at'` from then on. -/
theorem replay_batch {t : Instant} {at' : Nat → Instant} {u w : List Microcode} {c d : Chip8 B R}
    (h : executeAll b t c u = .ok d) :
    replay b (fun i => if i < u.length then t else at' (i - u.length)) (u ++ w) c =
      replay b at' w d := by
  rw [replay_append, replay_congr (at₂ := fun _ => t) c (fun i hi => by simp [hi]), replay_const, h,
    Res.ok_bind]
  apply replay_congr
  intro i _
  rw [if_neg (by omega)]
  congr 1
  omega

/-- The iterator itself is a replay of what it has emitted. -/
theorem record_replay {n k : Nat} {c it : Chip8 B R} {items : List (List Microcode)}
    (h : record b env n k c = .ok (items, it)) :
    ∃ at', replay b at' items.flatten c = .ok it := by
  induction n generalizing k c items with
  | zero => cases h; exact ⟨fun _ => 0, rfl⟩
  | succ n ih =>
    obtain ⟨mcs, it₁, rest, h1, h2, rfl⟩ := record_succ h
    obtain ⟨at', h3⟩ := ih h2
    exact ⟨_, by rw [List.flatten_cons, replay_batch (next_exec h1), h3]⟩

/-- So is `run`, with the instants at which it folds. -/
theorem runLoop_replay {n k : Nat} {it₀ c it : Chip8 B R} {items : List (List Microcode)}
    (hs : SameButInstants it₀ c) (h : record b env n k it₀ = .ok (items, it)) :
    ∃ at', (∀ i < items.flatten.length, ∃ j < n, at' i = (env (k + j)).foldAt) ∧
      runLoop b env n k it₀ c = replay b at' items.flatten c := by
  induction n generalizing k it₀ c items with
  | zero => cases h; exact ⟨fun _ => 0, by simp, rfl⟩
  | succ n ih =>
    obtain ⟨mcs, it₁, rest, h1, h2, rfl⟩ := record_succ h
    rcases same_execAll (b := b) hs (env k).iterAt (env k).foldAt (next_noTimerInc h1) with
      ⟨p, h3, -⟩ | ⟨d, d', h3, h4, h5⟩
    · rw [next_exec h1] at h3
      cases h3
    · rw [next_exec h1] at h3
      cases h3
      obtain ⟨at', h6, h7⟩ := ih h5 h2
      refine ⟨_, ?_, by
        rw [List.flatten_cons, replay_batch h4, ← h7]
        simp only [runLoop]
        rw [h1, Res.ok_bind]
        simp only
        rw [h4, Res.ok_bind]⟩
      intro i hi
      rw [List.flatten_cons, List.length_append] at hi
      by_cases hlt : i < mcs.length
      · exact ⟨0, by omega, by rw [if_pos hlt]; rfl⟩
      · obtain ⟨j, hj, he⟩ := h6 (i - mcs.length) (by omega)
        exact ⟨j + 1, by omega, by
          rw [if_neg hlt, he, show k + 1 + j = k + (j + 1) by omega]⟩

/-! ### The theorems -/

/-- A recording panics exactly when the run of as many instructions does, and with the same panic.
If it does not panic, it has one item for each instruction. -/
theorem C152_panics (n : Nat) (p : Panic) :
    record b env n 0 cpu = .error p ↔ run b env cpu n = .error p := by
  have h1 := record_iterates (b := b) (env := env) n 0 cpu
  rcases C59_iterator_agrees_partial (b := b) (env := env) (cpu := cpu) n with
    ⟨q, h2, h3⟩ | ⟨it, c, h2, h3, -⟩
  · rw [h2] at h1
    rw [h3]
    cases h4 : record b env n 0 cpu with
    | error r =>
      rw [h4] at h1
      cases h1
      exact ⟨fun h => by cases h; rfl, fun h => by cases h; rfl⟩
    | ok x => rw [h4] at h1; cases h1
  · rw [h2] at h1
    rw [h3]
    cases h4 : record b env n 0 cpu with
    | error r => rw [h4] at h1; cases h1
    | ok x => exact ⟨fun h => (by cases h), fun h => (by cases h)⟩

/-- A recording has one item for each instruction, and each item ends with the step of the program
counter over the instruction. -/
theorem C152_items {n : Nat} {items : List (List Microcode)} {it : Chip8 B R}
    (h : record b env n 0 cpu = .ok (items, it)) :
    items.length = n ∧
    ∀ item ∈ items, item.getLast? = some (.Inc16bitRegister .ProgramCounter 2) := by
  generalize hk : (0 : Nat) = k at h
  clear hk
  induction n generalizing k cpu items with
  | zero => cases h; simp
  | succ n ih =>
    obtain ⟨mcs, it₁, rest, h1, h2, rfl⟩ := record_succ h
    obtain ⟨h3, h4⟩ := ih k.succ h2
    refine ⟨by simp [h3], fun item hi => ?_⟩
    rcases List.mem_cons.1 hi with rfl | hi
    · unfold next at h1
      obtain ⟨op, -, h1⟩ := bind_ok h1
      obtain ⟨l, -, h1⟩ := bind_ok h1
      obtain ⟨c, -, h1⟩ := bind_ok h1
      cases h1
      simp
    · exact h4 item hi

/-- Replaying a recording never panics, at whatever instants, and ends in the state in which the
iterator is, up to the instants at which the timers were written. The replay has no random numbers,
keys or clock readings of its own: those of the recording are in the microcode. -/
theorem C152_replay {n : Nat} {items : List (List Microcode)} {it : Chip8 B R}
    (h : record b env n 0 cpu = .ok (items, it)) (at' : Nat → Instant) :
    ∃ d, replay b at' items.flatten cpu = .ok d ∧ SameButInstants it d := by
  obtain ⟨at₁, h1⟩ := record_replay h
  rcases same_replay (b := b) (same_refl cpu) at₁ at' (record_noTimerInc h) with
    ⟨p, h2, -⟩ | ⟨d, d', h2, h3, h4⟩
  · rw [h1] at h2; cases h2
  · rw [h1] at h2
    cases h2
    exact ⟨d', h3, h4⟩

/-- `run` is a replay of the recording, each microcode at an instant at which `run` executes one. -/
theorem C152_run {n : Nat} {items : List (List Microcode)} {it : Chip8 B R}
    (h : record b env n 0 cpu = .ok (items, it)) :
    ∃ at' d, (∀ i < items.flatten.length, ∃ k < n, at' i = (env k).foldAt) ∧
      replay b at' items.flatten cpu = .ok d ∧ run b env cpu n = .ok (.ready d) := by
  obtain ⟨at', h1, h2⟩ := runLoop_replay (same_refl cpu) h
  obtain ⟨d, h3, -⟩ := C152_replay h at'
  refine ⟨at', d, fun i hi => ?_, h3, ?_⟩
  · obtain ⟨k, hk, he⟩ := h1 i hi
    exact ⟨k, hk, by rw [he, Nat.zero_add]⟩
  · unfold run
    rw [h2, h3]
    rfl

theorem record_add (m n k : Nat) (c : Chip8 B R) :
    record b env (m + n) k c = (do
      let (l₁, it₁) ← record b env m k c
      let (l₂, it) ← record b env n (k + m) it₁
      .ok (l₁ ++ l₂, it)) := by
  induction m generalizing k c with
  | zero =>
    simp only [record, Nat.zero_add, Nat.add_zero, Res.ok_bind, List.nil_append]
    cases record b env n k c <;> rfl
  | succ m ih =>
    rw [Nat.succ_add]
    simp only [record]
    cases next b (env k) c with
    | error p => rfl
    | ok x =>
      obtain ⟨mcs, it⟩ := x
      simp only [Res.ok_bind]
      rw [ih, show k + 1 + m = k + (m + 1) by omega]
      cases record b env m (k + 1) it with
      | error p => rfl
      | ok y =>
        obtain ⟨l₁, it₁⟩ := y
        simp only [Res.ok_bind]
        cases record b env n (k + (m + 1)) it₁ <;> rfl

theorem record_shift (m n k : Nat) (c : Chip8 B R) :
    record b env n (m + k) c = record b (fun k => env (m + k)) n k c := by
  induction n generalizing k c with
  | zero => rfl
  | succ n ih =>
    unfold record
    cases next b (env (m + k)) c with
    | error p => rfl
    | ok x =>
      obtain ⟨mcs, it⟩ := x
      simp only [Res.ok_bind]
      rw [Nat.add_assoc, ih]

/-- A recording can be split anywhere: stop, turn the iterator into a CPU, make an iterator of it
and go on. However the clock moves the items and the last state are the same. A run cannot be split
like this (`C59_split_differs`). -/
theorem C152_split (m n : Nat) {l₁ : List (List Microcode)} {it₁ : Chip8 B R}
    (h : record b env m 0 cpu = .ok (l₁, it₁)) (l : List (List Microcode)) (it : Chip8 B R) :
    record b env (m + n) 0 cpu = .ok (l, it) ↔
      ∃ l₂, record b (fun k => env (m + k)) n 0 it₁ = .ok (l₂, it) ∧ l = l₁ ++ l₂ := by
  have hs := record_shift (b := b) (env := env) m n 0 it₁
  rw [Nat.add_zero] at hs
  rw [record_add, h, ← hs]
  simp only [Res.ok_bind, Nat.zero_add]
  cases record b env n m it₁ with
  | error p => exact ⟨fun h => (by cases h), fun ⟨_, h, _⟩ => (by cases h)⟩
  | ok y =>
    obtain ⟨l₂, it'⟩ := y
    simp only [Res.ok_bind]
    constructor
    · intro h; cases h; exact ⟨l₂, rfl, rfl⟩
    · rintro ⟨l₂', h, rfl⟩; cases h; rfl

/-- Stopping a replay after `m` instructions gives the state of the recorded machine after `m`
instructions, up to the instants of the timers. -/
theorem C152_prefix {m n : Nat} {l₁ l : List (List Microcode)} {it₁ it : Chip8 B R}
    (h₁ : record b env m 0 cpu = .ok (l₁, it₁)) (h : record b env (m + n) 0 cpu = .ok (l, it))
    (at' : Nat → Instant) :
    ∃ d, replay b at' (l.take m).flatten cpu = .ok d ∧ SameButInstants it₁ d := by
  obtain ⟨l₂, -, rfl⟩ := (C152_split m n h₁ l it).1 h
  have hlen := (C152_items h₁).1
  rw [← hlen, List.take_left]
  exact C152_replay h₁ at'

/-! ### The timers after a replay -/

theorem exec_timer {t : Instant} {c d : Chip8 B R} {mc : Microcode} (hn : NoTimerInc mc)
    (h : executeMut b t c mc = .ok d) :
    ((∀ v, ¬ SetsTimer .Delay v mc) → d.dt = c.dt) ∧
    ((∀ v, ¬ SetsTimer .Sound v mc) → d.st = c.st) := by
  cases mc with
  | WriteMemory a v =>
    obtain ⟨⟨r, am⟩, -, h⟩ := bind_ok h
    obtain ⟨_, -, h⟩ := bind_ok h
    cases h
    exact ⟨fun _ => rfl, fun _ => rfl⟩
  | Write8bitRegister reg v =>
    cases reg with
    | GpRegisters g =>
      obtain ⟨_, -, h⟩ := bind_ok h
      cases h
      exact ⟨fun _ => rfl, fun _ => rfl⟩
    | TimerRegisters r =>
      cases r with
      | Delay => cases h; exact ⟨fun h => (h v rfl).elim, fun _ => rfl⟩
      | Sound => cases h; exact ⟨fun _ => rfl, fun h => (h v rfl).elim⟩
  | Inc8bitRegister reg v =>
    cases reg with
    | GpRegisters g =>
      obtain ⟨_, -, h⟩ := bind_ok h
      obtain ⟨_, -, h⟩ := bind_ok h
      cases h
      exact ⟨fun _ => rfl, fun _ => rfl⟩
    | TimerRegisters r => exact hn.elim
  | Dec8bitRegister reg v => cases h; exact ⟨fun _ => rfl, fun _ => rfl⟩
  | Write16bitRegister reg v => cases reg <;> cases h <;> exact ⟨fun _ => rfl, fun _ => rfl⟩
  | Inc16bitRegister reg v => cases reg <;> cases h <;> exact ⟨fun _ => rfl, fun _ => rfl⟩
  | Dec16bitRegister reg v => cases h; exact ⟨fun _ => rfl, fun _ => rfl⟩
  | PushStack v =>
    obtain ⟨⟨r, st⟩, -, h⟩ := bind_ok h
    obtain ⟨_, -, h⟩ := bind_ok h
    cases h
    exact ⟨fun _ => rfl, fun _ => rfl⟩
  | PopStack v => cases h; exact ⟨fun _ => rfl, fun _ => rfl⟩
  | KeyPress k => cases h; exact ⟨fun _ => rfl, fun _ => rfl⟩
  | KeyRelease => cases h; exact ⟨fun _ => rfl, fun _ => rfl⟩
  | SetDisplayPixel xy v => cases h; exact ⟨fun _ => rfl, fun _ => rfl⟩
  | SetDisplayRange s e v =>
    simp only [executeMut, setDisplayRange_eq] at h
    cases h1 : rangeCounts b s e with
    | error p => rw [h1] at h; cases h
    | ok n => rw [h1] at h; cases h; exact ⟨fun _ => rfl, fun _ => rfl⟩

theorem replay_timer {at' : Nat → Instant} {l : List Microcode} {c d : Chip8 B R}
    (hn : ∀ mc ∈ l, NoTimerInc mc) (h : replay b at' l c = .ok d) :
    ((∀ mc ∈ l, ∀ v, ¬ SetsTimer .Delay v mc) → d.dt = c.dt) ∧
    ((∀ mc ∈ l, ∀ v, ¬ SetsTimer .Sound v mc) → d.st = c.st) := by
  induction l generalizing at' c with
  | nil => cases h; exact ⟨fun _ => rfl, fun _ => rfl⟩
  | cons mc l ih =>
    simp only [replay] at h
    obtain ⟨c₁, h1, h⟩ := bind_ok h
    obtain ⟨h2, h3⟩ := exec_timer (hn mc (by simp)) h1
    obtain ⟨h4, h5⟩ := ih (fun mc hm => hn mc (by simp [hm])) h
    exact ⟨fun hs => (h4 fun mc hm => hs mc (by simp [hm])).trans (h2 (hs mc (by simp))),
      fun hs => (h5 fun mc hm => hs mc (by simp [hm])).trans (h3 (hs mc (by simp)))⟩

/-- What the instants of a replay decide: a timer the recording does not set keeps value and
instant, and a timer it sets has the last value set, counted from the instant at which the replay
set it. -/
theorem C152_timers {n : Nat} {items : List (List Microcode)} {it d : Chip8 B R}
    (h : record b env n 0 cpu = .ok (items, it)) {at' : Nat → Instant}
    (hd : replay b at' items.flatten cpu = .ok d) :
    ((∀ mc ∈ items.flatten, ∀ v, ¬ SetsTimer .Delay v mc) → d.dt = cpu.dt) ∧
    ((∀ mc ∈ items.flatten, ∀ v, ¬ SetsTimer .Sound v mc) → d.st = cpu.st) ∧
    (∀ u mc w v, items.flatten = u ++ mc :: w → SetsTimer .Delay v mc →
      (∀ mc ∈ w, ∀ v, ¬ SetsTimer .Delay v mc) → d.dt = ⟨at' u.length, v⟩) ∧
    (∀ u mc w v, items.flatten = u ++ mc :: w → SetsTimer .Sound v mc →
      (∀ mc ∈ w, ∀ v, ¬ SetsTimer .Sound v mc) → d.st = ⟨at' u.length, v⟩) := by
  have hn := record_noTimerInc h
  refine ⟨(replay_timer hn hd).1, (replay_timer hn hd).2, ?_, ?_⟩
  · rintro u mc w v he rfl hw
    rw [he, replay_append] at hd
    obtain ⟨c₁, -, hd⟩ := bind_ok hd
    simp only [replay] at hd
    obtain ⟨c₂, h2, hd⟩ := bind_ok hd
    have := (replay_timer (fun mc hm => hn mc (by rw [he]; simp [hm])) hd).1 hw
    rw [this]
    cases h2
    rfl
  · rintro u mc w v he rfl hw
    rw [he, replay_append] at hd
    obtain ⟨c₁, -, hd⟩ := bind_ok hd
    simp only [replay] at hd
    obtain ⟨c₂, h2, hd⟩ := bind_ok hd
    have := (replay_timer (fun mc hm => hn mc (by rw [he]; simp [hm])) hd).2 hw
    rw [this]
    cases h2
    rfl

/-! ### Replaying without the display -/

theorem exec_drawing {t : Instant} {c d : Chip8 B R} {mc : Microcode} (hm : drawing mc = true)
    (h : executeMut b t c mc = .ok d) : { d with display := c.display } = c := by
  cases mc <;> simp only [drawing, Bool.false_eq_true] at hm
  case SetDisplayPixel xy v => cases h; rfl
  case SetDisplayRange s e v =>
    simp only [executeMut, setDisplayRange_eq] at h
    cases h1 : rangeCounts b s e with
    | error p => rw [h1] at h; cases h
    | ok n => rw [h1] at h; cases h; rfl

theorem exec_not_drawing (t : Instant) (c : Chip8 B R) (x : Display) {mc : Microcode}
    (hm : drawing mc = false) :
    executeMut b t { c with display := x } mc =
      (executeMut b t c mc).map fun d => { d with display := x } := by
  cases mc with
  | WriteMemory a v =>
    simp only [executeMut, writeMemory]
    cases Addressable.write b c.address_space a v with
    | error p => rfl
    | ok y =>
      obtain ⟨r, am⟩ := y
      simp only [Res.ok_bind]
      cases unwrapResult r <;> rfl
  | Write8bitRegister reg v =>
    cases reg with
    | GpRegisters g =>
      simp only [executeMut, write8]
      cases setGp c.gp_registers g v <;> rfl
    | TimerRegisters r => cases r <;> rfl
  | Inc8bitRegister reg v =>
    cases reg with
    | GpRegisters g =>
      simp only [executeMut, inc8, readGpRegister]
      cases c.gp_registers[g.asUsize]? with
      | none => rfl
      | some w =>
        simp only [Res.ok_bind]
        cases setGp c.gp_registers g (w + v) <;> rfl
    | TimerRegisters r =>
      cases r with
      | Delay =>
        simp only [executeMut, inc8]
        cases c.dt.read b t <;> rfl
      | Sound =>
        simp only [executeMut, inc8]
        cases c.st.read b t <;> rfl
  | Dec8bitRegister reg v => rfl
  | Write16bitRegister reg v => cases reg <;> rfl
  | Inc16bitRegister reg v => cases reg <;> rfl
  | Dec16bitRegister reg v => rfl
  | PushStack v =>
    simp only [executeMut, pushStack]
    cases c.stack.write c.sp.read.toNat v with
    | error p => rfl
    | ok y =>
      obtain ⟨r, st⟩ := y
      simp only [Res.ok_bind]
      cases unwrapResult r <;> rfl
  | PopStack v => rfl
  | KeyPress k => rfl
  | KeyRelease => rfl
  | SetDisplayPixel xy v => cases hm
  | SetDisplayRange s e v => cases hm

theorem replay_headless {at' : Nat → Instant} {l : List Microcode} {c d : Chip8 B R} (x : Display)
    (h : replay b at' l c = .ok d) :
    ∃ at₁, replay b at₁ (l.filter fun mc => !drawing mc) { c with display := x } =
      .ok { d with display := x } := by
  induction l generalizing at' c with
  | nil => cases h; exact ⟨at', rfl⟩
  | cons mc l ih =>
    simp only [replay] at h
    obtain ⟨c₁, h1, h⟩ := bind_ok h
    obtain ⟨at₁, h2⟩ := ih h
    cases hm : drawing mc with
    | true =>
      refine ⟨at₁, ?_⟩
      rw [List.filter_cons_of_neg (by simp [hm])]
      have h3 := congrArg (fun e : Chip8 B R => { e with display := x }) (exec_drawing hm h1)
      simp only at h3
      rw [← h3]
      exact h2
    | false =>
      refine ⟨fun i => if i = 0 then at' 0 else at₁ (i - 1), ?_⟩
      rw [List.filter_cons_of_pos (by simp [hm])]
      simp only [replay, if_true]
      rw [exec_not_drawing _ _ _ hm, h1]
      exact h2

/-- A recording replayed without the microcode that draws gives the same state with the display the
CPU had before, again at whatever instants. -/
theorem C152_headless {n : Nat} {items : List (List Microcode)} {it : Chip8 B R}
    (h : record b env n 0 cpu = .ok (items, it)) (at' : Nat → Instant) :
    ∃ d, replay b at' (items.flatten.filter fun mc => !drawing mc) cpu = .ok d ∧
      SameButInstants { it with display := cpu.display } d := by
  obtain ⟨at₁, h1⟩ := record_replay h
  obtain ⟨at₂, h2⟩ := replay_headless cpu.display h1
  have hn : ∀ mc ∈ items.flatten.filter (fun mc => !drawing mc), NoTimerInc mc :=
    fun mc hm => record_noTimerInc h mc (List.mem_filter.1 hm).1
  rcases same_replay (b := b) (same_refl cpu) at₂ at' hn with ⟨p, h3, -⟩ | ⟨d, d', h3, h4, h5⟩
  · rw [h2] at h3; cases h3
  · rw [h2] at h3
    cases h3
    exact ⟨d', h4, h5⟩


theorem exec_keeps_display {t : Instant} {c d : Chip8 B R} {mc : Microcode} (hm : drawing mc = false)
    (h : executeMut b t c mc = .ok d) : d.display = c.display := by
  have h1 := exec_not_drawing (b := b) t c c.display hm
  have h2 : executeMut b t c mc = (executeMut b t c mc).map fun d => { d with display := c.display } := h1
  rw [h] at h2
  have h3 : d = { d with display := c.display } := Except.ok.inj h2
  rw [h3]

theorem exec_screen {t u : Instant} {c d : Chip8 B R} {B' R' : Type} [Addressable B'] {c' : Chip8 B' R'} {mc : Microcode}
    (hm : drawing mc = true) (h : executeMut b t c mc = .ok d) (hd : c'.display = c.display) :
    executeMut b u c' mc = .ok { c' with display := d.display } := by
  cases mc <;> simp only [drawing, Bool.false_eq_true] at hm
  case SetDisplayPixel xy v =>
    cases h
    simp only [executeMut, hd]
  case SetDisplayRange s e v =>
    simp only [executeMut, setDisplayRange_eq] at h ⊢
    cases h1 : rangeCounts b s e with
    | error p => rw [h1] at h; cases h
    | ok n =>
      rw [h1] at h
      cases h
      simp only [hd]
      rfl

/-- A front end that follows only the microcode that draws shows the display of the recorded machine:
on any machine, with any bus and generator, that had the same display before. It touches nothing
else there. -/
theorem C152_screen {n : Nat} {items : List (List Microcode)} {it : Chip8 B R}
    (h : record b env n 0 cpu = .ok (items, it)) {B' R' : Type} [Addressable B'] {c' : Chip8 B' R'}
    (hd : c'.display = cpu.display) (at' : Nat → Instant) :
    replay b at' (items.flatten.filter drawing) c' = .ok { c' with display := it.display } := by
  obtain ⟨at₁, h1⟩ := record_replay h
  clear h
  generalize items.flatten = l at h1
  induction l generalizing at' at₁ cpu c' with
  | nil =>
    cases h1
    rw [← hd]
    rfl
  | cons mc l ih =>
    simp only [replay] at h1
    obtain ⟨c₁, h2, h1⟩ := bind_ok h1
    cases hm : drawing mc with
    | true =>
      rw [List.filter_cons_of_pos hm]
      simp only [replay]
      rw [exec_screen hm h2 hd, Res.ok_bind, ih (cpu := c₁) (c' := { c' with display := c₁.display }) rfl _ _ h1]
    | false =>
      rw [List.filter_cons_of_neg (by simp [hm])]
      exact ih (cpu := c₁) (hd.trans (exec_keeps_display hm h2).symm) _ _ h1

/-! ### Examples -/

/-- The recording of the two instructions of `timerSample` in `timerEnv`: the timer read is in the
microcode, 0x10 because the iterator's own timer write was 1.2 seconds earlier. -/
example : (record .debug timerEnv 2 0 timerSample).map Prod.fst =
    .ok [[.Write8bitRegister (.TimerRegisters .Delay) 0x11,
        .Inc16bitRegister .ProgramCounter 2],
      [.Write8bitRegister (.GpRegisters .V1) 0x10,
        .Inc16bitRegister .ProgramCounter 2]] := by decide +kernel

/-- Replayed an hour later, the delay timer counts from the replay and V1 is as recorded. -/
example : ∃ items it d, record .debug timerEnv 2 0 timerSample = .ok (items, it) ∧
    replay .debug (fun i => 3600000000000 + i) items.flatten timerSample = .ok d ∧
    it.dt = ⟨0, 0x11⟩ ∧ d.dt = ⟨3600000000000, 0x11⟩ ∧ V d .V1 = 0x10 ∧ V it .V1 = 0x10 := by
  cases h : record .debug timerEnv 2 0 timerSample with
  | error p =>
    have : (record .debug timerEnv 2 0 timerSample).isOk = true := by decide +kernel
    rw [h] at this
    cases this
  | ok x =>
    obtain ⟨items, it⟩ := x
    obtain ⟨d, h1, h2⟩ := C152_replay h (fun i => 3600000000000 + i)
    have hi : items = [[.Write8bitRegister (.TimerRegisters .Delay) 0x11,
        .Inc16bitRegister .ProgramCounter 2],
      [.Write8bitRegister (.GpRegisters .V1) 0x10, .Inc16bitRegister .ProgramCounter 2]] := by
      have h4 : (record .debug timerEnv 2 0 timerSample).map Prod.fst =
          .ok [[.Write8bitRegister (.TimerRegisters .Delay) 0x11,
              .Inc16bitRegister .ProgramCounter 2],
            [.Write8bitRegister (.GpRegisters .V1) 0x10,
              .Inc16bitRegister .ProgramCounter 2]] := by decide +kernel
      rw [h] at h4
      exact Except.ok.inj h4
    have hit : (record .debug timerEnv 2 0 timerSample).map (fun r => (r.2.dt, V r.2 .V1)) =
        .ok (⟨0, 0x11⟩, 0x10) := by decide +kernel
    rw [h] at hit
    have hit := Except.ok.inj hit
    have hdt := (C152_timers h h1).2.2.1 [] _ _ 0x11 (by rw [hi]; rfl) rfl
      (by intro mc hm v hs; cases hs; simp at hm)
    obtain ⟨t, u, rfl⟩ := h2
    exact ⟨items, it, _, rfl, h1, congrArg Prod.fst hit, hdt, congrArg Prod.snd hit,
      congrArg Prod.snd hit⟩

/-- `CLS` and a random number to V2, in front of a display with one pixel set. -/
def drawSample : Chip8 FlatRam Unit :=
  let c := place sample .Cls
  { c with
    address_space := { mem := placeMem c.address_space.mem 0x202 (.Rnd .V2 0xff) }
    display := (Display.default.writePixel 3 4 true).1 }

/-- Only the clearing of the screen draws: the front end's display loses its pixel. -/
example : ∃ items it, record .debug (fun k => ⟨0x5a, k, k, k⟩) 2 0 drawSample = .ok (items, it) ∧
    replay .debug (fun _ => 0) (items.flatten.filter drawing) { timerSample with display := drawSample.display } =
      .ok { timerSample with display := it.display } ∧
    drawSample.display ≠ it.display := by
  cases h : record .debug (fun k => ⟨0x5a, k, k, k⟩) 2 0 drawSample with
  | error p =>
    have : (record .debug (fun k => ⟨0x5a, k, k, k⟩) 2 0 drawSample).isOk = true := by decide +kernel
    rw [h] at this
    cases this
  | ok x =>
    obtain ⟨items, it⟩ := x
    refine ⟨items, it, rfl, C152_screen h (c' := { timerSample with display := drawSample.display }) rfl _, fun e => ?_⟩
    have h1 : (record .debug (fun k => ⟨0x5a, k, k, k⟩) 2 0 drawSample).map (fun r => r.2.display.pixel 3 4) =
        .ok (some false) := by decide +kernel
    rw [h] at h1
    have h2 : it.display.pixel 3 4 = some false := Except.ok.inj h1
    rw [← e] at h2
    revert h2
    decide +kernel

/-- The random number is in the recording, and a replay without the display clears nothing. -/
example : (record .debug (fun k => ⟨0x5a, k, k, k⟩) 2 0 drawSample).map Prod.fst =
    .ok [[.SetDisplayRange (0, 0) (64, 32) false, .Inc16bitRegister .ProgramCounter 2],
      [.Write8bitRegister (.GpRegisters .V2) 0x5a, .Inc16bitRegister .ProgramCounter 2]] := by
  decide +kernel

end Verif.Props.Chip8
