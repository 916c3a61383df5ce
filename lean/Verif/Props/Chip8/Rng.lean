import Verif.Proofs.Chip8Rng

/-!
# CHIP-8: the buffered random generator (C58, C109)

For every wrapped generator, every bound and every interleaving of the two threads.
-/

namespace Verif.Props.Chip8

open Verif Verif.Chip8 Verif.Chip8.BufferedRng

/-! ## C58 A wrapped generator that always answers -/

section
variable {stream : Nat → Byte} {bound : Nat} {s s' : BufferedRng}

/-- A wrapped generator that always answers. -/
def always (stream : Nat → Byte) : Nat → Option Byte := fun k => some (stream k)

/-- The first `n` bytes of the wrapped generator. -/
def firstBytes (stream : Nat → Byte) (n : Nat) : List Byte := (List.range n).map stream

theorem always_answers (stream : Nat → Byte) (n : Nat) :
    answers (always stream) n = (firstBytes stream n).map some := by
  simp [answers, firstBytes, always]

theorem map_some_inj {α : Type} {l l' : List α} (h : l.map some = l'.map some) : l = l' :=
  (List.map_inj_right (fun _ _ h => Option.some.inj h)).1 h

/-- The k-th answer of `random` is the k-th byte of the wrapped generator. -/
theorem C58_kth (h : Reachable (always stream) bound s) (k : Nat) (hk : k < s.got.length) :
    s.got[k] = stream k := (Option.some.inj (kth h k hk)).symm

/-- Nothing is lost or duplicated: what has been answered, what the channel holds and what the
thread is sending are, in this order, the bytes drawn so far. -/
theorem C58_in_order (h : Reachable (always stream) bound s) (ha : s.alive = true) :
    s.got ++ s.buf ++ s.sending.toList = firstBytes stream s.drawn := by
  have := (inv h).order ha
  rw [always_answers] at this
  exact map_some_inj this

/-- The buffer never holds more than its bound, and at most one byte more is drawn ahead. -/
theorem C58_bound (h : Reachable (always stream) bound s) (ha : s.alive = true) :
    s.buf.length ≤ bound ∧ s.drawn ≤ s.got.length + bound + 1 := by
  refine ⟨(inv h).le, ?_⟩
  have h1 := congrArg List.length (C58_in_order h ha)
  have h2 := (inv h).le
  have h3 : s.sending.toList.length ≤ 1 := by cases s.sending <;> simp
  simp only [firstBytes, List.length_append, List.length_map, List.length_range] at h1
  omega

/-- `random` never panics. -/
theorem C58_never_panics (h : Reachable (always stream) bound s) : s.panicked = false := by
  cases hp : s.panicked with
  | false => rfl
  | true => cases ((inv h).panicked hp).2.2.1

/-- A call of `random` is never stuck: some thread can always go on. -/
theorem C58_no_deadlock (h : Reachable (always stream) bound s) (hw : s.waiting = true) :
    ∃ a s', step (always stream) s a = some s' := goes_on h hw

theorem reachable_runs {stream : Nat → Option Byte} {as : List Action} (h : Reachable stream bound s)
    (hs : runs stream s as = some s') : Reachable stream bound s' := by
  obtain ⟨l, hl⟩ := h
  refine ⟨l ++ as, ?_⟩
  suffices ∀ (l : List Action) (s₀ : BufferedRng), runs stream s₀ l = some s →
      runs stream s₀ (l ++ as) = some s' from this l _ hl
  intro l
  induction l with
  | nil =>
    intro s₀ h
    cases h
    exact hs
  | cons a l ih =>
    intro s₀ h
    simp only [List.cons_append, runs] at h ⊢
    cases ha : step stream s₀ a with
    | none => rw [ha] at h; cases h
    | some s₁ =>
      rw [ha] at h
      exact ih s₁ h

/-- A call of `random` is answered within `2 * bound + 2` steps of the two threads, whatever the
scheduling: there is no interleaving in which the caller is blocked for longer. With
`C58_no_deadlock` the caller is never blocked forever. -/
theorem C58_answered {as : List Action} (h : Reachable (always stream) bound s) (hw : s.waiting = true)
    (hs : runs (always stream) s as = some s') (hl : 2 * bound + 2 ≤ as.length) :
    s.got.length < s'.got.length := by
  rcases ends h hw hs hl with h' | h'
  · exact h'
  · rw [C58_never_panics (reachable_runs h hs)] at h'
    cases h'

theorem runs_append {stream : Nat → Option Byte} (as bs : List Action) (s : BufferedRng) :
    runs stream s (as ++ bs) = (runs stream s as).bind fun s => runs stream s bs := by
  induction as generalizing s with
  | nil => rfl
  | cons a as ih =>
    simp only [List.cons_append, runs]
    cases step stream s a with
    | none => rfl
    | some s => exact ih s

/-- The producer works ahead: without any call it fills the buffer up to its bound. -/
theorem C58_fills (stream : Nat → Byte) {n : Nat} (hn : n ≤ bound) :
    ∃ s, runs (always stream) (withCapacity bound) ((List.replicate n [Action.draw, .send]).flatten) = some s ∧
      s.buf = firstBytes stream n ∧ s.got = [] := by
  suffices ∃ s, runs (always stream) (withCapacity bound)
      ((List.replicate n [Action.draw, .send]).flatten) = some s ∧ s.buf = firstBytes stream n ∧
      s.got = [] ∧ s.drawn = n ∧ s.sending = none ∧ s.done = false ∧ s.alive = true ∧ s.bound = bound by
    obtain ⟨s, h1, h2, h3, -⟩ := this
    exact ⟨s, h1, h2, h3⟩
  induction n with
  | zero => exact ⟨_, rfl, rfl, rfl, rfl, rfl, rfl, rfl, rfl⟩
  | succ n ih =>
    obtain ⟨s, h1, h2, h3, h4, h5, h6, h7, h8⟩ := ih (by omega)
    refine ⟨{ s with drawn := n + 1, buf := s.buf ++ [stream n] }, ?_, ?_, h3, rfl, h5, h6, h7, h8⟩
    · rw [List.replicate_succ', List.flatten_append, runs_append, h1]
      have hl : s.buf.length < s.bound := by
        rw [h2, h8]
        simp [firstBytes]
        omega
      simp only [List.flatten_cons, List.flatten_nil, List.append_nil, runs, step, h5, h6,
        and_self, if_true, always, h4, h7, hl, Option.bind]
    · simp only [h2]
      simp [firstBytes, List.range_succ]

/-- The generator made by `new` works 1024 bytes ahead and not more. -/
theorem C58_default (stream : Nat → Byte) :
    (∃ as s, runs (always stream) BufferedRng.new as = some s ∧ s.buf = firstBytes stream 1024) ∧
    ∀ as s, runs (always stream) BufferedRng.new as = some s → s.buf.length ≤ 1024 := by
  constructor
  · obtain ⟨s, h, h', -⟩ := C58_fills (bound := 1024) stream (Nat.le_refl _)
    exact ⟨_, s, h, h'⟩
  · intro as s h
    exact (inv (bound := 1024) ⟨as, h⟩).le

end

section
variable {stream : Nat → Option Byte} {bound : Nat} {s s' : BufferedRng}

/-- How many steps a thread without receiver has left. -/
def stepsLeft (s : BufferedRng) : Nat := if s.done then 0 else if s.sending = none then 2 else 1

theorem step_dropped {a : Action} (hi : Inv stream bound s) (ha : s.alive = false) (hw : s.waiting = false)
    (hs : step stream s a = some s') :
    s'.alive = false ∧ s'.waiting = false ∧ stepsLeft s' + 1 ≤ stepsLeft s := by
  have h8 := hi.done
  cases a <;> simp only [step, ha, hw, Bool.false_eq_true, false_and, reduceCtorEq, if_false,
    and_false] at hs
  case draw =>
    split at hs
    · rename_i hc
      split at hs <;> cases hs <;> simp [stepsLeft, hc.1, hc.2]
    · cases hs
  case sendFails =>
    split at hs
    · rename_i v hv
      simp only [if_true] at hs
      cases hs
      have hd : s.done = false := by
        cases hd : s.done with
        | false => rfl
        | true =>
          rw [h8 hd] at hv
          cases hv
      simp [stepsLeft, hv, hd]
    · cases hs
  all_goals
    split at hs <;> cases hs

/-- Once the generator is dropped the thread ends, also if its generator panics: it can go on, and it
takes at most two more steps. -/
theorem C58_thread_ends (h : Reachable stream bound s) (ha : s.alive = false) :
    (s.done = false → ∃ a s', step stream s a = some s') ∧
    ∀ as s', runs stream s as = some s' → as.length ≤ 2 ∧ (as.length = 2 → s'.done = true) := by
  have hi := inv h
  have hw : s.waiting = false := by
    cases hw : s.waiting with
    | false => rfl
    | true => rw [hi.waiting hw] at ha; cases ha
  constructor
  · intro hd
    cases hs : s.sending with
    | none =>
      cases hv : stream s.drawn with
      | none => exact ⟨.draw, _, by simp only [step, hv]; rw [if_pos ⟨hs, hd⟩]⟩
      | some v => exact ⟨.draw, _, by simp only [step, hv]; rw [if_pos ⟨hs, hd⟩]⟩
    | some v => exact ⟨.sendFails, _, by simp only [step, hs]; rw [if_pos ha]⟩
  · have key : ∀ as s s', Inv stream bound s → s.alive = false → s.waiting = false →
        runs stream s as = some s' → as.length + stepsLeft s' ≤ stepsLeft s := by
      intro as
      induction as with
      | nil =>
        intro s s' _ _ _ hs
        cases hs
        simp
      | cons a as ih =>
        intro s s' hi ha hw hs
        simp only [runs] at hs
        cases h0 : step stream s a with
        | none => rw [h0] at hs; cases hs
        | some s₁ =>
          rw [h0] at hs
          obtain ⟨k1, k2, k3⟩ := step_dropped hi ha hw h0
          have := ih s₁ s' (inv_step hi h0) k1 k2 hs
          simp only [List.length_cons]
          omega
    intro as s' hs
    have h1 := key as s s' hi ha hw hs
    have h2 : stepsLeft s ≤ 2 := by
      unfold stepsLeft
      split
      · omega
      · split <;> omega
    refine ⟨by omega, fun hl => ?_⟩
    have h3 : stepsLeft s' = 0 := by omega
    unfold stepsLeft at h3
    split at h3
    · assumption
    · split at h3 <;> omega

/-! ## C109 A wrapped generator that panics -/

/-- What the code says of `recv` in `random`, `src/cpu/chip8/mod.rs:92`: it never fails as long as the
generator is alive. -/
def C109_statement : Prop :=
  ∀ (stream : Nat → Option Byte) (bound : Nat) (s : BufferedRng), Reachable stream bound s →
    s.panicked = false

/-- What holds: the calls before the panic of the wrapped generator are answered with its bytes, all of
them; the k-th call gets the k-th byte. -/
theorem C109_kth_partial (h : Reachable stream bound s) (k : Nat) (hk : k < s.got.length) :
    stream k = some s.got[k] := kth h k hk

/-- `random` panics only if the wrapped generator has, and only after every byte it gave before. -/
theorem C109_panic_partial (h : Reachable stream bound s) (hp : s.panicked = true) :
    stream s.got.length = none ∧ ∀ k (hk : k < s.got.length), stream k = some s.got[k] := by
  obtain ⟨-, -, h1, h2⟩ := (inv h).panicked hp
  have : s.got.length = s.drawn := by
    have := congrArg List.length h2
    simpa [answers] using this
  exact ⟨this ▸ h1, fun k hk => kth h k hk⟩

/-- No call waits for ever: some thread can go on, and within `2 * bound + 2` steps the call is answered
or panics. -/
theorem C109_ends_partial (h : Reachable stream bound s) (hw : s.waiting = true) :
    (∃ a s', step stream s a = some s') ∧
    ∀ as s', runs stream s as = some s' → 2 * bound + 2 ≤ as.length →
      s.got.length < s'.got.length ∨ s'.panicked = true :=
  ⟨goes_on h hw, fun _ _ hs hl => ends h hw hs hl⟩

/-- The call after the last byte of a wrapped generator that panics is not answered: whatever the
scheduling, once that many bytes have been delivered no byte is, and a waiting call ends in a panic. -/
theorem C109_last_partial (h : Reachable stream bound s) (hn : stream s.got.length = none) {as : List Action}
    (hs : runs stream s as = some s') :
    s'.got = s.got ∧ (s.waiting = true → 2 * bound + 2 ≤ as.length → s'.panicked = true) := by
  have hl : s'.got.length = s.got.length := by
    have h1 := (got_mono_runs hs).1
    rcases Nat.lt_or_ge s.got.length s'.got.length with h2 | h2
    · have := kth (reachable_runs h hs) _ h2
      rw [hn] at this
      cases this
    · omega
  constructor
  · apply List.ext_getElem hl
    intro k h1 h2
    have h3 := kth (reachable_runs h hs) k h1
    rw [kth h k h2] at h3
    exact (Option.some.inj h3).symm
  · intro hw hlen
    rcases ends h hw hs hlen with h' | h'
    · omega
    · exact h'

end

/-- A generator that gives the byte 7 and then panics. -/
def oneByte : Nat → Option Byte := fun k => if k = 0 then some 7 else none

/-- The second call panics. -/
theorem oneByte_panics : ∃ s, runs oneByte (withCapacity 1)
      [.draw, .send, .draw, .call, .recv, .call, .recvFails] = some s ∧ s.got = [7] ∧ s.panicked = true :=
  ⟨_, rfl, rfl, rfl⟩

/-- C109 fails. -/
theorem C109_false : ¬ C109_statement := by
  intro h
  obtain ⟨s, h1, -, h2⟩ := oneByte_panics
  rw [h oneByte 1 s ⟨_, h1⟩] at h2
  cases h2

/-- An interleaving with bound 2: the thread draws three bytes and is blocked with the third, the
caller takes two and waits again. -/
example : ∃ s, runs (always fun k => BitVec.ofNat 8 (10 * k + 7)) (withCapacity 2)
      [.draw, .send, .call, .draw, .send, .draw, .recv, .call, .recv, .call] = some s ∧
    s.got = [7, 17] ∧ s.sending = some 27 ∧ s.waiting = true ∧ s.buf = [] :=
  ⟨_, rfl, rfl, rfl, rfl, rfl⟩

/-- An interleaving with bound 0. -/
example : ∃ s, runs (always fun k => BitVec.ofNat 8 k) (withCapacity 0)
      [.draw, .call, .handoff, .call, .draw, .handoff, .draw, .drop] = some s ∧
    s.got = [0, 1] ∧ s.alive = false :=
  ⟨_, rfl, rfl, rfl⟩

/-- The state before the panic meets the hypotheses of `C109_last_partial`. -/
example : ∃ s, Reachable oneByte 1 s ∧ s.waiting = true ∧ oneByte s.got.length = none :=
  ⟨_, ⟨[.draw, .send, .draw, .call, .recv, .call], rfl⟩, rfl, rfl⟩

end Verif.Props.Chip8
