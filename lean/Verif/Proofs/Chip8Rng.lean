import Verif.Model.Chip8.Rng

/-!
# The buffered random generator: invariants

For every wrapped generator, also one whose calls may panic, every bound and every interleaving of the two
threads.
-/

namespace Verif.Chip8.BufferedRng

open Verif

variable {stream : Nat → Option Byte} {bound : Nat} {s s' : BufferedRng}

/-- A state that some interleaving reaches from a new generator. -/
def Reachable (stream : Nat → Option Byte) (bound : Nat) (s : BufferedRng) : Prop :=
  ∃ as, runs stream (withCapacity bound) as = some s

/-- The first `n` answers of the wrapped generator. -/
def answers (stream : Nat → Option Byte) (n : Nat) : List (Option Byte) := (List.range n).map stream

theorem answers_succ (stream : Nat → Option Byte) (n : Nat) :
    answers stream (n + 1) = answers stream n ++ [stream n] := by
  simp [answers, List.range_succ]

/-- What holds throughout. -/
structure Inv (stream : Nat → Option Byte) (bound : Nat) (s : BufferedRng) : Prop where
  bound_eq : s.bound = bound
  le : s.buf.length ≤ bound
  order : s.alive = true → (s.got ++ s.buf ++ s.sending.toList).map some = answers stream s.drawn
  pre : ∃ rest, (s.got ++ rest).map some = answers stream s.drawn
  waiting : s.waiting = true → s.alive = true
  alive : s.alive = true → s.done = true → stream s.drawn = none
  panicked : s.panicked = true → s.done = true ∧ s.buf = [] ∧ stream s.drawn = none ∧
    s.got.map some = answers stream s.drawn
  done : s.done = true → s.sending = none

theorem inv_step {a : Action} (h : Inv stream bound s) (hs : step stream s a = some s') :
    Inv stream bound s' := by
  obtain ⟨h1, h2, h3, h4, h5, h6, h7, h8⟩ := h
  obtain ⟨rest, h4⟩ := h4
  cases a <;> simp only [step] at hs
  case draw =>
    split at hs
    · rename_i hc
      split at hs
      · rename_i v hv
        cases hs
        refine ⟨h1, h2, fun h => ?_, ⟨rest ++ [v], ?_⟩, h5, fun _ h => ?_, fun h => ?_, fun h => ?_⟩
        · have := h3 h
          rw [hc.1] at this
          simp only [Option.toList_none, List.append_nil] at this
          simp only
          rw [answers_succ, ← this, hv]
          simp
        · simp only
          rw [answers_succ, ← h4, hv]
          simp
        all_goals
          simp only at h
        · rw [hc.2] at h
          cases h
        · have := (h7 h).1
          rw [hc.2] at this
          cases this
        · rw [hc.2] at h
          cases h
      · rename_i hv
        cases hs
        refine ⟨h1, h2, h3, ⟨rest, h4⟩, h5, fun _ _ => hv, fun h => ?_, fun _ => hc.1⟩
        have := (h7 h).1
        rw [hc.2] at this
        cases this
    · cases hs
  case send =>
    split at hs
    · rename_i v hv
      split at hs
      · rename_i hc
        cases hs
        refine ⟨h1, ?_, fun h => ?_, ⟨rest, h4⟩, h5, h6, fun h => ?_, fun _ => rfl⟩
        · simp only [List.length_append, List.length_singleton]
          omega
        · have := h3 h
          rw [hv] at this
          simpa using this
        · have := h8 (h7 h).1
          rw [hv] at this
          cases this
      · cases hs
    · cases hs
  case handoff =>
    split at hs
    · rename_i v hv
      split at hs
      · rename_i hc
        cases hs
        have hb : s.buf = [] := List.length_eq_zero_iff.1 (by omega)
        have hal := h5 hc.2
        have := h3 hal
        rw [hv, hb] at this
        simp only [List.append_nil, Option.toList_some] at this
        refine ⟨h1, h2, fun h => ?_, ⟨[], ?_⟩, ?_, h6, fun h => ?_, fun _ => rfl⟩
        · simpa [hb] using this
        · simpa using this
        · intro h
          cases h
        · have := h8 (h7 h).1
          rw [hv] at this
          cases this
      · cases hs
    · cases hs
  case sendFails =>
    split at hs
    · rename_i v hv
      split at hs
      · rename_i hc
        cases hs
        refine ⟨h1, h2, fun h => ?_, ⟨rest, h4⟩, h5, fun h => ?_, fun h => ?_, fun _ => rfl⟩
        · simp only at h
          rw [hc] at h
          cases h
        · simp only at h
          rw [hc] at h
          cases h
        · have := h8 (h7 h).1
          rw [hv] at this
          cases this
      · cases hs
    · cases hs
  case call =>
    split at hs
    · rename_i hc
      cases hs
      exact ⟨h1, h2, h3, ⟨rest, h4⟩, fun _ => hc.1, h6, h7, h8⟩
    · cases hs
  case recv =>
    split at hs
    · rename_i v l hv
      split at hs
      · rename_i hc
        cases hs
        have := h3 (h5 hc)
        rw [hv] at this
        refine ⟨h1, ?_, fun _ => ?_, ⟨l ++ s.sending.toList, ?_⟩, ?_, h6, fun h => ?_, h8⟩
        · rw [hv] at h2
          simp only [List.length_cons] at h2
          simp only
          omega
        · simpa using this
        · simpa using this
        · intro h
          cases h
        · have := (h7 h).2.1
          rw [hv] at this
          cases this
      · cases hs
    · cases hs
  case recvFails =>
    split at hs
    · rename_i hc
      cases hs
      have hal := h5 hc.1
      refine ⟨h1, h2, h3, ⟨rest, h4⟩, fun h => (by cases h), h6, fun _ => ⟨hc.2.2, hc.2.1, h6 hal hc.2.2, ?_⟩, h8⟩
      have := h3 hal
      rw [hc.2.1, h8 hc.2.2] at this
      simpa using this
    · cases hs
  case drop =>
    split at hs
    · rename_i hc
      cases hs
      refine ⟨h1, Nat.zero_le _, fun h => ?_, ⟨rest, h4⟩, fun h => ?_, fun h => ?_,
        fun h => ⟨(h7 h).1, rfl, (h7 h).2.2⟩, h8⟩
      · cases h
      · simp only at h
        rw [hc.2] at h
        cases h
      · cases h
    · cases hs

theorem inv_runs {as : List Action} (h : Inv stream bound s) (hs : runs stream s as = some s') :
    Inv stream bound s' := by
  induction as generalizing s with
  | nil => cases hs; exact h
  | cons a as ih =>
    simp only [runs] at hs
    cases ha : step stream s a with
    | none => rw [ha] at hs; cases hs
    | some s₁ =>
      rw [ha] at hs
      exact ih (inv_step h ha) hs

theorem inv (h : Reachable stream bound s) : Inv stream bound s := by
  obtain ⟨as, h⟩ := h
  refine inv_runs ⟨rfl, Nat.zero_le _, fun _ => rfl, ⟨[], rfl⟩, fun h => ?_, fun _ h => ?_, fun h => ?_,
    fun _ => rfl⟩ h <;> cases h

/-- How many steps the thread can take while nothing is received. -/
def room (s : BufferedRng) : Nat :=
  2 * (s.bound - s.buf.length) + (if s.sending = none ∧ s.done = false then 1 else 0)

/-- While a call waits, every step answers it, lets it panic, or uses up the room of the thread. -/
theorem step_waiting {a : Action} (h : Inv stream bound s) (hw : s.waiting = true)
    (hs : step stream s a = some s') :
    s.got.length < s'.got.length ∨ s'.panicked = true ∨
      (s'.waiting = true ∧ s'.got = s.got ∧ room s' + 1 ≤ room s) := by
  obtain ⟨h1, h2, h3, h4, h5, h6, h7, h8⟩ := h
  have hal := h5 hw
  cases a <;> simp only [step] at hs
  case draw =>
    split at hs
    · rename_i hc
      split at hs
      · cases hs
        refine .inr (.inr ⟨hw, rfl, ?_⟩)
        simp [room, hc.1, hc.2]
      · cases hs
        refine .inr (.inr ⟨hw, rfl, ?_⟩)
        simp [room, hc.1, hc.2]
    · cases hs
  case send =>
    split at hs
    · rename_i v hv
      split at hs
      · rename_i hc
        cases hs
        have hd : s.done = false := by
          cases hd : s.done with
          | false => rfl
          | true =>
            have := h8 hd
            rw [hv] at this
            cases this
        refine .inr (.inr ⟨hw, rfl, ?_⟩)
        simp only [room, hv, hd, List.length_append, List.length_singleton, reduceCtorEq, false_and,
          if_false, and_self, if_true]
        omega
      · cases hs
    · cases hs
  case handoff =>
    split at hs
    · split at hs
      · cases hs
        left
        simp
      · cases hs
    · cases hs
  case sendFails =>
    split at hs
    · split at hs
      · rename_i hc
        rw [hal] at hc
        cases hc
      · cases hs
    · cases hs
  case call =>
    split at hs
    · rename_i hc
      rw [hw] at hc
      cases hc.2
    · cases hs
  case recv =>
    split at hs
    · rw [if_pos hw] at hs
      cases hs
      left
      simp
    · cases hs
  case recvFails =>
    split at hs
    · cases hs
      exact .inr (.inl rfl)
    · cases hs
  case drop =>
    split at hs
    · rename_i hc
      rw [hw] at hc
      cases hc.2
    · cases hs

/-- Answers are never taken back, and a panic stays one. -/
theorem got_mono {a : Action} (hs : step stream s a = some s') :
    s.got.length ≤ s'.got.length ∧ (s.panicked = true → s'.panicked = true) := by
  cases a <;> simp only [step] at hs <;> repeat' split at hs
  all_goals first | cases hs; done | (cases hs; simp)

theorem got_mono_runs {as : List Action} (hs : runs stream s as = some s') :
    s.got.length ≤ s'.got.length ∧ (s.panicked = true → s'.panicked = true) := by
  induction as generalizing s with
  | nil => cases hs; exact ⟨Nat.le_refl _, id⟩
  | cons a as ih =>
    simp only [runs] at hs
    cases ha : step stream s a with
    | none => rw [ha] at hs; cases hs
    | some s₁ =>
      rw [ha] at hs
      exact ⟨Nat.le_trans (got_mono ha).1 (ih hs).1, fun h => (ih hs).2 ((got_mono ha).2 h)⟩

/-- A waiting call is answered, or panics, within `2 * bound + 2` steps. -/
theorem ends {as : List Action} (h : Reachable stream bound s) (hw : s.waiting = true)
    (hs : runs stream s as = some s') (hl : 2 * bound + 2 ≤ as.length) :
    s.got.length < s'.got.length ∨ s'.panicked = true := by
  have hi := inv h
  have hroom : room s < as.length := by
    have : s.bound = bound := hi.bound_eq
    unfold room
    split <;> omega
  clear h hl
  induction as generalizing s with
  | nil => exact absurd hroom (by simp)
  | cons a as ih =>
    simp only [runs] at hs
    cases ha : step stream s a with
    | none => rw [ha] at hs; cases hs
    | some s₁ =>
      rw [ha] at hs
      rcases step_waiting hi hw ha with h' | h' | ⟨h1, h2, h3⟩
      · exact .inl (Nat.lt_of_lt_of_le h' (got_mono_runs hs).1)
      · exact .inr ((got_mono_runs hs).2 h')
      · have := ih h1 hs (inv_step hi ha) (by simp only [List.length_cons] at hroom; omega)
        rw [h2] at this
        exact this

/-- While a call waits some thread can go on. -/
theorem goes_on (h : Reachable stream bound s) (hw : s.waiting = true) :
    ∃ a s', step stream s a = some s' := by
  obtain ⟨h1, h2, h3, h4, h5, h6, h7, h8⟩ := inv h
  cases hb : s.buf with
  | cons v l => exact ⟨.recv, _, by simp only [step, hb, hw, if_true]; rfl⟩
  | nil =>
    cases hd : s.done with
    | true => exact ⟨.recvFails, _, by simp only [step]; rw [if_pos ⟨hw, hb, hd⟩]⟩
    | false =>
    cases hs : s.sending with
    | none =>
      cases hv : stream s.drawn with
      | none => exact ⟨.draw, _, by simp only [step, hv]; rw [if_pos ⟨hs, hd⟩]⟩
      | some v => exact ⟨.draw, _, by simp only [step, hv]; rw [if_pos ⟨hs, hd⟩]⟩
    | some v =>
      by_cases h0 : s.bound = 0
      · exact ⟨.handoff, _, by simp only [step, hs]; rw [if_pos ⟨h0, hw⟩]⟩
      · refine ⟨.send, _, by
          simp only [step, hs]
          rw [if_pos ⟨h5 hw, by rw [hb]; exact Nat.pos_of_ne_zero h0⟩]⟩

/-- The k-th answer of `random` is the k-th of the wrapped generator. -/
theorem kth (h : Reachable stream bound s) (k : Nat) (hk : k < s.got.length) :
    stream k = some s.got[k] := by
  obtain ⟨rest, hr⟩ := (inv h).pre
  have h1 : ((s.got ++ rest).map some)[k]? = some (some s.got[k]) := by
    rw [List.getElem?_map, List.getElem?_append_left hk, List.getElem?_eq_getElem hk]
    rfl
  have h2 : k < s.drawn := by
    have := congrArg List.length hr
    simp [answers] at this
    omega
  rw [hr] at h1
  simpa [answers, h2] using h1

end Verif.Chip8.BufferedRng
