import Verif.Proofs.LiveChip8Panic
import Verif.Props.Chip8.Live

/-!
# Property C104, continued: CHIP-8 instructions and runs that panic
-/

namespace Verif.Props.Chip8

open Verif Verif.Chip8 Verif.Spec.Chip8 Verif.Spec.Live Verif.Live Verif.Live.Bus

variable {R : Type} {b : Build} {e : Env}

/-- For all devices and answers: an instruction that panics has made some of its reads, and panics, without a
store, as it does on every memory that holds the bytes it has read; or it has read its two bytes and the bus
refuses one of the bytes it stores at I, and the panic is the refusal. -/
theorem C104_panic_reason {c : Chip8 Copy R} {l : List Call} {p : Panic}
    (h : Asked (Chip8.Live.next b e c) l (.error p)) : OpcodePanicked b e c.address_space (rest c) l p :=
  asked_next_panicked (c := rest c) (who := c.address_space) h

/-- The calls of a run that panics: those of the instructions before, and then the next instruction panics on
the clone, or the machine's own bus refuses a store the clone has accepted. There is no other panic in the
second execution of an instruction, though it sees another time. -/
theorem C104_run_panics {env : Nat → Env} {c : Chip8 Copy R} {n : Nat} {l : List Call} {p : Panic}
    (hc : c.address_space = .own) (h : Asked (Chip8.Live.run b env c n) l (.error p)) :
    RanIntoOpcode b env n 0 (rest c) (rest c) l p := by
  unfold Chip8.Live.run at h
  have hr : Asked (Chip8.Live.runLoop b env n 0 { c with address_space := .iterator } c) l (.error p) := by
    rcases asked_bind.1 h with ⟨_, _, c', rfl, -, h2⟩ | ⟨_, he, h1⟩
    · rw [pure_eq, asked_done] at h2
      cases h2.2
    · cases he
      exact h1
  have ho : c = onBus (rest c) .own := by rw [← hc]; rfl
  refine asked_runLoop_error env n 0 (rest c) (rest c) l p ⟨_, _, rfl⟩ ?_
  rw [← ho]
  exact hr

/-- The machine's own bus is not read by a run that panics either. -/
theorem C104_panics_own_never_read {env : Nat → Env} {n k : Nat} {it c : Chip8 Unit R} {l : List Call} {p : Panic}
    (h : RanIntoOpcode b env n k it c l p) : ∀ who a v, Call.read who a v ∈ l → who = .iterator := by
  have reads : ∀ who a v (rs : List (Word × Byte)), Call.read who a v ∈ readCalls .iterator rs →
      who = .iterator := by
    intro who a v rs h
    obtain ⟨p, -, h⟩ := List.mem_map.1 h
    cases h
    rfl
  have puts : ∀ who a v (c : Copy) (ws : List (Word × Byte)) (vs : List Byte),
      Call.read who a v ∉ putCalls c ws vs := by
    intro who a v c ws
    induction ws with
    | nil => intro vs h; simp [putCalls] at h
    | cons w ws ih =>
      intro vs h
      cases vs with
      | nil => simp [putCalls] at h
      | cons x vs =>
        simp only [putCalls, List.zipWith_cons_cons, List.mem_cons] at h
        rcases h with h | h
        · cases h
        · exact ih vs h
  have refused : ∀ who a v (c : Copy) (ws : List (Word × Byte)) l p, Refused c ws l p →
      Call.read who a v ∉ l := by
    rintro who a v c ws l p ⟨before, a', v', rest, answers, e, -, -, rfl, -⟩ h
    simp only [List.mem_append, List.mem_singleton, reduceCtorEq, or_false] at h
    exact puts _ _ _ _ _ _ h
  induction h with
  | clone h =>
    obtain ⟨rs, ⟨-, rfl, -⟩ | ⟨_, _, _, _, _, -, -, -, -, -, h, rfl⟩⟩ := h
    · exact fun who a v h => reads _ _ _ _ h
    · intro who a v h'
      rcases List.mem_append.1 h' with h' | h'
      · exact reads _ _ _ _ h'
      · exact absurd h' (refused _ _ _ _ _ _ _ h)
  | own _ _ h =>
    intro who a v h'
    simp only [List.mem_append] at h'
    rcases h' with h' | h' | h'
    · exact reads _ _ _ _ h'
    · exact absurd h' (puts _ _ _ _ _ _)
    · exact absurd h' (refused _ _ _ _ _ _ _ h)
  | step _ _ _ _ _ ih =>
    intro who a v h
    simp only [List.mem_append] at h
    rcases h with h | h | h | h
    · exact reads _ _ _ _ h
    · exact absurd h (puts _ _ _ _ _ _)
    · exact absurd h (puts _ _ _ _ _ _)
    · exact ih _ _ _ h

/-! ### Concrete cases -/

/-- V0 and V1 are stored at 0x300, and then there is no instruction: the calls of both copies, and the panic in the
second instruction. -/
example (b : Build) (env : Nat → Env) : ∃ p, Asked (Chip8.Live.run b env (onBus sample .own) 3)
    [.read .iterator 0x200 0xf1, .read .iterator 0x201 0x55,
      .write .iterator 0x300 0x11 (.ok 0), .write .iterator 0x301 0xfe (.ok 0),
      .write .own 0x300 0x11 (.ok 0), .write .own 0x301 0xfe (.ok 0),
      .read .iterator 0x202 0xff, .read .iterator 0x203 0xff] (.error p) := by
  rcases b with ⟨_ | _⟩ <;>
    exact ⟨_, .read (.read (.write (.write (.write (.write (.read (.read (.done _)))))))) ⟩

/-- The clone refuses the second of the three digits of `Fx33`. -/
example (b : Build) (env : Nat → Env) : ∃ p, Asked (Chip8.Live.run b env (onBus sample .own) 1)
    [.read .iterator 0x200 0xf3, .read .iterator 0x201 0x33,
      .write .iterator 0x300 0 (.ok 0), .write .iterator 0x301 5 (.error "read only")] (.error p) := by
  rcases b with ⟨_ | _⟩ <;> exact ⟨_, .read (.read (.write (.write (.done _))))⟩

/-- The clone takes both bytes and the machine's own bus refuses the first. -/
example (b : Build) (env : Nat → Env) : ∃ p, Asked (Chip8.Live.run b env (onBus sample .own) 1)
    [.read .iterator 0x200 0xf1, .read .iterator 0x201 0x55,
      .write .iterator 0x300 0x11 (.ok 0), .write .iterator 0x301 0xfe (.ok 0),
      .write .own 0x300 0x11 (.error "read only")] (.error p) := by
  rcases b with ⟨_ | _⟩ <;> exact ⟨_, .read (.read (.write (.write (.write (.done _)))))⟩

end Verif.Props.Chip8
