import Verif.Proofs.LivePanic
import Verif.Props.Mos.Live

/-!
# Properties C101 and C102, continued: instructions and runs that panic
-/

namespace Verif.Props

open Verif Verif.Mos Verif.Spec.Mos Verif.Spec.Live Verif.Live Verif.Live.Bus

variable {b : Build}

/-- An instruction that panics has made no other calls: the first of the reads it would have made, and then
it panics as it does on every memory that holds the bytes it has read, without a store; or all of its reads
and its stores up to one that the bus refuses, and the panic is the refusal. -/
theorem C101_panics_partial {cpu : Mos6502 Copy} {l : List Call} {p : Panic}
    (h : Asked (Mos.Live.next b cpu) l (.error p)) : Panicked b cpu.address_map (regs cpu) l p :=
  asked_next_error h

/-- Three bytes that are no instruction: the panic, after three reads. -/
example (b : Build) (v w : Byte) :
    Asked (Mos.Live.next b (withRegs sampleRegs .own))
      [.read .own 0x80fd 0x02, .read .own 0x80fe v, .read .own 0x80ff w]
      (.error (.unwrapErr "No match found for 2")) := by
  rcases b with ⟨_ | _⟩ <;> exact .read (.read (.read (.done _)))

/-- `INC 0x10` on a device that refuses the store: the panic, after four reads and the store. -/
theorem inc_refused (b : Build) (who : Copy) (v : Byte) (e : String) :
    Asked (Mos.Live.next b (withRegs sampleRegs who))
      [.read who 0x80fd 0xe6, .read who 0x80fe 0x10, .read who 0x80ff 0x77, .read who 0x10 v,
        .write who 0x10 (v + 1) (.error e)]
      (.error (.unwrapErr e)) := by
  rcases b with ⟨_ | _⟩ <;> exact .read (.read (.read (.read (.write (.done _)))))

/-- `LDA (0x10),Y` with an address past the last one: the panic of the checked build, after five reads. -/
example : Asked (Mos.Live.next .debug (withRegs { sampleRegs with y := 1 } .own))
      [.read .own 0x80fd 0xb1, .read .own 0x80fe 0x10, .read .own 0x80ff 0, .read .own 0x10 0xff,
        .read .own 0x11 0xff]
      (.error .overflow) := .read (.read (.read (.read (.read (.done _)))))

/-- The calls of a run that panics, for all devices and answers: those of the instructions before, and then
the next instruction panics on the clone, or the CPU's own bus refuses a store the clone has accepted. -/
theorem C102_panics {cpu : Mos6502 Copy} {n : Nat} {l : List Call} {p : Panic}
    (hc : cpu.address_map = .own) (h : Asked (Mos.Live.run b cpu n) l (.error p)) :
    RanInto b n (regs cpu) l p := by
  unfold Mos.Live.run at h
  have hr : Asked (Mos.Live.runLoop b n { cpu with address_map := .iterator } [] cpu) l (.error p) := by
    rcases asked_bind.1 h with ⟨_, _, c', rfl, -, h2⟩ | ⟨_, he, h1⟩
    · rw [pure_eq, asked_done] at h2
      cases h2.2
    · cases he
      exact h1
  have : cpu = withRegs (regs cpu) .own := by rw [← hc]; rfl
  apply asked_runLoop_error
  have e : ({ cpu with address_map := .iterator } : Mos6502 Copy) = withRegs (regs cpu) .iterator := rfl
  rw [← this, ← e]
  exact hr

/-- The CPU's own bus is not read by a run that panics either. -/
theorem C102_panics_own_never_read {n : Nat} {r : Regs} {l : List Call} {p : Panic} (h : RanInto b n r l p) :
    ∀ who a v, Call.read who a v ∈ l → who = .iterator := by
  have reads : ∀ who a v (rs : List (Word × Byte)), Call.read who a v ∈ readCalls .iterator rs →
      who = .iterator := by
    intro who a v rs h
    obtain ⟨p, -, h⟩ := List.mem_map.1 h
    cases h
    rfl
  have puts : ∀ who a v (c : Copy) (ws : List (Word × Byte)) (vs : List Byte),
      Call.read who a v ∉ putCalls c ws vs := by
    intro who a v c ws
    induction ws with
    | nil => intro vs h; simp [putCalls] at h
    | cons w ws ih =>
      intro vs h
      cases vs with
      | nil => simp [putCalls] at h
      | cons x vs =>
        simp only [putCalls, List.zipWith_cons_cons, List.mem_cons] at h
        rcases h with h | h
        · cases h
        · exact ih vs h
  have refused : ∀ who a v (c : Copy) (ws : List (Word × Byte)) l p, Refused c ws l p →
      Call.read who a v ∉ l := by
    rintro who a v c ws l p ⟨before, a', v', rest, answers, e, -, -, rfl, -⟩ h
    simp only [List.mem_append, List.mem_singleton, reduceCtorEq, or_false] at h
    exact puts _ _ _ _ _ _ h
  induction h with
  | clone _ h =>
    obtain ⟨rs, ⟨-, rfl, -⟩ | ⟨i, ops, l', -, -, h, rfl⟩⟩ := h
    · exact fun who a v h => reads _ _ _ _ h
    · intro who a v h'
      rcases List.mem_append.1 h' with h' | h'
      · exact reads _ _ _ _ h'
      · exact absurd h' (refused _ _ _ _ _ _ _ h)
  | own _ _ _ h =>
    intro who a v h'
    simp only [List.mem_append] at h'
    rcases h' with h' | h' | h'
    · exact reads _ _ _ _ h'
    · exact absurd h' (puts _ _ _ _ _ _)
    · exact absurd h' (refused _ _ _ _ _ _ _ h)
  | whole _ _ _ _ _ ih =>
    intro who a v h
    simp only [List.mem_append] at h
    rcases h with h | h | h | h
    · exact reads _ _ _ _ h
    · exact absurd h (puts _ _ _ _ _ _)
    · exact absurd h (puts _ _ _ _ _ _)
    · exact ih _ _ _ h

/-- The clone accepts what the CPU's own bus refuses: `INC 0x10`, on any devices. -/
example (b : Build) (v x : Byte) (e : String) : Asked (Mos.Live.run b (withRegs sampleRegs .own) 5)
      [.read .iterator 0x80fd 0xe6, .read .iterator 0x80fe 0x10, .read .iterator 0x80ff 0xa5,
        .read .iterator 0x10 v, .write .iterator 0x10 (v + 1) (.ok x), .write .own 0x10 (v + 1) (.error e)]
      (.error (.unwrapErr e)) := by
  rcases b with ⟨_ | _⟩ <;> exact .read (.read (.read (.read (.write (.write (.done _))))))

end Verif.Props
