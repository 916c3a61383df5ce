import Verif.Proofs.Watch
import Verif.Props.Mos.LivePanic

/-!
# Property C139: devices that panic
-/

namespace Verif.Props

open Verif Verif.Mos Verif.Spec.Mos Verif.Spec.Live Verif.Live Verif.Live.Bus

variable {W D : Type} [Device W D] {b : Build} {cpu : Mos6502 Copy} {n : Nat}

/-- The calls of a run, whatever it ends with. -/
theorem run_calls {l : List Call} {r : Res (StepState (Mos6502 Copy))} (hc : cpu.address_map = .own)
    (h : Asked (Mos.Live.run b cpu n) l r) : Calls b n (regs cpu) l := by
  cases r with
  | ok s => obtain ⟨c', -, -, h⟩ := C102_transcript hc h; exact .inl ⟨_, h⟩
  | error p => exact .inr ⟨p, C102_panics hc h⟩

/-- A run that panics, on all devices: it panics by itself after the calls of C102, which the devices have
answered; or it has made a beginning of such calls, which the devices have answered, and the device panics at the
next one, whatever the answer would have been. Nothing is called after that: what the clones share is as the
device has left it. -/
theorem C139_panics {s s' : Site W D} {p : Panic} (hc : cpu.address_map = .own)
    (h : exec b (Mos.Live.run b cpu n) s = (.error p, s')) :
    (∃ l, RanInto b n (regs cpu) l p ∧ Answers b s l s') ∨
    ∃ l c s₁ w, Answers b s l s₁ ∧ Fails b s₁ p w c ∧ s' = { s₁ with world := w } ∧
      ∀ c', Call.Same c c' → ∃ rest, Calls b n (regs cpu) (l ++ c' :: rest) := by
  rcases exec_error_iff.1 h with ⟨l, h1, h2⟩ | ⟨l, c, s₁, w, h1, h2, h3, h4⟩
  · exact .inl ⟨l, C102_panics hc h1, h2⟩
  · refine .inr ⟨l, c, s₁, w, h1, h2, h3, fun c' hc' => ?_⟩
    obtain ⟨rest, r, h⟩ := h4 c' hc'
    exact ⟨rest, run_calls hc h⟩

/-- The CPU's own bus is not read by a run that a device ends. -/
theorem C139_own_never_read {l : List Call} (h : Calls b n (regs cpu) l) :
    ∀ who a v, Call.read who a v ∈ l → who = .iterator := by
  rcases h with ⟨r', h⟩ | ⟨p, h⟩
  · exact C102_own_never_read h
  · exact C102_panics_own_never_read h

/-- Watchpoints: a run that returns makes the calls of C102. If it is made again with some addresses watched, it
does the same when none of them is called; otherwise it panics at the first call of one of them, exactly when the
calls before have been made, and what the clones share is as it was then. -/
theorem C139_watch {s s' : Site W D} {st : StepState (Mos6502 Copy)} (hc : cpu.address_map = .own)
    (h : exec b (Mos.Live.run b cpu n) s = (.ok st, s')) (f : Word → Bool) (p : Panic) :
    ∃ c' l, st = .ready c' ∧ Ran b n (regs cpu) l (regs c') ∧ Answers b s l s' ∧
      ((∀ c ∈ l, f c.at = false) → exec b (Mos.Live.run b cpu n) (watched f p s) = (.ok st, watched f p s')) ∧
      ∀ l₁ c l₂, l = l₁ ++ c :: l₂ → (∀ c ∈ l₁, f c.at = false) → f c.at = true →
        ∃ s₁, Answers b s l₁ s₁ ∧
          exec b (Mos.Live.run b cpu n) (watched f p s) = (.error p, watched f p s₁) := by
  obtain ⟨l, h1, h2⟩ := exec_ok_iff.1 h
  obtain ⟨c', hs, -, hr⟩ := C102_transcript hc h1
  refine ⟨c', l, hs, hr, h2, fun hl => exec_ok_iff.2 ⟨l, h1, answers_watched h2 hl⟩, ?_⟩
  rintro l₁ c l₂ rfl hl hf
  obtain ⟨s₁, h3, -⟩ := answers_append.1 h2
  exact ⟨s₁, h3, exec_watched_hit h1 h3 hl hf⟩

/-! ### Concrete cases -/

/-- `INC 0x10` on 64 kB of memory that all clones share. -/
def counting : Mem := fun a => if a = 0x80fd then 0xe6 else if a = 0x80fe then 0x10 else 7

/-- Without a watch the run returns; the cell has been counted up once. -/
example (b : Build) : ∃ st m, exec b (Mos.Live.run b (withRegs sampleRegs .own) 5)
      (⟨⟨⟩, ⟨⟩, ⟨counting⟩⟩ : Site FlatRam Shared) = (.ok st, ⟨⟨⟩, ⟨⟩, ⟨m⟩⟩) ∧ m 0x10 = 8 := by
  rcases b with ⟨_ | _⟩ <;> exact ⟨_, _, rfl, by decide +kernel⟩

/-- A watch at the cell ends the run at the fourth call, and nothing has been stored. -/
example (b : Build) : exec b (Mos.Live.run b (withRegs sampleRegs .own) 5)
      (watched (fun a => a == 0x10) (.explicit "watch") (⟨⟨⟩, ⟨⟩, ⟨counting⟩⟩ : Site FlatRam Shared)) =
      (.error (.explicit "watch"),
        watched (fun a => a == 0x10) (.explicit "watch") (⟨⟨⟩, ⟨⟩, ⟨counting⟩⟩ : Site FlatRam Shared)) := by
  rcases b with ⟨_ | _⟩ <;> rfl

/-- A device that panics when it is written the second time, such as one that borrows itself. -/
structure Once where

/-- The world counts the stores; reads are those of `counting`. -/
instance : Device Nat Once where
  read _ d a w := (.ok (counting a, d), w)
  write _ d _ v w := if w = 0 then (.ok (.ok v, d), 1) else (.error (.explicit "already borrowed"), w + 10)

/-- The store of the clone is accepted and the same store on the CPU's own bus panics. -/
example (b : Build) : exec b (Mos.Live.run b (withRegs sampleRegs .own) 5) (⟨⟨⟩, ⟨⟩, 0⟩ : Site Nat Once) =
      (.error (.explicit "already borrowed"), ⟨⟨⟩, ⟨⟩, 11⟩) := by
  rcases b with ⟨_ | _⟩ <;> rfl

end Verif.Props
