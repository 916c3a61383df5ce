import Verif.Proofs.Watch
import Verif.Props.Chip8.LivePanic

/-!
# Property C139 on the CHIP-8
-/

namespace Verif.Props.Chip8

open Verif Verif.Chip8 Verif.Spec.Chip8 Verif.Spec.Live Verif.Live Verif.Live.Bus

variable {W D R : Type} [Device W D] {b : Build} {env : Nat → Env} {c : Chip8 Copy R} {n : Nat}

/-- The calls of a run, whatever it ends with. -/
theorem run_calls {l : List Call} {r : Res (StepState (Chip8 Copy R))} (hc : c.address_space = .own)
    (h : Asked (Chip8.Live.run b env c n) l r) : Chip8Calls b env n (rest c) l := by
  cases r with
  | ok s => obtain ⟨c', -, -, h⟩ := C104_run hc h; exact .inl ⟨_, h⟩
  | error p => exact .inr ⟨p, C104_run_panics hc h⟩

/-- A run that panics, on all devices: it panics by itself after the calls of C104, or a device panics at one of
them, and nothing is called after that. -/
theorem C139_chip8_panics {s s' : Site W D} {p : Panic} (hc : c.address_space = .own)
    (h : exec b (Chip8.Live.run b env c n) s = (.error p, s')) :
    (∃ l, RanIntoOpcode b env n 0 (rest c) (rest c) l p ∧ Answers b s l s') ∨
    ∃ l call s₁ w, Answers b s l s₁ ∧ Fails b s₁ p w call ∧ s' = { s₁ with world := w } ∧
      ∀ call', Call.Same call call' → ∃ tail, Chip8Calls b env n (rest c) (l ++ call' :: tail) := by
  rcases exec_error_iff.1 h with ⟨l, h1, h2⟩ | ⟨l, call, s₁, w, h1, h2, h3, h4⟩
  · exact .inl ⟨l, C104_run_panics hc h1, h2⟩
  · refine .inr ⟨l, call, s₁, w, h1, h2, h3, fun c' hc' => ?_⟩
    obtain ⟨tail, r, h⟩ := h4 c' hc'
    exact ⟨tail, run_calls hc h⟩

/-- The machine's own bus is not read by a run that a device ends. -/
theorem C139_chip8_own_never_read {c : Chip8 Unit R} {l : List Call} (h : Chip8Calls b env n c l) :
    ∀ who a v, Call.read who a v ∈ l → who = .iterator := by
  rcases h with ⟨r', h⟩ | ⟨p, h⟩
  · exact C104_own_never_read h
  · exact C104_panics_own_never_read h

/-- Watchpoints: the run returns as without them when no watched address is called, and otherwise panics at the
first call of one, exactly when the calls before have been made. -/
theorem C139_chip8_watch {s s' : Site W D} {st : StepState (Chip8 Copy R)} (hc : c.address_space = .own)
    (h : exec b (Chip8.Live.run b env c n) s = (.ok st, s')) (f : Word → Bool) (p : Panic) :
    ∃ c' l, st = .ready c' ∧ RanOpcodes b env n 0 (rest c) (rest c) l (rest c') ∧ Answers b s l s' ∧
      ((∀ call ∈ l, f call.at = false) →
        exec b (Chip8.Live.run b env c n) (watched f p s) = (.ok st, watched f p s')) ∧
      ∀ l₁ call l₂, l = l₁ ++ call :: l₂ → (∀ call ∈ l₁, f call.at = false) → f call.at = true →
        ∃ s₁, Answers b s l₁ s₁ ∧
          exec b (Chip8.Live.run b env c n) (watched f p s) = (.error p, watched f p s₁) := by
  obtain ⟨l, h1, h2⟩ := exec_ok_iff.1 h
  obtain ⟨c', hs, -, hr⟩ := C104_run hc h1
  refine ⟨c', l, hs, hr, h2, fun hl => exec_ok_iff.2 ⟨l, h1, answers_watched h2 hl⟩, ?_⟩
  rintro l₁ call l₂ rfl hl hf
  obtain ⟨s₁, h3, -⟩ := answers_append.1 h2
  exact ⟨s₁, h3, exec_watched_hit h1 h3 hl hf⟩

/-! ### Concrete cases -/

/-- `Fx33` at 0x200: three digits at I, which is 0x300, in memory that all clones share. -/
def digitsCode : Spec.Mos.Mem := fun a => if a = 0x200 then 0xf3 else if a = 0x201 then 0x33 else 7

/-- Without a watch the run returns and the digits are there. -/
example (b : Build) (env : Nat → Env) : ∃ st m, exec b (Chip8.Live.run b env (onBus sample .own) 1)
      (⟨⟨⟩, ⟨⟩, ⟨digitsCode⟩⟩ : Site Mos.FlatRam Shared) = (.ok st, ⟨⟨⟩, ⟨⟩, ⟨m⟩⟩) ∧
      m 0x300 = 0 ∧ m 0x301 = 5 ∧ m 0x302 = 1 := by
  rcases b with ⟨_ | _⟩ <;> exact ⟨_, _, rfl, by decide +kernel⟩

/-- A watch at the second digit ends the run there; the first one has been stored. -/
example (b : Build) (env : Nat → Env) : exec b (Chip8.Live.run b env (onBus sample .own) 1)
      (watched (fun a => a == 0x301) (.explicit "watch") (⟨⟨⟩, ⟨⟩, ⟨digitsCode⟩⟩ : Site Mos.FlatRam Shared)) =
      (.error (.explicit "watch"), watched (fun a => a == 0x301) (.explicit "watch")
        (⟨⟨⟩, ⟨⟩, ⟨fun a => if a = 0x300 then 0 else digitsCode a⟩⟩ : Site Mos.FlatRam Shared)) := by
  rcases b with ⟨_ | _⟩ <;> rfl

end Verif.Props.Chip8
