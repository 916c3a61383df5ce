import Verif.Spec.Watch
import Verif.Proofs.LiveBus

/-!
# Computations on devices that panic
-/

namespace Verif.Live.Bus

open Verif Verif.Spec.Live

variable {α W D : Type} [Device W D] {b : Build}

/-- Every computation comes to an end, whatever the answers. -/
theorem asked_some (x : Bus α) : ∃ l r, Asked x l r := by
  induction x with
  | done r => exact ⟨[], r, .done r⟩
  | read who a k ih => obtain ⟨l, r, h⟩ := ih 0; exact ⟨_, r, .read h⟩
  | write who a x k ih => obtain ⟨l, r, h⟩ := ih (.ok 0); exact ⟨_, r, .write h⟩

/-- A computation that panics on actual devices panics by itself, or at a call for which the device panics. -/
theorem exec_error_iff {x : Bus α} {s s' : Site W D} {p : Panic} :
    exec b x s = (.error p, s') ↔
      (∃ l, Asked x l (.error p) ∧ Answers b s l s') ∨
      ∃ l c s₁ w, Answers b s l s₁ ∧ Fails b s₁ p w c ∧ s' = { s₁ with world := w } ∧
        ∀ c', Call.Same c c' → ∃ rest r, Asked x (l ++ c' :: rest) r := by
  constructor
  · intro h
    induction x generalizing s with
    | done r =>
      simp only [exec, Prod.mk.injEq] at h
      obtain ⟨rfl, rfl⟩ := h
      exact .inl ⟨[], .done _, .nil _⟩
    | read who ad k ih =>
      simp only [exec] at h
      split at h
      · rename_i v d w hr
        rcases ih _ h with ⟨l, h1, h2⟩ | ⟨l, c, s₁, w', h1, h2, h3, h4⟩
        · exact .inl ⟨_, .read h1, .read hr h2⟩
        · refine .inr ⟨_, c, s₁, w', .read hr h1, h2, h3, fun c' hc' => ?_⟩
          obtain ⟨rest, r, h⟩ := h4 c' hc'
          exact ⟨rest, r, .read h⟩
      · rename_i e w hr
        simp only [Prod.mk.injEq, Except.error.injEq] at h
        obtain ⟨rfl, rfl⟩ := h
        refine .inr ⟨[], .read who ad 0, s, w, .nil _, hr, rfl, ?_⟩
        rintro _ ⟨v, rfl⟩
        obtain ⟨l, r, h⟩ := asked_some (k v)
        exact ⟨l, r, .read h⟩
    | write who ad x k ih =>
      simp only [exec] at h
      split at h
      · rename_i v d w hr
        rcases ih _ h with ⟨l, h1, h2⟩ | ⟨l, c, s₁, w', h1, h2, h3, h4⟩
        · exact .inl ⟨_, .write h1, .write hr h2⟩
        · refine .inr ⟨_, c, s₁, w', .write hr h1, h2, h3, fun c' hc' => ?_⟩
          obtain ⟨rest, r, h⟩ := h4 c' hc'
          exact ⟨rest, r, .write h⟩
      · rename_i e w hr
        simp only [Prod.mk.injEq, Except.error.injEq] at h
        obtain ⟨rfl, rfl⟩ := h
        refine .inr ⟨[], .write who ad x (.ok 0), s, w, .nil _, hr, rfl, ?_⟩
        rintro _ ⟨v, rfl⟩
        obtain ⟨l, r, h⟩ := asked_some (k v)
        exact ⟨l, r, .write h⟩
  · rintro (⟨l, h1, h2⟩ | ⟨l, c, s₁, w, h2, hf, rfl, h4⟩)
    · generalize hr : (Except.error p : Res α) = r at h1
      induction h1 generalizing s with
      | done r => cases h2; subst hr; rfl
      | read _ ih =>
        cases h2 with
        | read hd h2 => simp only [exec, hd]; exact ih h2 hr
      | write _ ih =>
        cases h2 with
        | write hd h2 => simp only [exec, hd]; exact ih h2 hr
    · have hc : Call.Same c c := by cases c <;> exact ⟨_, rfl⟩
      obtain ⟨rest, r, h⟩ := h4 c hc
      clear h4
      induction h2 generalizing x with
      | nil s =>
        cases h with
        | read h =>
          have hf : Device.read b (s.on _) _ s.world = (.error p, w) := hf
          simp only [exec, hf]
        | write h =>
          have hf : Device.write b (s.on _) _ _ s.world = (.error p, w) := hf
          simp only [exec, hf]
      | read hd _ ih =>
        cases h with
        | read h => simp only [exec, hd]; exact ih hf h
      | write hd _ ih =>
        cases h with
        | write h => simp only [exec, hd]; exact ih hf h

/-- Answers to a beginning of calls. -/
theorem answers_append {l l' : List Call} {s s' : Site W D} :
    Answers b s (l ++ l') s' ↔ ∃ s₁, Answers b s l s₁ ∧ Answers b s₁ l' s' := by
  constructor
  · intro h
    induction l generalizing s with
    | nil => exact ⟨s, .nil _, h⟩
    | cons c l ih =>
      cases h with
      | read hd h => obtain ⟨s₁, h1, h2⟩ := ih h; exact ⟨s₁, .read hd h1, h2⟩
      | write hd h => obtain ⟨s₁, h1, h2⟩ := ih h; exact ⟨s₁, .write hd h1, h2⟩
  · rintro ⟨s₁, h1, h2⟩
    induction h1 with
    | nil => exact h2
    | read hd _ ih => exact .read hd (ih h2)
    | write hd _ ih => exact .write hd (ih h2)

/-- Calls of addresses that are not watched are answered as without the watch. -/
theorem answers_watched {f : Word → Bool} {p : Panic} {l : List Call} {s s' : Site W D} (h : Answers b s l s')
    (hl : ∀ c ∈ l, f c.at = false) : Answers b (watched f p s) l (watched f p s') := by
  induction h with
  | nil => exact .nil _
  | @read s s' who a v d w l hd _ ih =>
    have ha : f a = false := hl _ List.mem_cons_self
    refine .read (d := ⟨d, f, p⟩) (w := w) ?_ ?_
    · cases who <;> simp only [watched, Site.on] at hd ⊢ <;> simp only [Device.read, ha, hd] <;> simp
    · have := ih fun c hc => hl c (List.mem_cons_of_mem _ hc)
      cases who <;> exact this
  | @write s s' who a x v d w l hd _ ih =>
    have ha : f a = false := hl _ List.mem_cons_self
    refine .write (d := ⟨d, f, p⟩) (w := w) ?_ ?_
    · cases who <;> simp only [watched, Site.on] at hd ⊢ <;> simp only [Device.write, ha, hd] <;> simp
    · have := ih fun c hc => hl c (List.mem_cons_of_mem _ hc)
      cases who <;> exact this

/-- A watched address panics when it is called, and nothing has happened. -/
theorem fails_watched {f : Word → Bool} {p : Panic} {c : Call} {s : Site W D} (hc : f c.at = true) :
    Fails b (watched f p s) p s.world c := by
  cases c with
  | read who a v =>
    have ha : f a = true := hc
    cases who <;> simp [Fails, watched, Site.on, Device.read, ha]
  | write who a x v =>
    have ha : f a = true := hc
    cases who <;> simp [Fails, watched, Site.on, Device.write, ha]

/-- Calls with other answers are made up to there. -/
theorem asked_same {x : Bus α} {l rest : List Call} {c c' : Call} {r : Res α} (h : Asked x (l ++ c :: rest) r)
    (hc : Call.Same c c') : ∃ rest r, Asked x (l ++ c' :: rest) r := by
  induction l generalizing x with
  | nil =>
    cases h with
    | @read who a k v l r h =>
      obtain ⟨v', rfl⟩ := hc
      obtain ⟨l, r, h⟩ := asked_some (k v')
      exact ⟨l, r, .read h⟩
    | @write who a x k v l r h =>
      obtain ⟨v', rfl⟩ := hc
      obtain ⟨l, r, h⟩ := asked_some (k v')
      exact ⟨l, r, .write h⟩
  | cons d l ih =>
    cases h with
    | read h => obtain ⟨rest, r, h⟩ := ih h; exact ⟨rest, r, .read h⟩
    | write h => obtain ⟨rest, r, h⟩ := ih h; exact ⟨rest, r, .write h⟩

/-- A computation on watched devices panics at the first call of a watched address, after the calls before. -/
theorem exec_watched_hit {f : Word → Bool} {p : Panic} {x : Bus α} {l rest : List Call} {c : Call} {r : Res α}
    {s s₁ : Site W D} (h : Asked x (l ++ c :: rest) r) (ha : Answers b s l s₁) (hl : ∀ c ∈ l, f c.at = false)
    (hc : f c.at = true) : exec b x (watched f p s) = (.error p, watched f p s₁) :=
  exec_error_iff.2 (.inr ⟨l, c, _, _, answers_watched ha hl, fails_watched hc, rfl, fun _ h' => asked_same h h'⟩)

end Verif.Live.Bus
