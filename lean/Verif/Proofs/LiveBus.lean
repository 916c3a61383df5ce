import Verif.Spec.LiveBus
import Verif.Proofs.MosTraffic
import Verif.Proofs.MosSample

/-!
# Computations as trees of bus calls
-/

namespace Verif.Live

open Verif Verif.Mos Verif.Spec.Mos Verif.Spec.Live

namespace Bus

variable {α β γ : Type}

@[simp] theorem ok_bind (a : α) (f : α → Bus β) : ((Bus.done (.ok a) : Bus α) >>= f) = f a := rfl

@[simp] theorem error_bind (e : Panic) (f : α → Bus β) :
    ((Bus.done (.error e) : Bus α) >>= f) = .done (.error e) := rfl

@[simp] theorem pure_eq (a : α) : (pure a : Bus α) = .done (.ok a) := rfl

@[simp] theorem read_bind (who : Copy) (a : Word) (k : Byte → Bus α) (f : α → Bus β) :
    ((Bus.read who a k) >>= f) = .read who a fun v => k v >>= f := rfl

@[simp] theorem write_bind (who : Copy) (a : Word) (x : Byte) (k : Except String Byte → Bus α)
    (f : α → Bus β) : ((Bus.write who a x k) >>= f) = .write who a x fun v => k v >>= f := rfl

@[simp] theorem lift_eq (r : Except Panic α) : (liftM r : Bus α) = .done r := rfl

theorem bind_assoc (x : Bus α) (f : α → Bus β) (g : β → Bus γ) :
    x >>= f >>= g = x >>= fun a => f a >>= g := by
  induction x with
  | done r => cases r <;> rfl
  | read who a k ih => simp only [read_bind, ih]
  | write who a x k ih => simp only [write_bind, ih]

/-- Calls of a sequence. -/
theorem asked_bind {x : Bus α} {f : α → Bus β} {l : List Call} {r : Res β} :
    Asked (x >>= f) l r ↔ (∃ l₁ l₂ a, l = l₁ ++ l₂ ∧ Asked x l₁ (.ok a) ∧ Asked (f a) l₂ r) ∨
      (∃ e, r = .error e ∧ Asked x l (.error e)) := by
  constructor
  · intro h
    induction x generalizing l with
    | done r' =>
      cases r' with
      | ok a => exact .inl ⟨[], l, a, rfl, .done _, h⟩
      | error e =>
        rw [error_bind] at h
        cases h
        exact .inr ⟨e, rfl, .done _⟩
    | read who a k ih =>
      rw [read_bind] at h
      cases h with
      | read h =>
        rcases ih _ h with ⟨l₁, l₂, a', e, h1, h2⟩ | ⟨e, e1, h1⟩
        · exact .inl ⟨_ :: l₁, l₂, a', by rw [e]; rfl, .read h1, h2⟩
        · exact .inr ⟨e, e1, .read h1⟩
    | write who a x k ih =>
      rw [write_bind] at h
      cases h with
      | write h =>
        rcases ih _ h with ⟨l₁, l₂, a', e, h1, h2⟩ | ⟨e, e1, h1⟩
        · exact .inl ⟨_ :: l₁, l₂, a', by rw [e]; rfl, .write h1, h2⟩
        · exact .inr ⟨e, e1, .write h1⟩
  · rintro (⟨l₁, l₂, a, rfl, h1, h2⟩ | ⟨e, rfl, h⟩)
    · generalize hr : (Except.ok a : Res α) = r' at h1
      induction h1 with
      | done r' => subst hr; exact h2
      | read _ ih => exact .read (ih hr)
      | write _ ih => exact .write (ih hr)
    · generalize hr : (Except.error e : Res α) = r' at h
      induction h with
      | done r' => subst hr; exact .done _
      | read _ ih => exact .read (ih hr)
      | write _ ih => exact .write (ih hr)

theorem asked_done {r r' : Res α} {l : List Call} : Asked (.done r) l r' ↔ l = [] ∧ r' = r := by
  constructor
  · intro h; cases h; exact ⟨rfl, rfl⟩
  · rintro ⟨rfl, rfl⟩; exact .done _

theorem asked_read {who : Copy} {a : Word} {k : Byte → Bus α} {l : List Call} {r : Res α} :
    Asked (.read who a k) l r ↔ ∃ v l', l = .read who a v :: l' ∧ Asked (k v) l' r := by
  constructor
  · intro h; cases h with | read h => exact ⟨_, _, rfl, h⟩
  · rintro ⟨v, l', rfl, h⟩; exact .read h

theorem asked_write {who : Copy} {a : Word} {x : Byte} {k : Except String Byte → Bus α} {l : List Call}
    {r : Res α} :
    Asked (.write who a x k) l r ↔ ∃ v l', l = .write who a x v :: l' ∧ Asked (k v) l' r := by
  constructor
  · intro h; cases h with | write h => exact ⟨_, _, rfl, h⟩
  · rintro ⟨v, l', rfl, h⟩; exact .write h

/-! ## On actual devices -/

section
variable {W D : Type} [Device W D] {b : Build}

theorem exec_bind (x : Bus α) (f : α → Bus β) (s : Site W D) :
    exec b (x >>= f) s = match exec b x s with
      | (.ok a, s') => exec b (f a) s'
      | (.error e, s') => (.error e, s') := by
  induction x generalizing s with
  | done r => cases r <;> rfl
  | read who a k ih =>
    rw [read_bind]
    simp only [exec]
    split
    · exact ih _ _
    · rfl
  | write who a x k ih =>
    rw [write_bind]
    simp only [exec]
    split
    · exact ih _ _
    · rfl

/-- A computation that returns on actual devices makes calls that the devices answer so. -/
theorem exec_ok_iff {x : Bus α} {s s' : Site W D} {a : α} :
    exec b x s = (.ok a, s') ↔ ∃ l, Asked x l (.ok a) ∧ Answers b s l s' := by
  constructor
  · intro h
    induction x generalizing s with
    | done r =>
      simp only [exec, Prod.mk.injEq] at h
      obtain ⟨rfl, rfl⟩ := h
      exact ⟨[], .done _, .nil _⟩
    | read who ad k ih =>
      simp only [exec] at h
      split at h
      · rename_i v d w hr
        obtain ⟨l, h1, h2⟩ := ih _ h
        exact ⟨_, .read h1, .read hr h2⟩
      · simp at h
    | write who ad x k ih =>
      simp only [exec] at h
      split at h
      · rename_i v d w hr
        obtain ⟨l, h1, h2⟩ := ih _ h
        exact ⟨_, .write h1, .write hr h2⟩
      · simp at h
  · rintro ⟨l, h1, h2⟩
    generalize hr : (Except.ok a : Res α) = r at h1
    induction h1 generalizing s with
    | done r => cases h2; subst hr; rfl
    | read _ ih =>
      cases h2 with
      | read hd h2 => simp only [exec, hd]; exact ih h2 hr
    | write _ ih =>
      cases h2 with
      | write hd h2 => simp only [exec, hd]; exact ih h2 hr

end

end Bus

end Verif.Live
