import Verif.Proofs.BusMem
import Verif.Spec.Mos6502

/-!
# Stores to a bus of memory segments
-/

namespace Verif

open Verif.Spec Verif.Spec.Mos

/-- Stores as events of a history. -/
def asEvents (ws : List (Word × Byte)) : List BusEvent := ws.map fun w => .write w.1 w.2

theorem owner_step_write (s : Bus) (a : Word) (v : Byte) : (s.step (.write a v)).owner = s.owner := by
  simp only [Bus.step]; split <;> rfl

theorem owner_asEvents (h : List BusEvent) (ws : List (Word × Byte)) :
    (Bus.after (h ++ asEvents ws)).owner = (Bus.after h).owner := by
  induction ws generalizing h with
  | nil => simp [asEvents]
  | cons w ws ih =>
    have e : h ++ asEvents (w :: ws) = (h ++ [.write w.1 w.2]) ++ asEvents ws := by simp [asEvents]
    rw [e, ih, Bus.after_append, owner_step_write]

theorem val_asEvents (h : List BusEvent) (ws : List (Word × Byte))
    (hw : ∀ w ∈ ws, (Bus.after h).owner w.1 = some .readWrite) (a : Word) :
    (Bus.after (h ++ asEvents ws)).val a = (lastWrite a ws).getD ((Bus.after h).val a) := by
  induction ws generalizing h with
  | nil => simp [asEvents, lastWrite]
  | cons w ws ih =>
    obtain ⟨x, v⟩ := w
    have e : h ++ asEvents ((x, v) :: ws) = (h ++ [.write x v]) ++ asEvents ws := by simp [asEvents]
    have ho : (Bus.after (h ++ [BusEvent.write x v])).owner = (Bus.after h).owner := by
      rw [Bus.after_append, owner_step_write]
    rw [e, ih _ (fun w hm => by rw [ho]; exact hw w (List.mem_cons_of_mem _ hm)), Bus.after_append]
    simp only [Bus.step, lastWrite]
    rw [if_pos (hw (x, v) (by simp))]
    cases lastWrite a ws with
    | some y => rfl
    | none =>
      simp only [Option.getD_none]
      by_cases hx : a = x
      · rw [if_pos hx, if_pos hx.symm]; rfl
      · rw [if_neg hx, if_neg (fun q => hx q.symm)]; rfl

/-- Stores that a bus of memory segments accepts all go to RAM. -/
theorem writeAll_trace {b : Build} (ws : List (Word × Byte)) : ∀ {h : List BusEvent}
    {m m' : AddressMap Memory}, MemTrace b h m → writeAll b m ws = .ok m' →
    (∀ w ∈ ws, (Bus.after h).owner w.1 = some .readWrite) ∧ MemTrace b (h ++ asEvents ws) m' := by
  induction ws with
  | nil =>
    intro h m m' ht hw
    cases hw
    exact ⟨by simp, by simpa [asEvents] using ht⟩
  | cons w ws ih =>
    obtain ⟨a, v⟩ := w
    intro h m m' ht hw
    obtain ⟨res, m1, h1, -, h3⟩ := ht.inv.write b a v
    have h1' : Addressable.write b m a v = .ok (res, m1) := h1
    rw [writeAll, h1'] at hw
    have ho : (Bus.after h).owner a = some .readWrite := by
      revert h3
      split
      · intro _; assumption
      · intro h3; rw [h3] at hw; cases hw
      · intro h3; rw [h3] at hw; cases hw
    cases hr : res with
    | error e => rw [hr] at hw; cases hw
    | ok x =>
      rw [hr] at hw
      obtain ⟨q1, q2⟩ := ih (.write ht h1) hw
      constructor
      · intro w hm
        rcases List.mem_cons.1 hm with rfl | hm
        · exact ho
        · have := q1 w hm
          rwa [Bus.after_append, owner_step_write] at this
      · have e : h ++ asEvents ((a, v) :: ws) = (h ++ [.write a v]) ++ asEvents ws := by simp [asEvents]
        rw [e]; exact q2

/-- A store elsewhere is refused with the text of the bus. -/
theorem writeAll_refused {b : Build} (ws : List (Word × Byte)) : ∀ {h : List BusEvent}
    {m : AddressMap Memory}, MemTrace b h m →
    (∃ w ∈ ws, (Bus.after h).owner w.1 ≠ some .readWrite) →
    ∃ w ∈ ws, ((Bus.after h).owner w.1 = some .readOnly ∧
        writeAll b m ws = .error (.unwrapErr "memory is read-only")) ∨
      ((Bus.after h).owner w.1 = none ∧
        writeAll b m ws = .error (.unwrapErr s!"address space {w.1.toNat} unallocated")) := by
  induction ws with
  | nil => rintro h m _ ⟨w, hw, _⟩; cases hw
  | cons w ws ih =>
    obtain ⟨a, v⟩ := w
    intro h m ht hx
    obtain ⟨res, m1, h1, -, h3⟩ := ht.inv.write b a v
    have h1' : Addressable.write b m a v = .ok (res, m1) := h1
    rw [writeAll, h1']
    cases ho : (Bus.after h).owner a with
    | none =>
      rw [ho] at h3
      exact ⟨(a, v), by simp, .inr ⟨ho, by rw [h3]⟩⟩
    | some k =>
      rw [ho] at h3
      cases k with
      | readOnly => exact ⟨(a, v), by simp, .inl ⟨ho, by rw [h3]⟩⟩
      | readWrite =>
        rw [h3] at h1 ⊢
        obtain ⟨w, hm, hne⟩ := hx
        rcases List.mem_cons.1 hm with rfl | hm
        · exact absurd ho hne
        · have hoe : (Bus.after (h ++ [BusEvent.write a v])).owner = (Bus.after h).owner := by
            rw [Bus.after_append, owner_step_write]
          obtain ⟨w', hm', q⟩ := ih (.write ht h1) ⟨w, hm, by rw [hoe]; exact hne⟩
          rw [hoe] at q
          exact ⟨w', List.mem_cons_of_mem _ hm', q⟩

end Verif
