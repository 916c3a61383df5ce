import Verif.Model.Chip8.Ring

/-!
# CHIP-8: the ring buffer (C60)

`rings`: every ring a program can hold is made by `Ring::new` and changed by writes. The contents
are specified by the history of writes alone.
-/

namespace Verif.Chip8

open Verif

namespace Ring

variable {T : Type} [Inhabited T]

/-- The rings of capacity `n` after a history of writes (oldest first). -/
inductive History (n : Nat) : List (Nat × T) → Ring T → Prop
  | new : History n [] (Ring.new n)
  | write {h : List (Nat × T)} {r r' : Ring T} {o : Nat} {v : T} {res : Except String T} :
      History n h r → r.write o v = .ok (res, r') → History n (h ++ [(o, v)]) r'

/-- The value last written to an index congruent to `o` modulo `n`, if any. -/
def lastWrite (n o : Nat) (h : List (Nat × T)) : Option T :=
  (h.reverse.find? fun w => decide (w.1 % n = o % n)).map Prod.snd

theorem history_inv {n : Nat} (hn : 0 < n) {h : List (Nat × T)} {r : Ring T} (hr : History n h r) :
    r.capacity = n ∧ r.inner.length = n ∧
    ∀ o, r.inner[o % n]? = some ((lastWrite n o h).getD default) := by
  induction hr with
  | new =>
    refine ⟨rfl, by simp [Ring.new], fun o => ?_⟩
    have : o % n < n := Nat.mod_lt _ hn
    simp [Ring.new, lastWrite, this]
  | @write h r r' o v res _ hw ih =>
    obtain ⟨hc, hl, hi⟩ := ih
    have hlt : o % n < n := Nat.mod_lt _ hn
    unfold Ring.write wrap at hw
    rw [hc, if_neg (by omega), Res.ok_bind, if_pos (by omega)] at hw
    simp only [Except.ok.injEq, Prod.mk.injEq] at hw
    obtain ⟨-, rfl⟩ := hw
    refine ⟨rfl, by simp [hl], fun o' => ?_⟩
    have hlt' : o' % n < n := Nat.mod_lt _ hn
    simp only [lastWrite, List.reverse_append, List.reverse_cons, List.reverse_nil, List.nil_append,
      List.singleton_append, List.find?_cons]
    by_cases he : o % n = o' % n
    · simp [he, hl, hlt']
    · rw [List.getElem?_set_ne he, hi o']
      simp [he, lastWrite]

/-- C60: with a positive capacity no index panics: a read gives the value last written to a
congruent index (the default before), whatever the history of writes. -/
theorem C60_read {n : Nat} (hn : 0 < n) {h : List (Nat × T)} {r : Ring T} (hr : History n h r)
    (o : Nat) : r.read o = .ok ((lastWrite n o h).getD default) := by
  obtain ⟨hc, -, hi⟩ := history_inv hn hr
  unfold read wrap
  rw [hc, if_neg (by omega), Res.ok_bind, hi o]
  rfl

/-- C60: every write is accepted and answers the written value; a `SafeAddressable` write never
panics. -/
theorem C60_write {n : Nat} (hn : 0 < n) {h : List (Nat × T)} {r : Ring T} (hr : History n h r)
    (o : Nat) (v : T) : ∃ r', r.write o v = .ok (.ok v, r') ∧ r.writeSafe o v = .ok (v, r') := by
  obtain ⟨hc, hl, -⟩ := history_inv hn hr
  have hlt : o % n < n := Nat.mod_lt _ hn
  have hw : r.write o v = .ok (.ok v, { r with inner := r.inner.set (o % n) v }) := by
    unfold write wrap
    rw [hc, if_neg (by omega), Res.ok_bind, if_pos (by omega)]
  refine ⟨_, hw, ?_⟩
  unfold writeSafe
  rw [hw]
  rfl

/-- C60: a write shows at every congruent index and at no other. -/
theorem C60_write_read {n : Nat} (hn : 0 < n) {h : List (Nat × T)} {r r' : Ring T}
    (hr : History n h r) {o : Nat} {v : T} {res : Except String T}
    (hw : r.write o v = .ok (res, r')) (o' : Nat) :
    r'.read o' = if o' % n = o % n then .ok v else r.read o' := by
  rw [C60_read hn (.write hr hw) o', C60_read hn hr o']
  simp only [lastWrite, List.reverse_append, List.reverse_cons, List.reverse_nil, List.nil_append,
    List.singleton_append, List.find?_cons]
  by_cases he : o' % n = o % n
  · simp [he]
  · rw [if_neg he]
    have : ¬ o % n = o' % n := fun h => he h.symm
    simp [this]

/-- The capacity has to be positive: the ring of capacity 0 panics on every read and write. -/
theorem C60_empty_panics (o : Nat) (v : T) :
    (Ring.new 0 : Ring T).read o = .error .divByZero ∧
    (Ring.new 0 : Ring T).write o v = .error .divByZero := ⟨rfl, rfl⟩

/-- The stack of the CHIP-8 (capacity 16), written at 1 and at 17. -/
example : ∃ r r' : Ring Word, (Ring.new 16).write 1 0xabc = .ok (.ok 0xabc, r) ∧
    r.write 17 0xdef = .ok (.ok 0xdef, r') ∧ History 16 [(1, 0xabc), (17, 0xdef)] r' ∧
    r'.read 33 = .ok 0xdef ∧ r'.read 2 = .ok 0 := by
  refine ⟨_, _, rfl, rfl, .write (h := [(1, 0xabc)]) (.write (h := []) .new rfl) rfl, rfl, rfl⟩

end Ring

end Verif.Chip8
