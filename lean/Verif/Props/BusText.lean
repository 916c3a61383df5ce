import Verif.Props.Bus

/-!
# Property C80: what the errors of the bus say
-/

namespace Verif.Props

open Verif Verif.Spec

/-- The text of a refused registration names the range that was asked for and a registered range in
which one of its ends lies. -/
theorem C80_register {D : Type} {m : AddressMap D} {r : AddrRange} {d : D} {msg : String}
    (h : m.register r d = .error msg) :
    ∃ e ∈ m.inner, (InRange e.1 r.start ∨ InRange e.1 r.stop) ∧
      msg = s!"address space {r.start.toNat}..={r.stop.toNat} overlaps with " ++
        s!"{e.1.start.toNat}..={e.1.stop.toNat}" := by
  unfold AddressMap.register at h
  split at h
  · obtain rfl := Except.error.inj h
    rename_i hc
    unfold AddressMap.overlapText
    cases hf : m.inner.find? (fun e => AddressMap.conflicts r e.1) with
    | none =>
      obtain ⟨e, he, hce⟩ := List.any_eq_true.1 hc
      exact absurd hce (List.find?_eq_none.1 hf e he)
    | some e =>
      have hce := List.find?_some hf
      simp only [AddressMap.conflicts, Bool.or_eq_true, AddrRange.contains_iff] at hce
      refine ⟨e, List.mem_of_find?_eq_some hf, hce, ?_⟩
      simp only [AddressMap.debugRange, toString, String.append_assoc]
  · cases h

/-- On a bus of memory segments, after any history: a write is refused for one of two reasons, and
its text says which: nothing is mapped at the address, or read-only memory is. -/
theorem C80_write {b : Build} {h : List BusEvent} {m m' : AddressMap Memory} (ht : MemTrace b h m)
    {a : Word} {v : Byte} {msg : String} (hw : m.write b a v = .ok (.error msg, m')) :
    ((Bus.after h).owner a = none ∧ msg = s!"address space {a.toNat} unallocated") ∨
    ((Bus.after h).owner a = some .readOnly ∧ msg = "memory is read-only") := by
  obtain ⟨res, m'', h1, -, h3⟩ := ht.inv.write b a v
  rw [hw] at h1
  simp only [Except.ok.injEq, Prod.mk.injEq] at h1
  rw [← h1.1] at h3
  cases ho : (Bus.after h).owner a with
  | none =>
    rw [ho] at h3
    exact .inl ⟨rfl, Except.error.inj h3⟩
  | some k =>
    rw [ho] at h3
    cases k with
    | readWrite => cases h3
    | readOnly => exact .inr ⟨rfl, Except.error.inj h3⟩

/-- Conversely, each of the two reasons is answered with its text. -/
theorem C80_write_told {b : Build} {h : List BusEvent} {m : AddressMap Memory} (ht : MemTrace b h m)
    (a : Word) (v : Byte) :
    ((Bus.after h).owner a = none →
      ∃ m', m.write b a v = .ok (.error s!"address space {a.toNat} unallocated", m')) ∧
    ((Bus.after h).owner a = some .readOnly →
      ∃ m', m.write b a v = .ok (.error "memory is read-only", m')) := by
  obtain ⟨res, m', h1, -, h3⟩ := ht.inv.write b a v
  constructor <;> intro ho <;> rw [ho] at h3 <;> exact ⟨m', by rw [h1, h3]⟩

/-- On any bus, with any devices: the text of an address that no device has. -/
theorem C80_unmapped {D : Type} [Addressable D] (b : Build) (m : AddressMap D) (a : Word) (v : Byte)
    (h : ∀ e ∈ m.inner, ¬ InRange e.1 a) :
    m.write b a v = .ok (.error s!"address space {a.toNat} unallocated", m) :=
  AddressMap.write_none b a v m h

/-- A refused registration, and the two refused writes. -/
example : (AddressMap.register (D := Unit) ⟨[(⟨0x10, 0x1f⟩, ()), (⟨0x20, 0x2f⟩, ())]⟩ ⟨0x18, 0x28⟩ ()) =
    .error "address space 24..=40 overlaps with 16..=31" := by rfl

example : (sampleMap.write .debug 0xffff 1).map Prod.fst = .ok (.error "address space 65535 unallocated") ∧
    ∃ a, (sampleMap.write .debug a 1).map Prod.fst = .ok (.error "memory is read-only") :=
  ⟨by rfl, 0x8001, by rfl⟩

end Verif.Props
