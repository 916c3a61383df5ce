import Verif.Props.Bus
import Verif.Proofs.BusAlike
import Verif.Spec.Registration

/-!
# Property C132: the order in which devices are registered
-/

namespace Verif.Props

open Verif Verif.Spec

variable {D : Type}

/-- One registration of a non-empty range: the entries are the old ones and the new one. -/
private theorem registers_entries {m m' : AddressMap D} {r : AddrRange} {d : D} (hr : NonEmpty r)
    (h : AddressMap.Registers m r d m') : m'.inner.Perm ((r, d) :: m.inner) := by
  have hp := AddressMap.registers_perm h
  obtain ⟨m₀, h1, -⟩ := h
  have hc := C04_partial m r d h1
  have hn : r ∉ m.inner.map Prod.fst := by
    intro hmem
    obtain ⟨e, he, rfl⟩ := List.mem_map.1 hmem
    have := hc e he ⟨e.1.start, ⟨Nat.le_refl _, hr⟩, ⟨Nat.le_refl _, hr⟩⟩
    omega
  rw [AddressMap.insert, if_neg hn] at hp
  exact hp

/-- The general form, from any map. -/
private theorem registered_iff (es : List (AddrRange × D)) (hne : ∀ e ∈ es, NonEmpty e.1)
    (m : AddressMap D) :
    (∃ m', Registered m es m') ↔
      es.Pairwise (fun e f => Overlap f.1 e.1 → Encloses f.1 e.1) ∧
        ∀ e ∈ es, ∀ k ∈ m.inner, Overlap e.1 k.1 → Encloses e.1 k.1 := by
  induction es generalizing m with
  | nil => exact ⟨fun _ => ⟨List.Pairwise.nil, by simp⟩, fun _ => ⟨m, .nil⟩⟩
  | cons e es ih =>
    obtain ⟨r, d⟩ := e
    have hr : NonEmpty r := hne (r, d) (by simp)
    have hne' : ∀ e ∈ es, NonEmpty e.1 := fun e he => hne e (by simp [he])
    constructor
    · rintro ⟨m', h⟩
      cases h with
      | @cons _ m₁ _ _ _ _ h1 h2 =>
        obtain ⟨hpw, hk⟩ := (ih hne' m₁).1 ⟨m', h2⟩
        have hent := registers_entries hr h1
        obtain ⟨m₀, h0, -⟩ := h1
        refine ⟨List.pairwise_cons.2 ⟨fun f hf ho => ?_, hpw⟩, ?_⟩
        · exact hk f hf (r, d) (hent.mem_iff.2 (by simp)) ho
        · intro f hf k hkm ho
          rcases List.mem_cons.1 hf with rfl | hf
          · exact C04_partial m r d h0 k hkm ho
          · exact hk f hf k (hent.mem_iff.2 (by simp [hkm])) ho
    · rintro ⟨hpw, hk⟩
      obtain ⟨hpw1, hpw2⟩ := List.pairwise_cons.1 hpw
      obtain ⟨m₁, h1⟩ := (C04_accepted_iff_partial m r d hr).2
        (fun k hkm ho => hk (r, d) (by simp) k hkm ho)
      have h1' : AddressMap.Registers m r d m₁ := ⟨m₁, h1, List.Perm.refl _⟩
      have hent := registers_entries hr h1'
      obtain ⟨m', h2⟩ := (ih hne' m₁).2 ⟨hpw2, fun f hf k hkm ho => by
        rcases List.mem_cons.1 (hent.mem_iff.1 hkm) with rfl | hkm
        · exact hpw1 f hf ho
        · exact hk f (by simp [hf]) k hkm ho⟩
      exact ⟨m', .cons h1' h2⟩

/-- Registering non-empty ranges in this order, beginning with an empty map, is accepted exactly if
every range that overlaps an earlier one encloses it with addresses to spare on both sides. -/
theorem C132_accepted_iff (es : List (AddrRange × D)) (hne : ∀ e ∈ es, NonEmpty e.1) :
    (∃ m', Registered AddressMap.new es m') ↔
      es.Pairwise (fun e f => Overlap f.1 e.1 → Encloses f.1 e.1) := by
  rw [registered_iff es hne]
  simp [AddressMap.new]

/-- The map then has every device exactly once, under its own range, besides those it had. -/
theorem C132_entries {es : List (AddrRange × D)} (hne : ∀ e ∈ es, NonEmpty e.1)
    {m m' : AddressMap D} (h : Registered m es m') : m'.inner.Perm (es ++ m.inner) := by
  induction h with
  | nil => exact List.Perm.refl _
  | @cons m m₁ m' r d es h1 h2 ih =>
    have hent := registers_entries (hne (r, d) (by simp)) h1
    refine (ih fun e he => hne e (by simp [he])).trans ?_
    refine (List.Perm.append_left es hent).trans ?_
    exact List.perm_middle

private theorem overlap_symm {r s : AddrRange} (h : Overlap r s) : Overlap s r := by
  obtain ⟨a, h1, h2⟩ := h
  exact ⟨a, h2, h1⟩

/-- Every order of registering non-empty ranges is accepted exactly if no two of them overlap. -/
theorem C132_every_order_iff (es : List (AddrRange × D)) (hne : ∀ e ∈ es, NonEmpty e.1) :
    (∀ fs : List (AddrRange × D), fs.Perm es → ∃ m', Registered AddressMap.new fs m') ↔
      DisjointEntries es := by
  constructor
  · intro h
    obtain ⟨m, hm⟩ := h es (List.Perm.refl _)
    have h1 := (C132_accepted_iff es hne).1 ⟨m, hm⟩
    have h2 := (C132_accepted_iff es.reverse (fun e he => hne e (by simpa using he))).1
      (h es.reverse (List.reverse_perm es))
    rw [List.pairwise_reverse] at h2
    refine (List.Pairwise.and h1 h2).imp ?_
    rintro e f ⟨ha, hb⟩ ho
    have := ha (overlap_symm ho)
    have := hb ho
    unfold Encloses at *
    omega
  · intro hd fs hp
    refine (C132_accepted_iff fs (fun e he => hne e (hp.mem_iff.1 he))).2 ?_
    exact (AddressMap.disjoint_perm hp.symm hd).imp fun h ho => absurd (overlap_symm ho) h

/-- Some order is accepted exactly if, of any two ranges that overlap, one encloses the other with
addresses to spare on both sides. -/
theorem C132_some_order_iff (es : List (AddrRange × D)) (hne : ∀ e ∈ es, NonEmpty e.1) :
    (∃ fs : List (AddrRange × D), fs.Perm es ∧ ∃ m', Registered AddressMap.new fs m') ↔
      es.Pairwise (fun e f => Overlap e.1 f.1 → Encloses e.1 f.1 ∨ Encloses f.1 e.1) := by
  have hsymm : ∀ {e f : AddrRange × D}, (Overlap e.1 f.1 → Encloses e.1 f.1 ∨ Encloses f.1 e.1) →
      (Overlap f.1 e.1 → Encloses f.1 e.1 ∨ Encloses e.1 f.1) :=
    fun h ho => (h (overlap_symm ho)).symm
  constructor
  · rintro ⟨fs, hp, hacc⟩
    have h1 := (C132_accepted_iff fs (fun e he => hne e (hp.mem_iff.1 he))).1 hacc
    exact (hp.pairwise_iff hsymm).1 (h1.imp fun h ho => Or.inr (h (overlap_symm ho)))
  · intro h
    let size : AddrRange × D → Nat := fun e => e.1.stop.toNat - e.1.start.toNat
    let fs := es.mergeSort (fun e f => decide (size e ≤ size f))
    have hp : fs.Perm es := List.mergeSort_perm es _
    have hs : fs.Pairwise (fun e f => decide (size e ≤ size f) = true) :=
      List.pairwise_mergeSort (fun a b c h1 h2 => by
        simp only [decide_eq_true_eq] at *; omega) (fun a b => by
        simp only [Bool.or_eq_true, decide_eq_true_eq]; omega) es
    refine ⟨fs, hp, (C132_accepted_iff fs (fun e he => hne e (hp.mem_iff.1 he))).2 ?_⟩
    have hl : fs.Pairwise (fun e f => Overlap e.1 f.1 → Encloses e.1 f.1 ∨ Encloses f.1 e.1) :=
      (hp.pairwise_iff hsymm).2 h
    refine List.Pairwise.imp_of_mem ?_ (hs.and hl)
    rintro e f he hf ⟨h1, h2⟩ ho
    rcases h2 (overlap_symm ho) with h3 | h3
    · exfalso
      have h4 := hne f (hp.mem_iff.1 hf)
      simp only [size, decide_eq_true_eq] at h1
      unfold Encloses NonEmpty at *
      omega
    · exact h3

/-- If no two of the ranges overlap, then the maps made by registering the devices in two orders (and
however their tables are arranged) answer alike for ever. -/
theorem C132_order_irrelevant [Addressable D] (b : Build) {es fs : List (AddrRange × D)}
    (hp : fs.Perm es) (hne : ∀ e ∈ es, NonEmpty e.1) (hd : DisjointEntries es) {m m' : AddressMap D}
    (h : Registered AddressMap.new es m) (h' : Registered AddressMap.new fs m') : Alike b m m' := by
  have h1 := C132_entries hne h
  have h2 := C132_entries (fun e he => hne e (hp.mem_iff.1 he)) h'
  simp only [AddressMap.new, List.append_nil] at h1 h2
  intro ops
  exact C06_order_irrelevant b (h1.trans (hp.symm.trans h2.symm))
    (AddressMap.disjoint_perm h1.symm hd) ops

/-- Without that the order matters: of the same two devices one order is accepted and the other
refused. -/
theorem C132_order_matters :
    ∃ e f : AddrRange × Unit, NonEmpty e.1 ∧ NonEmpty f.1 ∧
      (∃ m, Registered AddressMap.new [e, f] m) ∧ ¬ ∃ m, Registered AddressMap.new [f, e] m := by
  refine ⟨(⟨0x10, 0x1f⟩, ()), (⟨0x00, 0xff⟩, ()), by decide, by decide, ?_, ?_⟩
  · refine (C132_accepted_iff _ (by simp; decide)).2 ?_
    simp only [List.pairwise_cons, List.mem_singleton, forall_eq, List.not_mem_nil, false_imp_iff,
      implies_true, List.Pairwise.nil, and_true]
    exact fun _ => by decide
  · rw [C132_accepted_iff _ (by simp; decide)]
    simp only [List.pairwise_cons, List.mem_singleton, forall_eq, List.not_mem_nil, false_imp_iff,
      implies_true, List.Pairwise.nil, and_true]
    intro h
    exact absurd (h ⟨0x15, by decide, by decide⟩) (by decide)

/-- The memory of a small machine: RAM, an input device's byte and ROM. -/
def sampleDevices : List (AddrRange × Memory) :=
  [(⟨0x0000, 0x01ff⟩, ⟨.readWrite, 0x0000, 0x01ff, List.replicate 512 0⟩),
   (⟨0x0200, 0x0200⟩, ⟨.readWrite, 0x0200, 0x0200, [7]⟩),
   (⟨0xff00, 0xffff⟩, ⟨.readOnly, 0xff00, 0xffff, List.replicate 256 0xea⟩)]

/-- Non-vacuity: three devices that can be registered in every order, with the same result. -/
example : (∀ e ∈ sampleDevices, NonEmpty e.1) ∧ DisjointEntries sampleDevices ∧
    (∃ m, Registered AddressMap.new sampleDevices m) ∧
      ∃ m, Registered AddressMap.new sampleDevices.reverse m := by
  have hne : ∀ e ∈ sampleDevices, NonEmpty e.1 := by
    intro e he
    simp only [sampleDevices, List.mem_cons, List.not_mem_nil, or_false] at he
    rcases he with rfl | rfl | rfl <;> decide
  have hd : DisjointEntries sampleDevices := by
    simp only [DisjointEntries, sampleDevices, List.pairwise_cons, List.mem_cons, List.not_mem_nil,
      or_false, forall_eq_or_imp, forall_eq, false_imp_iff, implies_true, List.Pairwise.nil, and_true]
    refine ⟨⟨?_, ?_⟩, ?_⟩ <;> rintro ⟨a, ⟨h1, h2⟩, ⟨h3, h4⟩⟩ <;> revert h1 h2 h3 h4 <;> simp <;> omega
  have h := (C132_every_order_iff sampleDevices hne).2 hd
  exact ⟨hne, hd, h _ (List.Perm.refl _), h _ (List.reverse_perm _)⟩

end Verif.Props
