import Verif.Spec.Bus

/-!
# Helper lemmas about the bus model
-/

namespace Verif

open Spec

theorem AddrRange.contains_iff (r : AddrRange) (a : Word) : r.contains a = true ↔ InRange r a := by
  simp [AddrRange.contains, InRange]

theorem AddrRange.contains_eq_false_iff (r : AddrRange) (a : Word) :
    r.contains a = false ↔ ¬ InRange r a := by
  rw [← AddrRange.contains_iff]; simp

namespace AddressMap

variable {D : Type} [Addressable D]

theorem read_of_find_none (b : Build) (m : AddressMap D) (a : Word)
    (h : ∀ e ∈ m.inner, ¬ InRange e.1 a) : m.read b a = .ok 0 := by
  have : m.inner.find? (fun e => e.1.contains a) = none := by
    rw [List.find?_eq_none]
    intro e he
    rw [AddrRange.contains_iff]
    exact h e he
  simp [AddressMap.read, this]

theorem writeEntries_none (b : Build) (a : Word) (v : Byte) (es : List (AddrRange × D))
    (h : ∀ e ∈ es, ¬ InRange e.1 a) :
    writeEntries b a v es = .ok (.error s!"address space {a.toNat} unallocated", es) := by
  induction es with
  | nil => rfl
  | cons e es ih =>
    obtain ⟨r, d⟩ := e
    have h1 : r.contains a = false := by
      rw [AddrRange.contains_eq_false_iff]; exact h (r, d) (by simp)
    have h2 := ih (fun e he => h e (by simp [he]))
    simp [writeEntries, h1, h2]

omit [Addressable D] in
/-- In a disjoint list, the only entry containing `a` is the one we know. -/
theorem eq_of_disjoint {es : List (AddrRange × D)} (hd : DisjointEntries es)
    {e f : AddrRange × D} (he : e ∈ es) (hf : f ∈ es) {a : Word}
    (hea : InRange e.1 a) (hfa : InRange f.1 a) : e = f := by
  induction es with
  | nil => simp at he
  | cons g es ih =>
    rw [DisjointEntries, List.pairwise_cons] at hd
    rcases List.mem_cons.1 he with rfl | he' <;> rcases List.mem_cons.1 hf with rfl | hf'
    · rfl
    · exact absurd ⟨a, hea, hfa⟩ (hd.1 f hf')
    · exact absurd ⟨a, hfa, hea⟩ (hd.1 e he')
    · exact ih hd.2 he' hf'

theorem read_of_mem (b : Build) (m : AddressMap D) (a : Word) (hd : DisjointEntries m.inner)
    {r : AddrRange} {d : D} (he : (r, d) ∈ m.inner) (ha : InRange r a) :
    m.read b a = Addressable.read b d a := by
  have hsome : (m.inner.find? (fun e => e.1.contains a)).isSome := by
    rw [List.find?_isSome]
    exact ⟨(r, d), he, by rw [AddrRange.contains_iff]; exact ha⟩
  obtain ⟨f, hf⟩ := Option.isSome_iff_exists.1 hsome
  have hfm := List.mem_of_find?_eq_some hf
  have hfa := List.find?_some hf
  rw [AddrRange.contains_iff] at hfa
  have : f = (r, d) := eq_of_disjoint hd hfm he hfa ha
  subst this
  simp [AddressMap.read, hf]

/-- Replacing the device of every entry containing `a`. -/
def updateAt (a : Word) (d' : D) (es : List (AddrRange × D)) : List (AddrRange × D) :=
  es.map (fun e => if e.1.contains a then (e.1, d') else e)

omit [Addressable D] in
theorem updateAt_eq_self (a : Word) (d' : D) (es : List (AddrRange × D))
    (h : ∀ e ∈ es, ¬ InRange e.1 a) : updateAt a d' es = es := by
  induction es with
  | nil => rfl
  | cons e es ih =>
    have h1 : e.1.contains a = false := by
      rw [AddrRange.contains_eq_false_iff]; exact h e (by simp)
    have h2 := ih (fun e he => h e (by simp [he]))
    simp only [updateAt, List.map_cons, h1] at h2 ⊢
    rw [h2]; rfl

theorem writeEntries_of_mem (b : Build) (a : Word) (v : Byte) (es : List (AddrRange × D))
    (hd : DisjointEntries es) {r : AddrRange} {d : D} (he : (r, d) ∈ es) (ha : InRange r a) :
    writeEntries b a v es =
      (Addressable.write b d a v) >>= fun p => .ok (p.1, updateAt a p.2 es) := by
  induction es with
  | nil => simp at he
  | cons g es ih =>
    obtain ⟨s, g⟩ := g
    have hd' := hd
    rw [DisjointEntries, List.pairwise_cons] at hd
    by_cases hs : s.contains a = true
    · have hsa := (AddrRange.contains_iff s a).1 hs
      have heq : (s, g) = (r, d) := eq_of_disjoint hd' (by simp) he hsa ha
      injection heq with h1 h2
      subst h1; subst h2
      have hrest : ∀ e ∈ es, ¬ InRange e.1 a := fun e he hea =>
        hd.1 e he ⟨a, hsa, hea⟩
      cases hw : Addressable.write b g a v with
      | error p => simp [writeEntries, hs, hw]
      | ok p =>
        obtain ⟨res, d'⟩ := p
        have := updateAt_eq_self a d' es hrest
        simp only [updateAt] at this
        simp [writeEntries, hs, hw, updateAt, this]
    · have hs' : s.contains a = false := by simpa using hs
      have hmem : (r, d) ∈ es := by
        rcases List.mem_cons.1 he with h | h
        · injection h with h1 h2
          subst h1
          exact absurd ((AddrRange.contains_iff r a).2 ha) hs
        · exact h
      rw [writeEntries, ih hd.2 hmem]
      cases hw : Addressable.write b d a v with
      | error p => simp [hs']
      | ok p => simp [hs', updateAt]

theorem write_of_mem (b : Build) (a : Word) (v : Byte) (m : AddressMap D)
    (hd : DisjointEntries m.inner) {r : AddrRange} {d : D} (he : (r, d) ∈ m.inner)
    (ha : InRange r a) :
    m.write b a v =
      (Addressable.write b d a v) >>= fun p => .ok (p.1, ⟨updateAt a p.2 m.inner⟩) := by
  rw [AddressMap.write, writeEntries_of_mem b a v m.inner hd he ha]
  cases Addressable.write b d a v <;> rfl

theorem write_none (b : Build) (a : Word) (v : Byte) (m : AddressMap D)
    (h : ∀ e ∈ m.inner, ¬ InRange e.1 a) :
    m.write b a v = .ok (.error s!"address space {a.toNat} unallocated", m) := by
  rw [AddressMap.write, writeEntries_none b a v m.inner h]; rfl

omit [Addressable D] in
theorem updateAt_fst (a : Word) (d' : D) (es : List (AddrRange × D)) :
    (updateAt a d' es).map Prod.fst = es.map Prod.fst := by
  rw [updateAt, List.map_map]
  apply List.map_congr_left
  intro e _
  by_cases h : e.1.contains a <;> simp [h]

omit [Addressable D] in
theorem disjoint_iff_map_fst (es : List (AddrRange × D)) :
    DisjointEntries es ↔ (es.map Prod.fst).Pairwise (fun r s => ¬ Overlap r s) := by
  rw [List.pairwise_map]; rfl

omit [Addressable D] in
theorem disjoint_updateAt (a : Word) (d' : D) (es : List (AddrRange × D)) :
    DisjointEntries (updateAt a d' es) ↔ DisjointEntries es := by
  rw [disjoint_iff_map_fst, disjoint_iff_map_fst, updateAt_fst]

/-- Writing never changes which ranges are registered. -/
theorem writeEntries_fst (b : Build) (a : Word) (v : Byte) (es : List (AddrRange × D))
    {res : Except String Byte} {es' : List (AddrRange × D)}
    (h : writeEntries b a v es = .ok (res, es')) : es'.map Prod.fst = es.map Prod.fst := by
  induction es generalizing res es' with
  | nil => simp [writeEntries] at h; simp [← h.2]
  | cons e es ih =>
    obtain ⟨r, d⟩ := e
    by_cases hr : r.contains a = true
    · cases hw : Addressable.write b d a v with
      | error p => simp [writeEntries, hr, hw] at h
      | ok p =>
        obtain ⟨res', d'⟩ := p
        simp [writeEntries, hr, hw] at h
        simp [← h.2]
    · have hr' : r.contains a = false := by simpa using hr
      cases hw : writeEntries b a v es with
      | error p => simp [writeEntries, hr', hw] at h
      | ok p =>
        obtain ⟨res', es''⟩ := p
        simp [writeEntries, hr', hw] at h
        simp [← h.2, ih hw]

theorem write_fst (b : Build) (a : Word) (v : Byte) {m m' : AddressMap D}
    {res : Except String Byte} (h : m.write b a v = .ok (res, m')) :
    m'.inner.map Prod.fst = m.inner.map Prod.fst := by
  rw [AddressMap.write] at h
  cases hw : writeEntries b a v m.inner with
  | error p => simp [hw] at h
  | ok p =>
    obtain ⟨res', es⟩ := p
    simp [hw] at h
    rw [← h.2]
    exact writeEntries_fst b a v _ hw

theorem write_disjoint (b : Build) (a : Word) (v : Byte) {m m' : AddressMap D}
    {res : Except String Byte} (h : m.write b a v = .ok (res, m'))
    (hd : DisjointEntries m.inner) : DisjointEntries m'.inner := by
  rw [disjoint_iff_map_fst, write_fst b a v h, ← disjoint_iff_map_fst]; exact hd

omit [Addressable D] in
theorem disjoint_perm {es fs : List (AddrRange × D)} (hp : es.Perm fs)
    (hd : DisjointEntries es) : DisjointEntries fs := by
  refine (hp.pairwise_iff ?_).1 hd
  intro x y h ⟨a, h1, h2⟩
  exact h ⟨a, h2, h1⟩

omit [Addressable D] in
/-- Either no entry contains `a`, or some entry does. -/
theorem covered_or_not (es : List (AddrRange × D)) (a : Word) :
    (∀ e ∈ es, ¬ InRange e.1 a) ∨ ∃ r d, (r, d) ∈ es ∧ InRange r a := by
  by_cases h : ∃ e ∈ es, InRange e.1 a
  · obtain ⟨⟨r, d⟩, he, ha⟩ := h
    exact Or.inr ⟨r, d, he, ha⟩
  · exact Or.inl (fun e he ha => h ⟨e, he, ha⟩)

theorem read_perm (b : Build) {m m' : AddressMap D} (hp : m.inner.Perm m'.inner)
    (hd : DisjointEntries m.inner) (a : Word) : m.read b a = m'.read b a := by
  rcases covered_or_not m.inner a with h | ⟨r, d, he, ha⟩
  · rw [read_of_find_none b m a h,
      read_of_find_none b m' a (fun e he => h e (hp.mem_iff.2 he))]
  · rw [read_of_mem b m a hd he ha, read_of_mem b m' a (disjoint_perm hp hd) (hp.mem_iff.1 he) ha]

theorem write_perm (b : Build) {m m' : AddressMap D} (hp : m.inner.Perm m'.inner)
    (hd : DisjointEntries m.inner) (a : Word) (v : Byte) :
    (∃ e, m.write b a v = .error e ∧ m'.write b a v = .error e) ∨
    (∃ res n n', m.write b a v = .ok (res, n) ∧ m'.write b a v = .ok (res, n') ∧
      n.inner.Perm n'.inner) := by
  rcases covered_or_not m.inner a with h | ⟨r, d, he, ha⟩
  · refine Or.inr ⟨_, m, m', write_none b a v m h,
      write_none b a v m' (fun e he => h e (hp.mem_iff.2 he)), hp⟩
  · rw [write_of_mem b a v m hd he ha,
      write_of_mem b a v m' (disjoint_perm hp hd) (hp.mem_iff.1 he) ha]
    cases hw : Addressable.write b d a v with
    | error p => exact Or.inl ⟨p, rfl, rfl⟩
    | ok p => exact Or.inr ⟨p.1, _, _, rfl, rfl, hp.map _⟩

end AddressMap

end Verif
