import Verif.Proofs.Bus

/-!
# A bus of memory segments refines the abstract bus
-/

namespace Verif

open Spec

/-- An entry is a segment that covers exactly its range. -/
def GoodEntry (e : AddrRange × Memory) : Prop :=
  e.2.start = e.1.start ∧ e.2.inner.length = e.1.stop.toNat + 1 - e.1.start.toNat

/-- The refinement invariant between a map and the abstract bus. -/
structure BusInv (m : AddressMap Memory) (s : Spec.Bus) : Prop where
  disjoint : DisjointEntries m.inner
  good : ∀ e ∈ m.inner, GoodEntry e
  unmapped : ∀ a, (∀ e ∈ m.inner, ¬ InRange e.1 a) → s.owner a = none ∧ s.val a = 0
  mapped : ∀ e ∈ m.inner, ∀ a, InRange e.1 a →
    s.owner a = some e.2.kind ∧ e.2.inner[a.toNat - e.1.start.toNat]? = some (s.val a)

theorem subU16_of_le (b : Build) (x y : Word) (h : y.toNat ≤ x.toNat) :
    subU16 b x y = .ok (x - y) ∧ (x - y).toNat = x.toNat - y.toNat := by
  constructor
  · unfold subU16; split
    · omega
    · rfl
  · rw [BitVec.toNat_sub]; have := x.isLt; have := y.isLt; omega

theorem addU16_of_lt (b : Build) (x y : Word) (h : x.toNat + y.toNat < 65536) :
    addU16 b x y = .ok (x + y) ∧ (x + y).toNat = x.toNat + y.toNat := by
  constructor
  · unfold addU16; split
    · omega
    · rfl
  · rw [BitVec.toNat_add]; omega

/-- Reading a segment at or above its start. -/
theorem Memory.read_of_le (b : Build) (d : Memory) (a : Word) (h : d.start.toNat ≤ a.toNat) :
    d.read b a = index d.inner (a.toNat - d.start.toNat) := by
  obtain ⟨h1, h2⟩ := subU16_of_le b a d.start h
  simp [Memory.read, h1, h2]

theorem Memory.write_rw_of_le (b : Build) (d : Memory) (a : Word) (v : Byte)
    (hk : d.kind = .readWrite) (h : d.start.toNat ≤ a.toNat)
    (hl : a.toNat - d.start.toNat < d.inner.length) :
    d.write b a v = .ok (.ok v, { d with inner := d.inner.set (a.toNat - d.start.toNat) v }) := by
  obtain ⟨h1, h2⟩ := subU16_of_le b a d.start h
  simp [Memory.write, hk, h1, h2, indexSet, hl]

theorem Memory.write_ro (b : Build) (d : Memory) (a : Word) (v : Byte)
    (hk : d.kind = .readOnly) : d.write b a v = .ok (.error "memory is read-only", d) := by
  simp [Memory.write, hk]

theorem BusInv.read {m : AddressMap Memory} {s : Spec.Bus} (hi : BusInv m s) (b : Build)
    (a : Word) : m.read b a = .ok (s.val a) := by
  rcases AddressMap.covered_or_not m.inner a with h | ⟨r, d, he, ha⟩
  · rw [AddressMap.read_of_find_none b m a h, (hi.unmapped a h).2]
  · rw [AddressMap.read_of_mem b m a hi.disjoint he ha]
    obtain ⟨hs, -⟩ := hi.good _ he
    obtain ⟨-, hv⟩ := hi.mapped _ he a ha
    simp only at hs hv
    change d.read b a = _
    rw [Memory.read_of_le b d a (by rw [hs]; exact ha.1), index, hs, hv]

theorem BusInv.perm {m m' : AddressMap Memory} {s : Spec.Bus} (hi : BusInv m s)
    (hp : m.inner.Perm m'.inner) : BusInv m' s where
  disjoint := AddressMap.disjoint_perm hp hi.disjoint
  good := fun e he => hi.good e (hp.mem_iff.2 he)
  unmapped := fun a h => hi.unmapped a (fun e he => h e (hp.mem_iff.1 he))
  mapped := fun e he => hi.mapped e (hp.mem_iff.2 he)

/-- What a write answers, and that the invariant survives it. -/
theorem BusInv.write {m : AddressMap Memory} {s : Spec.Bus} (hi : BusInv m s) (b : Build)
    (a : Word) (v : Byte) :
    ∃ res m', m.write b a v = .ok (res, m') ∧ BusInv m' (s.step (.write a v)) ∧
      res = (match s.owner a with
        | some .readWrite => .ok v
        | some .readOnly => .error "memory is read-only"
        | none => .error s!"address space {a.toNat} unallocated") := by
  rcases AddressMap.covered_or_not m.inner a with h | ⟨r, d, he, ha⟩
  · have hn := (hi.unmapped a h).1
    refine ⟨_, m, AddressMap.write_none b a v m h, ?_, ?_⟩
    · simpa [Spec.Bus.step, hn] using hi
    · rw [hn]
  · obtain ⟨ho, hv⟩ := hi.mapped _ he a ha
    obtain ⟨hs, hl⟩ := hi.good _ he
    simp only at ho hv hs hl
    rw [AddressMap.write_of_mem b a v m hi.disjoint he ha]
    cases hk : d.kind with
    | readOnly =>
      have hw : Addressable.write b d a v = .ok (.error "memory is read-only", d) :=
        Memory.write_ro b d a v hk
      have hup : AddressMap.updateAt a d m.inner = m.inner := by
        conv => rhs; rw [← List.map_id m.inner]
        apply List.map_congr_left
        intro e hem
        by_cases hc : e.1.contains a = true
        · have heq := AddressMap.eq_of_disjoint hi.disjoint hem he
            ((AddrRange.contains_iff _ _).1 hc) ha
          subst heq; simp
        · simp [hc]
      rw [hw]
      refine ⟨_, _, rfl, ?_, ?_⟩
      · simp only [hup]
        simpa [Spec.Bus.step, ho, hk] using hi
      · simp [ho, hk]
    | readWrite =>
      have hlt : a.toNat - d.start.toNat < d.inner.length := by
        rw [hs, hl]; have := ha.1; have := ha.2; omega
      have hw : Addressable.write b d a v
          = .ok (.ok v, { d with inner := d.inner.set (a.toNat - d.start.toNat) v }) :=
        Memory.write_rw_of_le b d a v hk (by rw [hs]; exact ha.1) hlt
      rw [hw]
      have hstep : s.step (.write a v) = { s with val := fun x => if x = a then v else s.val x } := by
        simp [Spec.Bus.step, ho, hk]
      refine ⟨_, _, rfl, ?_, by simp [ho, hk]⟩
      rw [hstep]
      constructor
      · exact (AddressMap.disjoint_updateAt _ _ _).2 hi.disjoint
      · intro e hem
        simp only [AddressMap.updateAt, List.mem_map] at hem
        obtain ⟨f, hf, rfl⟩ := hem
        by_cases hc : f.1.contains a = true
        · have heq := AddressMap.eq_of_disjoint hi.disjoint hf he
            ((AddrRange.contains_iff _ _).1 hc) ha
          subst heq
          simp [hc, GoodEntry, hs, hl]
        · simpa [hc] using hi.good f hf
      · intro x hx
        have hx' : ∀ e ∈ m.inner, ¬ InRange e.1 x := by
          intro e hem hr
          by_cases hc : e.1.contains a = true
          · exact hx (e.1, { d with inner := d.inner.set (a.toNat - d.start.toNat) v })
              (by simp only [AddressMap.updateAt, List.mem_map]; exact ⟨e, hem, by simp [hc]⟩) hr
          · exact hx e
              (by simp only [AddressMap.updateAt, List.mem_map]; exact ⟨e, hem, by simp [hc]⟩) hr
        obtain ⟨h1, h2⟩ := hi.unmapped x hx'
        refine ⟨h1, ?_⟩
        have : x ≠ a := by rintro rfl; exact hx' _ he ha
        simp [this, h2]
      · intro e hem x hx
        simp only [AddressMap.updateAt, List.mem_map] at hem
        obtain ⟨f, hf, rfl⟩ := hem
        by_cases hc : f.1.contains a = true
        · have heq := AddressMap.eq_of_disjoint hi.disjoint hf he
            ((AddrRange.contains_iff _ _).1 hc) ha
          subst heq
          simp only [hc, if_true] at hx ⊢
          obtain ⟨hox, hvx⟩ := hi.mapped _ hf x hx
          refine ⟨hox, ?_⟩
          simp only at hvx
          rw [List.getElem?_set, hs]
          by_cases hxa : x = a
          · subst hxa
            rw [hs] at hlt
            simp [hlt]
          · have hne : a.toNat - r.start.toNat ≠ x.toNat - r.start.toNat := by
              intro h
              apply hxa
              apply BitVec.eq_of_toNat_eq
              have h1 := ha.1; have h2 := hx.1
              omega
            simp [hne, hxa, hvx]
        · simp only [hc] at hx ⊢
          obtain ⟨hox, hvx⟩ := hi.mapped _ hf x hx
          refine ⟨hox, ?_⟩
          have : x ≠ a := by
            rintro rfl
            exact hc ((AddrRange.contains_iff _ _).2 hx)
          simp only [this, if_false]
          exact hvx

/-- Facts about a segment made by `Memory::new`. -/
theorem Memory.new_ok {b : Build} {kind : MemKind} {start stop : Word} {d : Memory}
    (h : Memory.new b kind start stop = .ok d) :
    d.kind = kind ∧ d.start = start ∧ d.stop = stop ∧
      d.inner = List.replicate (stop.toNat + 1 - start.toNat) 0 := by
  unfold Memory.new at h
  split at h
  · injection h with h
    subst h
    refine ⟨rfl, rfl, rfl, ?_⟩
    have : stop.toNat - start.toNat + 1 = stop.toNat + 1 - start.toNat := by omega
    rw [this]
  · split at h
    · cases h
    · split at h
      · injection h with h
        subst h
        refine ⟨rfl, rfl, rfl, ?_⟩
        rename_i h1 h2 h3
        have : stop.toNat + 1 - start.toNat = 0 := by omega
        rw [this]; rfl
      · cases h

/-- Membership in the entry list after `insert` for a range that overlaps nothing. -/
theorem AddressMap.mem_insert {D : Type} {es : List (AddrRange × D)} {r : AddrRange} {d : D}
    {e : AddrRange × D} (he : e ∈ AddressMap.insert es r d) : e = (r, d) ∨ (e ∈ es ∧ e.1 ≠ r) := by
  unfold AddressMap.insert at he
  split at he
  · rw [List.mem_map] at he
    obtain ⟨f, hf, rfl⟩ := he
    by_cases h : f.1 = r
    · simp [h]
    · simp [h, hf]
  · rename_i hn
    rcases List.mem_cons.1 he with h | h
    · exact Or.inl h
    · refine Or.inr ⟨h, ?_⟩
      rintro rfl
      exact hn (List.mem_map_of_mem h)

theorem AddressMap.mem_insert_of_mem {D : Type} {es : List (AddrRange × D)} {r : AddrRange} {d : D}
    {e : AddrRange × D} (he : e ∈ es) (hr : e.1 ≠ r) : e ∈ AddressMap.insert es r d := by
  unfold AddressMap.insert
  split
  · rw [List.mem_map]; exact ⟨e, he, by simp [hr]⟩
  · exact List.mem_cons_of_mem _ he

theorem AddressMap.mem_insert_self {D : Type} (es : List (AddrRange × D)) (r : AddrRange) (d : D) :
    (r, d) ∈ AddressMap.insert es r d := by
  unfold AddressMap.insert
  split
  · rename_i h
    rw [List.mem_map] at h
    obtain ⟨f, hf, rfl⟩ := h
    rw [List.mem_map]
    exact ⟨f, hf, by simp⟩
  · simp

theorem AddressMap.disjoint_insert {D : Type} {es : List (AddrRange × D)} {r : AddrRange} {d : D}
    (hd : DisjointEntries es) (hn : ∀ e ∈ es, ¬ Overlap r e.1) :
    DisjointEntries (AddressMap.insert es r d) := by
  unfold AddressMap.insert
  split
  · rw [disjoint_iff_map_fst] at hd ⊢
    have : (es.map (fun e => if e.1 = r then (r, d) else e)).map Prod.fst = es.map Prod.fst := by
      rw [List.map_map]
      apply List.map_congr_left
      intro e _
      by_cases h : e.1 = r <;> simp [h]
    rw [this]; exact hd
  · exact List.pairwise_cons.2 ⟨hn, hd⟩

theorem AddressMap.registers_perm {D : Type} {m m' : AddressMap D} {r : AddrRange} {d : D}
    (h : AddressMap.Registers m r d m') : m'.inner.Perm (AddressMap.insert m.inner r d) := by
  obtain ⟨m₀, h1, h2⟩ := h
  unfold AddressMap.register at h1
  split at h1
  · cases h1
  · injection h1 with h1
    subst h1
    exact h2

theorem BusInv.register {m m' : AddressMap Memory} {s : Spec.Bus} (hi : BusInv m s) {b : Build}
    {kind : MemKind} {r : AddrRange} {fresh : Memory} {data : List Byte}
    (hnew : Memory.new b kind r.start r.stop = .ok fresh)
    (hlen : data.length = fresh.dump.length)
    (hn : ∀ e ∈ m.inner, ¬ Overlap r e.1)
    (hr : AddressMap.Registers m r (fresh.load data) m') :
    BusInv m' (s.step (.register kind r data)) := by
  have hp := AddressMap.registers_perm hr
  obtain ⟨hk, hst, -, hin⟩ := Memory.new_ok hnew
  have hlen' : data.length = r.stop.toNat + 1 - r.start.toNat := by
    rw [hlen, Memory.dump, hin, List.length_replicate]
  suffices BusInv ⟨AddressMap.insert m.inner r (fresh.load data)⟩ (s.step (.register kind r data)) from
    this.perm hp.symm
  constructor
  · exact AddressMap.disjoint_insert hi.disjoint hn
  · intro e he
    rcases AddressMap.mem_insert he with rfl | ⟨h, -⟩
    · exact ⟨hst, hlen'⟩
    · exact hi.good e h
  · intro a ha
    have hra : ¬ InRange r a := ha _ (AddressMap.mem_insert_self _ _ _)
    have := hi.unmapped a (fun e he hea => by
      by_cases her : e.1 = r
      · rw [her] at hea; exact hra hea
      · exact ha e (AddressMap.mem_insert_of_mem he her) hea)
    simp [Spec.Bus.step, hra, this]
  · intro e he a ha
    rcases AddressMap.mem_insert he with rfl | ⟨h, -⟩
    · simp only at ha
      refine ⟨by simp [Spec.Bus.step, ha, Memory.load, hk], ?_⟩
      have hlt : a.toNat - r.start.toNat < data.length := by
        rw [hlen']; have := ha.1; have := ha.2; omega
      simp [Spec.Bus.step, ha, Memory.load, List.getElem?_eq_getElem hlt]
    · have hra : ¬ InRange r a := fun hra => hn e h ⟨a, hra, ha⟩
      simpa [Spec.Bus.step, hra] using hi.mapped e h a ha

theorem BusInv.empty : BusInv AddressMap.new Spec.Bus.empty where
  disjoint := List.Pairwise.nil
  good := by simp [AddressMap.new]
  unmapped := fun a _ => ⟨rfl, rfl⟩
  mapped := by simp [AddressMap.new]

theorem Spec.Bus.after_append (h : List BusEvent) (e : BusEvent) :
    Spec.Bus.after (h ++ [e]) = (Spec.Bus.after h).step e := by
  simp [Spec.Bus.after, List.foldl_append]

theorem Spec.MemTrace.inv {b : Build} {h : List BusEvent} {m : AddressMap Memory}
    (ht : MemTrace b h m) : BusInv m (Spec.Bus.after h) := by
  induction ht with
  | new => exact BusInv.empty
  | register _ hnew hlen hn hr ih =>
    rw [Spec.Bus.after_append]; exact ih.register hnew hlen hn hr
  | rehash _ hp ih => exact ih.perm hp
  | @write h m m' a v res _ hw ih =>
    rw [Spec.Bus.after_append]
    obtain ⟨res', m'', h1, h2, -⟩ := ih.write b a v
    rw [h1] at hw
    injection hw with hw
    injection hw with _ hw
    subst hw
    exact h2

end Verif
