import Verif.Spec.BusNest
import Verif.Props.Bus

/-!
# Property C78: nested address maps
-/

namespace Verif.Props

open Verif Verif.Spec

variable {D : Type} [Addressable D] {b : Build}

theorem contains_iff (r : AddrRange) (a : Word) : r.contains a = true ↔ InRange r a := by
  unfold AddrRange.contains InRange
  rw [Bool.and_eq_true, decide_eq_true_iff, decide_eq_true_iff]

theorem meet_contains (r s : AddrRange) (a : Word) :
    (meet r s).contains a = (r.contains a && s.contains a) := by
  rw [Bool.eq_iff_iff, Bool.and_eq_true, contains_iff, contains_iff, contains_iff]
  unfold InRange meet
  simp only
  (repeat' split) <;> omega

omit [Addressable D] in
theorem find_skip {es : List (AddrRange × AddressMap D)} {a : Word}
    (h : ∀ e ∈ es, e.1.contains a = false) :
    ∀ f ∈ es.flatMap (fun e => e.2.inner.map fun f => (meet e.1 f.1, f.2)), f.1.contains a = false := by
  intro f hf
  rw [List.mem_flatMap] at hf
  obtain ⟨e, he, hf⟩ := hf
  rw [List.mem_map] at hf
  obtain ⟨g, -, rfl⟩ := hf
  show (meet e.1 g.1).contains a = false
  rw [meet_contains, h e he]; rfl

omit [Addressable D] in
/-- If the first range of a disjoint list contains an address, the others do not. -/
theorem others_skip {r : AddrRange} {d : D} {es : List (AddrRange × D)} {a : Word}
    (hd : DisjointEntries ((r, d) :: es)) (ha : r.contains a = true) :
    ∀ e ∈ es, e.1.contains a = false := by
  intro e he
  rw [Bool.eq_false_iff]
  intro hc
  have := (List.pairwise_cons.1 hd).1 e he
  exact this ⟨a, (contains_iff _ _).1 ha, (contains_iff _ _).1 hc⟩

/-- The entries of `flatten`. -/
def flatEntries (es : List (AddrRange × AddressMap D)) : List (AddrRange × D) :=
  es.flatMap fun e => e.2.inner.map fun f => (meet e.1 f.1, f.2)

omit [Addressable D] in
theorem flatEntries_cons (r : AddrRange) (m : AddressMap D) (es : List (AddrRange × AddressMap D)) :
    flatEntries ((r, m) :: es) = (m.inner.map fun f => (meet r f.1, f.2)) ++ flatEntries es := rfl

theorem writeEntries_cons (a : Word) (v : Byte) (r : AddrRange) (d : D) (es : List (AddrRange × D)) :
    AddressMap.writeEntries b a v ((r, d) :: es) =
      if r.contains a then (Addressable.write b d a v).map fun p => (p.1, (r, p.2) :: es)
      else (AddressMap.writeEntries b a v es).map fun p => (p.1, (r, d) :: p.2) := by
  rw [AddressMap.writeEntries]
  split
  · cases Addressable.write b d a v <;> rfl
  · cases AddressMap.writeEntries b a v es <;> rfl

theorem writeEntries_prefix {xs : List (AddrRange × D)} {a : Word} {v : Byte}
    (h : ∀ e ∈ xs, e.1.contains a = false) (ys : List (AddrRange × D)) :
    AddressMap.writeEntries b a v (xs ++ ys) =
      (AddressMap.writeEntries b a v ys).map fun p => (p.1, xs ++ p.2) := by
  induction xs with
  | nil => cases h : AddressMap.writeEntries b a v ys <;> simp [Except.map, h]
  | cons e xs ih =>
    obtain ⟨r, d⟩ := e
    have hr : r.contains a = false := h (r, d) (by simp)
    rw [List.cons_append, writeEntries_cons, hr, ih (fun e he => h e (by simp [he]))]
    cases AddressMap.writeEntries b a v ys <;> rfl

theorem writeEntries_suffix {ys : List (AddrRange × D)} {a : Word} {v : Byte}
    (h : ∀ e ∈ ys, e.1.contains a = false) (xs : List (AddrRange × D)) :
    AddressMap.writeEntries b a v (xs ++ ys) =
      (AddressMap.writeEntries b a v xs).map fun p => (p.1, p.2 ++ ys) := by
  induction xs with
  | nil =>
    have := writeEntries_prefix (b := b) (v := v) h []
    rw [List.append_nil] at this
    rw [List.nil_append, this]
    simp [AddressMap.writeEntries, Except.map]
  | cons e xs ih =>
    obtain ⟨r, d⟩ := e
    rw [List.cons_append, writeEntries_cons, writeEntries_cons, ih]
    split
    · cases Addressable.write b d a v <;> rfl
    · cases AddressMap.writeEntries b a v xs <;> rfl

theorem writeEntries_meet {r : AddrRange} {a : Word} {v : Byte} (hr : r.contains a = true)
    (xs : List (AddrRange × D)) :
    AddressMap.writeEntries b a v (xs.map fun f => (meet r f.1, f.2)) =
      (AddressMap.writeEntries b a v xs).map fun p => (p.1, p.2.map fun f => (meet r f.1, f.2)) := by
  induction xs with
  | nil => rfl
  | cons e xs ih =>
    obtain ⟨s, d⟩ := e
    rw [List.map_cons, writeEntries_cons, writeEntries_cons, meet_contains, hr, Bool.true_and, ih]
    split
    · cases Addressable.write b d a v <;> rfl
    · cases AddressMap.writeEntries b a v xs <;> rfl

theorem writeEntries_flat (a : Word) (v : Byte) : ∀ (es : List (AddrRange × AddressMap D)),
    DisjointEntries es →
    AddressMap.writeEntries b a v (flatEntries es) =
      (AddressMap.writeEntries b a v es).map fun p => (p.1, flatEntries p.2)
  | [], _ => rfl
  | (r, m) :: es, hd => by
    rw [flatEntries_cons, writeEntries_cons]
    cases hr : r.contains a with
    | true =>
      rw [writeEntries_suffix (ys := flatEntries es) (find_skip (others_skip hd hr)), writeEntries_meet hr]
      show _ = Except.map _ (Except.map _ (AddressMap.write b m a v))
      unfold AddressMap.write
      cases AddressMap.writeEntries b a v m.inner <;> rfl
    | false =>
      rw [writeEntries_prefix, writeEntries_flat a v es (List.pairwise_cons.1 hd).2]
      · cases AddressMap.writeEntries b a v es <;> rfl
      · intro e he
        rw [List.mem_map] at he
        obtain ⟨f, -, rfl⟩ := he
        show (meet r f.1).contains a = false
        rw [meet_contains, hr]; rfl

theorem read_flat (a : Word) : ∀ (es : List (AddrRange × AddressMap D)), DisjointEntries es →
    AddressMap.read b (AddressMap.mk (flatEntries es)) a = AddressMap.read b (AddressMap.mk es) a
  | [], _ => rfl
  | (r, m) :: es, hd => by
    have ih := read_flat a es (List.pairwise_cons.1 hd).2
    unfold AddressMap.read at ih ⊢
    simp only at ih ⊢
    rw [flatEntries_cons, List.find?_append]
    cases hr : r.contains a with
    | true =>
      have h2 : (flatEntries es).find? (fun e => e.1.contains a) = none := by
        rw [List.find?_eq_none]
        intro e he
        rw [find_skip (others_skip hd hr) e he]; decide
      have h3 : (m.inner.map fun f => (meet r f.1, f.2)).find? (fun e => e.1.contains a) =
          (m.inner.find? fun e => e.1.contains a).map fun f => (meet r f.1, f.2) := by
        rw [List.find?_map]
        congr 2
        funext f
        show (meet r f.1).contains a = _
        rw [meet_contains, hr]; rfl
      rw [h2, h3, Option.or_none, List.find?_cons, hr]
      show _ = AddressMap.read b m a
      unfold AddressMap.read
      cases m.inner.find? fun e => e.1.contains a <;> rfl
    | false =>
      have h3 : (m.inner.map fun f => (meet r f.1, f.2)).find? (fun e => e.1.contains a) = none := by
        rw [List.find?_eq_none]
        intro e he
        rw [List.mem_map] at he
        obtain ⟨f, -, rfl⟩ := he
        show ¬ (meet r f.1).contains a = true
        rw [meet_contains, hr, Bool.false_and]; decide
      rw [h3, Option.none_or, ih, List.find?_cons, hr]

/-- A write does not change the ranges. -/
theorem writeEntries_ranges {D : Type} [Addressable D] {b : Build} {a : Word} {v : Byte} :
    ∀ {es es' : List (AddrRange × D)}
    {res : Except String Byte}, AddressMap.writeEntries b a v es = .ok (res, es') →
    es'.map Prod.fst = es.map Prod.fst
  | [], es', res, h => by
    simp only [AddressMap.writeEntries, Except.ok.injEq, Prod.mk.injEq] at h
    rw [← h.2]
  | (r, d) :: es, es', res, h => by
    rw [writeEntries_cons] at h
    split at h
    · cases hw : Addressable.write b d a v with
      | error p => rw [hw] at h; cases h
      | ok p =>
        rw [hw] at h
        simp only [Except.map, Except.ok.injEq, Prod.mk.injEq] at h
        rw [← h.2]; rfl
    · cases hw : AddressMap.writeEntries b a v es with
      | error p => rw [hw] at h; cases h
      | ok p =>
        rw [hw] at h
        simp only [Except.map, Except.ok.injEq, Prod.mk.injEq] at h
        rw [← h.2, List.map_cons, List.map_cons, writeEntries_ranges (res := p.1) (es' := p.2) hw]

theorem disjoint_of_ranges {D : Type} {es es' : List (AddrRange × D)}
    (h : es'.map Prod.fst = es.map Prod.fst) (hd : DisjointEntries es) : DisjointEntries es' := by
  unfold DisjointEntries at *
  rw [← List.pairwise_map (f := Prod.fst) (R := fun r s => ¬ Overlap r s)] at *
  rw [h]; exact hd

/-- Any sequence of reads and writes on a map of maps gets the answers (bytes, echoed values, error
texts, panics) that the flattened map gives, and leaves the maps that flatten to what is left of the
flattened map. -/
theorem C78_nested (ops : List BusOp) : ∀ (m : AddressMap (AddressMap D)), DisjointEntries m.inner →
    runOps b (flatten m) ops = (runOps b m ops).map fun p => (p.1, flatten p.2) := by
  induction ops with
  | nil => intro m _; rfl
  | cons op ops ih =>
    intro m hd
    cases op with
    | read a =>
      have hr : Addressable.read b (flatten m) a = Addressable.read b m a := read_flat a m.inner hd
      simp only [runOps]
      rw [hr, ih m hd]
      cases Addressable.read b m a with
      | error p => rfl
      | ok w => cases runOps b m ops <;> rfl
    | write a v =>
      have hw : Addressable.write b (flatten m) a v =
          (Addressable.write b m a v).map fun p => (p.1, flatten p.2) := by
        show AddressMap.write b _ a v = Except.map _ (AddressMap.write b m a v)
        unfold AddressMap.write
        have := writeEntries_flat (b := b) a v m.inner hd
        rw [show (flatten m).inner = flatEntries m.inner from rfl, this]
        cases AddressMap.writeEntries b a v m.inner <;> rfl
      simp only [runOps]
      rw [hw]
      cases hx : Addressable.write b m a v with
      | error p => rfl
      | ok p =>
        obtain ⟨res, m'⟩ := p
        have hd' : DisjointEntries m'.inner := by
          have hx : AddressMap.write b m a v = .ok (res, m') := hx
          unfold AddressMap.write at hx
          cases hy : AddressMap.writeEntries b a v m.inner with
          | error p => rw [hy] at hx; cases hx
          | ok q =>
            rw [hy] at hx
            simp only [Res.ok_bind, Except.ok.injEq, Prod.mk.injEq] at hx
            rw [← hx.2]
            exact disjoint_of_ranges (writeEntries_ranges (res := q.1) (es' := q.2) hy) hd
        show _ = Except.map _ ((runOps b m' ops) >>= _)
        simp only [Except.map, Res.ok_bind]
        rw [ih m' hd']
        cases runOps b m' ops <;> rfl

/-- A device alone in a map over all addresses is that device: so nesting of any depth, and maps
that have both devices and maps, are instances of `C78_nested`. -/
theorem C78_single (d : D) (ops : List BusOp) :
    runOps b (AddressMap.mk [(⟨0, 0xffff⟩, d)]) ops =
      (runOps b d ops).map fun p => (p.1, AddressMap.mk [(⟨0, 0xffff⟩, p.2)]) := by
  have hc : ∀ a : Word, (AddrRange.mk 0 0xffff).contains a = true := by
    intro a
    rw [contains_iff]
    refine ⟨Nat.zero_le _, ?_⟩
    have := a.isLt
    show a.toNat ≤ 65535
    omega
  induction ops generalizing d with
  | nil => rfl
  | cons op ops ih =>
    cases op with
    | read a =>
      have hr : Addressable.read b (AddressMap.mk [(⟨0, 0xffff⟩, d)]) a = Addressable.read b d a := by
        show AddressMap.read b _ a = _
        unfold AddressMap.read
        rw [List.find?_cons, hc a]
      simp only [runOps]
      rw [hr, ih d]
      cases Addressable.read b d a with
      | error p => rfl
      | ok w => cases runOps b d ops <;> rfl
    | write a v =>
      have hw : Addressable.write b (AddressMap.mk [(⟨0, 0xffff⟩, d)]) a v =
          (Addressable.write b d a v).map fun p => (p.1, AddressMap.mk [(⟨0, 0xffff⟩, p.2)]) := by
        show AddressMap.write b _ a v = _
        unfold AddressMap.write
        simp only [writeEntries_cons, hc a, if_true]
        cases Addressable.write b d a v <;> rfl
      simp only [runOps]
      rw [hw]
      cases Addressable.write b d a v with
      | error p => rfl
      | ok p =>
        show _ = Except.map _ ((runOps b p.2 ops) >>= _)
        simp only [Except.map, Res.ok_bind]
        rw [ih p.2]
        cases runOps b p.2 ops <;> rfl

/-- The addresses that reach a device are those in its own range and in that of the map around it. -/
theorem C78_meet (r s : AddrRange) (a : Word) :
    InRange (meet r s) a ↔ InRange r a ∧ InRange s a := by
  rw [← contains_iff, meet_contains, Bool.and_eq_true, contains_iff, contains_iff]

/-- A segment made for the examples. -/
def segment (kind : MemKind) (lo hi : Word) (data : List Byte) : Memory where
  kind := kind
  start := lo
  stop := hi
  inner := data

/-- Two boards, each with its own map; the second sticks out of the window the outer map gives it. -/
def boards : AddressMap (AddressMap Memory) := AddressMap.mk
  [(⟨0, 3⟩, AddressMap.mk [(⟨0, 1⟩, segment .readWrite 0 1 [1, 2]), (⟨2, 3⟩, segment .readOnly 2 3 [3, 4])]),
   (⟨4, 5⟩, AddressMap.mk [(⟨4, 7⟩, segment .readWrite 4 7 [5, 6, 7, 8])])]

example : DisjointEntries boards.inner := by
  unfold boards DisjointEntries
  simp only [List.pairwise_cons, List.mem_singleton, List.Pairwise.nil, forall_eq]
  refine ⟨?_, by simp⟩
  rintro ⟨a, h1, h2⟩
  have h1 : a.toNat ≤ 3 := h1.2
  have h2 : 4 ≤ a.toNat := h2.1
  omega

/-- It has what the proof is about: reads, writes, a refused write, addresses outside a window. -/
example : (runOps .debug boards [.read 1, .write 5 9, .read 5, .write 2 9, .read 6, .write 6 0]).map
    Prod.fst = .ok [.read 2, .write (.ok 9), .read 9, .write (.error "memory is read-only"), .read 0,
      .write (.error "address space 6 unallocated")] := by rfl

/-- Windows that overlap: then the flattened map is not the same. -/
example : ∃ m : AddressMap (AddressMap Memory), ¬ DisjointEntries m.inner ∧
    (runOps .debug m [.read 4]).map Prod.fst ≠ (runOps .debug (flatten m) [.read 4]).map Prod.fst := by
  refine ⟨AddressMap.mk [(⟨0, 7⟩, AddressMap.mk []),
    (⟨4, 5⟩, AddressMap.mk [(⟨4, 5⟩, segment .readWrite 4 5 [5, 6])])], ?_, ?_⟩
  · unfold DisjointEntries
    simp only [List.pairwise_cons, List.mem_singleton, forall_eq]
    intro h
    exact h.1 ⟨4, by decide, by decide⟩
  · intro h
    have h : (Except.ok [BusAnswer.read 0] : Res _) = .ok [.read 5] := h
    simp only [Except.ok.injEq, List.cons.injEq, BusAnswer.read.injEq, and_true] at h
    exact absurd h (by decide)

end Verif.Props
