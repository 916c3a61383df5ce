import Mathlib.Data.Set.Finite.List
import Mathlib.Data.Set.Finite.Lattice
import Verif.Proofs.MosRun
import Verif.Props.Mos.Status
import Verif.Props.Mos.Traffic
import Verif.Proofs.MosSample

/-!
# Finitely many states
-/

namespace Verif.Mos

open Verif Verif.Spec.Mos

instance {n : Nat} : Finite (BitVec n) :=
  Finite.of_injective (fun v : BitVec n => v.toFin) (fun _ _ h => BitVec.eq_of_toFin_eq h)

/-- Accepted writes stay within `S`. -/
def ClosedUnderWrites {B : Type} [Addressable B] (b : Build) (S : Set B) : Prop :=
  ∀ x ∈ S, ∀ a v r x', Addressable.write b x a v = .ok (.ok r, x') → x' ∈ S

variable {B : Type} [Addressable B] {b : Build}

theorem writeAll_mem {S : Set B} (hS : ClosedUnderWrites b S) (ws : List (Word × Byte)) :
    ∀ {x y : B}, x ∈ S → writeAll b x ws = .ok y → y ∈ S := by
  induction ws with
  | nil => intro x y hx h; cases h; exact hx
  | cons w ws ih =>
    obtain ⟨a, v⟩ := w
    intro x y hx h
    rw [writeAll] at h
    cases hw : Addressable.write b x a v with
    | error p => rw [hw] at h; cases h
    | ok q =>
      obtain ⟨r, x'⟩ := q
      rw [hw] at h
      cases r with
      | error m => cases h
      | ok u => exact ih (hS x hx a v u x' hw) h

omit [Addressable B] in
/-- Finitely many buses make finitely many machines. -/
theorem machines_finite {S : Set B} (hS : S.Finite) : {c : Mos6502 B | c.address_map ∈ S}.Finite := by
  have : Finite S := hS
  let f : {c : Mos6502 B | c.address_map ∈ S} → Byte × Byte × Byte × Byte × Byte × Word × S :=
    fun c => (c.1.acc, c.1.x, c.1.y, c.1.sp, c.1.ps.read, c.1.pc, ⟨c.1.address_map, c.2⟩)
  have hf : Function.Injective f := by
    rintro ⟨⟨m, a, x, y, sp, pc, ps⟩, h⟩ ⟨⟨m', a', x', y', sp', pc', ps'⟩, h'⟩ e
    simp only [f, Prod.mk.injEq, Subtype.mk.injEq] at e
    obtain ⟨rfl, rfl, rfl, rfl, e, rfl, rfl⟩ := e
    rw [Props.C11_bijection.1 e]
  exact Finite.of_injective f hf

theorem next_mem {S : Set B} (hS : ClosedUnderWrites b S) {c c' : Mos6502 B} {ops : Operations}
    (hc : c.address_map ∈ S) (h : next b c = .ok (ops, c')) : c'.address_map ∈ S :=
  writeAll_mem hS _ hc (Props.C67_bus_is_stores (.cons h (.nil _)))

/-! ### Buses with finitely many states -/

theorem flatRam_finite : (Set.univ : Set FlatRam).Finite := by
  have : Finite FlatRam := Finite.of_injective (fun d : FlatRam => d.mem)
    (by rintro ⟨m⟩ ⟨m'⟩ h; exact congrArg _ h)
  exact Set.finite_univ

/-- What writes never change of an entry. -/
def frame (e : AddrRange × Memory) : AddrRange × MemKind × Word × Word × Nat :=
  (e.1, e.2.kind, e.2.start, e.2.stop, e.2.inner.length)

/-- The maps with the same entries up to the contents of the segments. -/
def sameFrame (m : AddressMap Memory) : Set (AddressMap Memory) :=
  {m' | m'.inner.map frame = m.inner.map frame}

theorem frames_finite (fs : List (AddrRange × MemKind × Word × Word × Nat)) :
    {es : List (AddrRange × Memory) | es.map frame = fs}.Finite := by
  induction fs with
  | nil =>
    refine (Set.finite_singleton []).subset ?_
    intro es h
    simpa using h
  | cons f fs ih =>
    obtain ⟨r, k, s, t, n⟩ := f
    have h1 := (List.finite_length_eq Byte n).image fun i => ((r, ⟨k, s, t, i⟩) : AddrRange × Memory)
    refine ((h1.prod ih).image fun p => p.1 :: p.2).subset ?_
    intro es h
    cases es with
    | nil => cases h
    | cons e es =>
      obtain ⟨r', ⟨k', s', t', i⟩⟩ := e
      simp only [Set.mem_ofPred_eq, List.map_cons, List.cons.injEq, frame, Prod.mk.injEq] at h
      obtain ⟨⟨rfl, rfl, rfl, rfl, hn⟩, h⟩ := h
      exact ⟨((r', ⟨k', s', t', i⟩), es), ⟨⟨i, hn, rfl⟩, h⟩, rfl⟩

theorem sameFrame_finite (m : AddressMap Memory) : (sameFrame m).Finite := by
  refine ((frames_finite (m.inner.map frame)).image AddressMap.mk).subset ?_
  intro m' h
  exact ⟨m'.inner, h, rfl⟩

theorem write_frame {d d' : Memory} {a : Word} {v : Byte} {r : Except String Byte} {rg : AddrRange}
    (h : Addressable.write b d a v = .ok (r, d')) : frame (rg, d') = frame (rg, d) := by
  change d.write b a v = _ at h
  unfold Memory.write at h
  split at h
  · cases h1 : subU16 b a d.start with
    | error p => rw [h1] at h; cases h
    | ok off =>
      rw [h1, Res.ok_bind] at h
      unfold indexSet at h
      split at h
      · cases h; simp [frame]
      · cases h
  · cases h; rfl

theorem writeEntries_frame {a : Word} {v : Byte} (es : List (AddrRange × Memory)) :
    ∀ {r : Except String Byte} {es' : List (AddrRange × Memory)},
    AddressMap.writeEntries b a v es = .ok (r, es') → es'.map frame = es.map frame := by
  induction es with
  | nil => intro r es' h; cases h; rfl
  | cons e es ih =>
    obtain ⟨rg, d⟩ := e
    intro r es' h
    rw [AddressMap.writeEntries] at h
    split at h
    · cases h1 : Addressable.write b d a v with
      | error p => rw [h1] at h; cases h
      | ok q =>
        obtain ⟨r1, d'⟩ := q
        rw [h1] at h
        cases h
        rw [List.map_cons, List.map_cons, write_frame h1]
    · cases h1 : AddressMap.writeEntries b a v es with
      | error p => rw [h1] at h; cases h
      | ok q =>
        obtain ⟨r1, es1⟩ := q
        rw [h1] at h
        cases h
        rw [List.map_cons, List.map_cons, ih h1]

theorem sameFrame_closed (m : AddressMap Memory) : ClosedUnderWrites b (sameFrame m) := by
  intro x hx a v r x' h
  change (AddressMap.writeEntries b a v x.inner).bind _ = _ at h
  cases h1 : AddressMap.writeEntries b a v x.inner with
  | error p => rw [h1] at h; cases h
  | ok q =>
    obtain ⟨r1, es⟩ := q
    rw [h1] at h
    cases h
    exact (writeEntries_frame _ h1).trans hx

end Verif.Mos
