import Mathlib.SetTheory.Cardinal.Finite
import Mathlib.Data.Set.Card
import Verif.Spec.Bound
import Verif.Props.Mos.Periodic

/-!
# Counting states
-/

namespace Verif.Mos

open Verif Verif.Spec Verif.Spec.Mos

theorem card_bitVec (n : Nat) : Nat.card (BitVec n) = 2 ^ n := by
  have e : BitVec n ≃ Fin (2 ^ n) :=
    ⟨BitVec.toFin, BitVec.ofFin, fun _ => rfl, fun _ => rfl⟩
  rw [Nat.card_congr e, Nat.card_eq_fintype_card, Fintype.card_fin]

/-- One more pigeon than holes. -/
theorem pigeons {α : Type} {T : Set α} (hT : T.Finite) {n : Nat} (hn : T.ncard ≤ n) (f : Nat → α)
    (hf : ∀ k ≤ n, f k ∈ T) : ∃ i j, i < j ∧ j ≤ n ∧ f i = f j := by
  have : Finite T := hT
  by_contra hne
  have hinj : Function.Injective fun k : Fin (n + 1) => (⟨f k, hf k (by omega)⟩ : T) := by
    intro i j h
    have h : f i = f j := congrArg Subtype.val h
    rcases Nat.lt_trichotomy i.val j.val with hij | hij | hij
    · exact absurd ⟨i, j, hij, by omega, h⟩ hne
    · exact Fin.ext hij
    · exact absurd ⟨j, i, hij, by omega, h.symm⟩ hne
  have := Nat.card_le_card_of_injective _ hinj
  rw [Nat.card_eq_fintype_card, Fintype.card_fin, Nat.card_coe_set_eq] at this
  omega

variable {B : Type}

theorem machines_card {S : Set B} (hS : S.Finite) :
    {c : Mos6502 B | c.address_map ∈ S}.ncard ≤ mosStates S.ncard := by
  have : Finite S := hS
  let f : {c : Mos6502 B | c.address_map ∈ S} → Byte × Byte × Byte × Byte × Byte × Word × S :=
    fun c => (c.1.acc, c.1.x, c.1.y, c.1.sp, c.1.ps.read, c.1.pc, ⟨c.1.address_map, c.2⟩)
  have hf : Function.Injective f := by
    rintro ⟨⟨m, a, x, y, sp, pc, ps⟩, h⟩ ⟨⟨m', a', x', y', sp', pc', ps'⟩, h'⟩ e
    simp only [f, Prod.mk.injEq, Subtype.mk.injEq] at e
    obtain ⟨rfl, rfl, rfl, rfl, e, rfl, rfl⟩ := e
    rw [Props.C11_bijection.1 e]
  have := Nat.card_le_card_of_injective f hf
  simp only [Nat.card_prod, card_bitVec, Nat.card_coe_set_eq] at this
  unfold mosStates
  omega

/-! ### The states of an address map -/

/-- What writes never change of an entry: all but the bytes of a `ReadWrite` segment. -/
def fixed (e : AddrRange × Memory) : AddrRange × MemKind × Word × Word × Nat × List Byte :=
  (e.1, e.2.kind, e.2.start, e.2.stop, e.2.inner.length,
    if e.2.kind = .readOnly then e.2.inner else [])

/-- The maps with the same entries up to the contents of RAM. -/
def sameRom (m : AddressMap Memory) : Set (AddressMap Memory) :=
  {m' | m'.inner.map fixed = m.inner.map fixed}

/-- The bytes in RAM. -/
def ramOf : List (AddrRange × Memory) → List Byte
  | [] => []
  | e :: es => (if e.2.kind = .readOnly then [] else e.2.inner) ++ ramOf es

theorem ramOf_length (m : AddressMap Memory) : (ramOf m.inner).length = ramBytes m := by
  obtain ⟨es⟩ := m
  unfold ramBytes
  induction es with
  | nil => rfl
  | cons e es ih =>
    simp only at ih
    cases hk : e.2.kind <;> simp [ramOf, hk, ih]

theorem fixed_length {es es' : List (AddrRange × Memory)} (h : es.map fixed = es'.map fixed) :
    (ramOf es).length = (ramOf es').length := by
  induction es generalizing es' with
  | nil => cases es' with
    | nil => rfl
    | cons => cases h
  | cons e es ih => cases es' with
    | nil => cases h
    | cons e' es' =>
      simp only [List.map_cons, List.cons.injEq, fixed, Prod.mk.injEq] at h
      obtain ⟨⟨-, h2, -, -, h5, -⟩, h⟩ := h
      simp only [ramOf, List.length_append, ih h, h2]
      cases e'.2.kind <;> simp [h5]

theorem ramOf_injective {es es' : List (AddrRange × Memory)} (h : es.map fixed = es'.map fixed)
    (hr : ramOf es = ramOf es') : es = es' := by
  induction es generalizing es' with
  | nil => cases es' with
    | nil => rfl
    | cons => cases h
  | cons e es ih => cases es' with
    | nil => cases h
    | cons e' es' =>
      obtain ⟨r, ⟨k, s, t, i⟩⟩ := e
      obtain ⟨r', ⟨k', s', t', i'⟩⟩ := e'
      simp only [List.map_cons, List.cons.injEq, fixed, Prod.mk.injEq] at h
      obtain ⟨⟨rfl, rfl, rfl, rfl, h5, h6⟩, h⟩ := h
      simp only [ramOf] at hr
      cases k with
      | readOnly =>
        simp only [if_true] at h6 hr
        rw [h6, ih h (by simpa using hr)]
      | readWrite =>
        simp only [reduceCtorEq, if_false] at hr
        obtain ⟨h7, h8⟩ := List.append_inj hr h5
        rw [h7, ih h h8]

theorem sameRom_card (m : AddressMap Memory) :
    (sameRom m).Finite ∧ (sameRom m).ncard ≤ 256 ^ ramBytes m := by
  let f : sameRom m → (Fin (ramBytes m) → Byte) := fun m' k => (ramOf m'.1.inner)[k.val]'(by
    rw [fixed_length m'.2, ramOf_length]; exact k.isLt)
  have hf : Function.Injective f := by
    intro x y h
    have hx := (fixed_length x.2).trans (ramOf_length m)
    have hy := (fixed_length y.2).trans (ramOf_length m)
    have : ramOf x.1.inner = ramOf y.1.inner := by
      apply List.ext_getElem (by omega)
      intro k h1 h2
      exact congrFun h ⟨k, by omega⟩
    have := ramOf_injective (x.2.trans y.2.symm) this
    obtain ⟨⟨a⟩, _⟩ := x
    obtain ⟨⟨a'⟩, _⟩ := y
    simp only at this
    subst this
    rfl
  refine ⟨Finite.of_injective f hf, ?_⟩
  have := Nat.card_le_card_of_injective f hf
  rw [Nat.card_fun, card_bitVec, Nat.card_coe_set_eq, Nat.card_eq_fintype_card, Fintype.card_fin] at this
  exact this

variable {b : Build}

theorem write_fixed {d d' : Memory} {a : Word} {v : Byte} {r : Except String Byte} {rg : AddrRange}
    (h : Addressable.write b d a v = .ok (r, d')) : fixed (rg, d') = fixed (rg, d) := by
  change d.write b a v = _ at h
  unfold Memory.write at h
  split at h
  · rename_i hk
    cases h1 : subU16 b a d.start with
    | error p => rw [h1] at h; cases h
    | ok off =>
      rw [h1, Res.ok_bind] at h
      unfold indexSet at h
      split at h
      · cases h; simp [fixed, hk]
      · cases h
  · cases h; rfl

theorem writeEntries_fixed {a : Word} {v : Byte} (es : List (AddrRange × Memory)) :
    ∀ {r : Except String Byte} {es' : List (AddrRange × Memory)},
    AddressMap.writeEntries b a v es = .ok (r, es') → es'.map fixed = es.map fixed := by
  induction es with
  | nil => intro r es' h; cases h; rfl
  | cons e es ih =>
    obtain ⟨rg, d⟩ := e
    intro r es' h
    rw [AddressMap.writeEntries] at h
    split at h
    · cases h1 : Addressable.write b d a v with
      | error p => rw [h1] at h; cases h
      | ok q =>
        obtain ⟨r1, d'⟩ := q
        rw [h1] at h
        cases h
        rw [List.map_cons, List.map_cons, write_fixed h1]
    · cases h1 : AddressMap.writeEntries b a v es with
      | error p => rw [h1] at h; cases h
      | ok q =>
        obtain ⟨r1, es1⟩ := q
        rw [h1] at h
        cases h
        rw [List.map_cons, List.map_cons, ih h1]

theorem sameRom_closed (m : AddressMap Memory) : ClosedUnderWrites b (sameRom m) := by
  intro x hx a v r x' h
  change (AddressMap.writeEntries b a v x.inner).bind _ = _ at h
  cases h1 : AddressMap.writeEntries b a v x.inner with
  | error p => rw [h1] at h; cases h
  | ok q =>
    obtain ⟨r1, es⟩ := q
    rw [h1] at h
    cases h
    exact (writeEntries_fixed _ h1).trans hx

end Verif.Mos
