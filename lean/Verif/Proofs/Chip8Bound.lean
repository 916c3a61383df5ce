import Verif.Proofs.MosBound
import Verif.Props.Chip8.Periodic

/-!
# Counting the states of the CHIP-8
-/

namespace Verif.Props.Chip8

open Verif Verif.Chip8 Verif.Spec Verif.Spec.Chip8
open Verif.Mos (ClosedUnderWrites card_bitVec)

variable {B R : Type}

/-- The state without the instants. -/
def timeless (c : Chip8 B R) : Chip8 B R :=
  { c with dt := { c.dt with written_at := 0 }, st := { c.st with written_at := 0 } }

theorem timeless_same {c d : Chip8 B R} (h : timeless c = timeless d) : SameButInstants c d := by
  obtain ⟨s, m, ⟨d1, d2⟩, ⟨s1, s2⟩, pc, sp, i, gp, dis, int, rng⟩ := c
  obtain ⟨s', m', ⟨d1', d2'⟩, ⟨s1', s2'⟩, pc', sp', i', gp', dis', int', rng'⟩ := d
  simp only [timeless, Chip8.mk.injEq, ClockDecrementing.mk.injEq] at h
  obtain ⟨rfl, rfl, ⟨-, rfl⟩, ⟨-, rfl⟩, rfl, rfl, rfl, rfl, rfl, rfl, rfl⟩ := h
  exact ⟨d1', s1', rfl⟩

/-- No key or one of 16. -/
def keyFin : Option Interrupt → Option (Fin 16)
  | none => none
  | some (.KeyPress k) => some ⟨k.asU8.toNat, by cases k <;> decide⟩

theorem keyFin_injective : Function.Injective keyFin := by
  have hk : ∀ k k' : KeyInputValue, k.asU8.toNat = k'.asU8.toNat → k = k' := by
    intro k k'
    cases k <;> cases k' <;> decide
  rintro (_ | ⟨⟨k⟩⟩) (_ | ⟨⟨k'⟩⟩) h
  · rfl
  · cases h
  · cases h
  · simp only [keyFin, Option.some.injEq, Fin.mk.injEq] at h
    rw [hk k k' h]

theorem card_fin (n : Nat) : Nat.card (Fin n) = n := by
  rw [Nat.card_eq_fintype_card, Fintype.card_fin]

theorem within_card {S : Set B} (hS : S.Finite) (cap len : Nat) (r : R) :
    {c : Chip8 B R | Within S {0} cap len r c}.Finite ∧
    {c : Chip8 B R | Within S {0} cap len r c}.ncard ≤ chip8States len S.ncard := by
  have : Finite S := hS
  let f : {c : Chip8 B R | Within S {0} cap len r c} → S × (Fin len → Word) ×
      Word × Byte × Word × (Fin 15 → Byte) × Byte × Byte × (Fin 32 → Fin 64 → Bool) × Option (Fin 16) :=
    fun c => (⟨c.1.address_space, c.2.bus⟩,
      fun k => c.1.stack.inner[k.val]'(by rw [c.2.length]; exact k.isLt),
      c.1.pc, c.1.sp.inner, c.1.i, fun k => c.1.gp_registers[k],
      c.1.dt.inner, c.1.st.inner, fun y x => c.1.display.inner[y][x], keyFin c.1.interrupt)
  have hf : Function.Injective f := by
    rintro ⟨⟨⟨cp, s⟩, m, ⟨d1, d2⟩, ⟨s1, s2⟩, pc, ⟨sp⟩, i, gp, ⟨dis⟩, int, rng⟩, h⟩
      ⟨⟨⟨cp', s'⟩, m', ⟨d1', d2'⟩, ⟨s1', s2'⟩, pc', ⟨sp'⟩, i', gp', ⟨dis'⟩, int', rng'⟩, h'⟩ e
    simp only [f, Prod.mk.injEq, Subtype.mk.injEq] at e
    obtain ⟨rfl, e0, rfl, rfl, rfl, e1, rfl, rfl, e2, e3⟩ := e
    have g1 := h.capacity.trans h'.capacity.symm
    have g2 := h.rng.trans h'.rng.symm
    have g6 : d1 = 0 := h.dt
    have g7 : s1 = 0 := h.st
    have g8 : d1' = 0 := h'.dt
    have g9 : s1' = 0 := h'.st
    simp only at g1 g2
    subst g1 g2 g6 g7 g8 g9
    have g0 : s = s' := by
      apply List.ext_getElem (h.length.trans h'.length.symm)
      intro k h1 h2
      exact congrFun e0 ⟨k, h.length ▸ h1⟩
    have g3 : gp = gp' := by
      apply Vector.ext
      intro k hk
      exact congrFun e1 ⟨k, hk⟩
    have g4 : dis = dis' := by
      apply Vector.ext
      intro y hy
      apply Vector.ext
      intro x hx
      exact congrFun (congrFun e2 ⟨y, hy⟩) ⟨x, hx⟩
    have g5 := keyFin_injective e3
    subst g0 g3 g4 g5
    rfl
  refine ⟨Finite.of_injective f hf, ?_⟩
  have h := Nat.card_le_card_of_injective f hf
  have hk : Nat.card (Option (Fin 16)) = 17 := by rw [Nat.card_eq_fintype_card]; rfl
  have hb : Nat.card Bool = 2 := by rw [Nat.card_eq_fintype_card]; rfl
  simp only [Nat.card_prod, Nat.card_fun, card_bitVec, Nat.card_coe_set_eq, card_fin, hk, hb] at h
  unfold chip8States
  refine h.trans (le_of_eq ?_)
  simp only [Nat.pow_add, ← Nat.pow_mul]
  rw [show 2 ^ (2 * 8) = 2 ^ 8 * 2 ^ 8 from rfl, Nat.mul_comm 8 15]
  have key : ∀ l d g w y k : Nat, k * (l * (w * (y * (w * (g * (y * (y * (d * 17)))))))) =
      g * (y * y) * w * y * w * l * d * 17 * k := by intros; ac_rfl
  apply key

end Verif.Props.Chip8
