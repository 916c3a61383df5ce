import Verif.Proofs.MosFinite
import Verif.Props.Chip8.Run

/-!
# Finitely many states of the CHIP-8
-/

namespace Verif.Props.Chip8

open Verif Verif.Chip8 Verif.Spec.Chip8
open Verif.Mos (ClosedUnderWrites)

variable {B R : Type} [Addressable B] {b : Build}

/-- The states with a bus in `S`, timers written at one of the instants `T`, a stack of the given size
and the given generator. -/
structure Within (S : Set B) (T : Set Instant) (cap len : Nat) (r : R) (c : Chip8 B R) : Prop where
  bus : c.address_space ∈ S
  dt : c.dt.written_at ∈ T
  st : c.st.written_at ∈ T
  capacity : c.stack.capacity = cap
  length : c.stack.inner.length = len
  rng : c.rng = r

/-- The key that is down, as a number. -/
def keyCode : Option Interrupt → Option Byte
  | none => none
  | some (.KeyPress k) => some k.asU8

theorem keyCode_injective : Function.Injective keyCode := by
  have hk : ∀ k k' : KeyInputValue, k.asU8 = k'.asU8 → k = k' := by
    intro k k'
    cases k <;> cases k' <;> decide
  rintro (_ | ⟨⟨k⟩⟩) (_ | ⟨⟨k'⟩⟩) h
  · rfl
  · cases h
  · cases h
  · rw [hk k k' (Option.some.inj h)]

omit [Addressable B] in
theorem within_finite {S : Set B} {T : Set Instant} (hS : S.Finite) (hT : T.Finite) (cap len : Nat)
    (r : R) : {c : Chip8 B R | Within S T cap len r c}.Finite := by
  have : Finite S := hS
  have : Finite T := hT
  have : Finite {l : List Word | l.length = len} := List.finite_length_eq Word len
  let f : {c : Chip8 B R | Within S T cap len r c} → S × T × T × {l : List Word | l.length = len} ×
      Word × Byte × Word × (Fin 15 → Byte) × Byte × Byte × (Fin 32 → Fin 64 → Bool) × Option Byte :=
    fun c => (⟨c.1.address_space, c.2.bus⟩, ⟨c.1.dt.written_at, c.2.dt⟩, ⟨c.1.st.written_at, c.2.st⟩,
      ⟨c.1.stack.inner, c.2.length⟩, c.1.pc, c.1.sp.inner, c.1.i, fun k => c.1.gp_registers[k],
      c.1.dt.inner, c.1.st.inner, fun y x => c.1.display.inner[y][x], keyCode c.1.interrupt)
  have hf : Function.Injective f := by
    rintro ⟨⟨⟨cp, s⟩, m, ⟨d1, d2⟩, ⟨s1, s2⟩, pc, ⟨sp⟩, i, gp, ⟨dis⟩, int, rng⟩, h⟩
      ⟨⟨⟨cp', s'⟩, m', ⟨d1', d2'⟩, ⟨s1', s2'⟩, pc', ⟨sp'⟩, i', gp', ⟨dis'⟩, int', rng'⟩, h'⟩ e
    simp only [f, Prod.mk.injEq, Subtype.mk.injEq] at e
    obtain ⟨rfl, rfl, rfl, rfl, rfl, rfl, rfl, e1, rfl, rfl, e2, e3⟩ := e
    have g1 := h.capacity.trans h'.capacity.symm
    have g2 := h.rng.trans h'.rng.symm
    simp only at g1 g2
    subst g1 g2
    have g3 : gp = gp' := by
      apply Vector.ext
      intro k hk
      exact congrFun e1 ⟨k, hk⟩
    have g4 : dis = dis' := by
      apply Vector.ext
      intro y hy
      apply Vector.ext
      intro x hx
      exact congrFun (congrFun e2 ⟨y, hy⟩) ⟨x, hx⟩
    have g5 := keyCode_injective e3
    subst g3 g4 g5
    rfl
  exact Finite.of_injective f hf

/-- Microcode stays within. -/
theorem within_exec {S : Set B} {T : Set Instant} (hS : ClosedUnderWrites b S) {cap len : Nat} {r : R}
    {t : Instant} (ht : t ∈ T) {c c' : Chip8 B R} (hc : Within S T cap len r c) (mc : Microcode)
    (h : executeMut b t c mc = .ok c') : Within S T cap len r c' := by
  obtain ⟨h1, h2, h3, h4, h5, h6⟩ := hc
  cases mc with
  | WriteMemory a v =>
    simp only [executeMut, writeMemory] at h
    cases hw : Addressable.write b c.address_space a v with
    | error p => rw [hw] at h; cases h
    | ok x =>
      obtain ⟨q, m⟩ := x
      rw [hw, Res.ok_bind] at h
      cases q with
      | error m => cases h
      | ok q => cases h; exact ⟨hS _ h1 _ _ _ _ hw, h2, h3, h4, h5, h6⟩
  | Write8bitRegister reg v =>
    cases reg with
    | GpRegisters g =>
      obtain ⟨_, -, h⟩ := bind_ok h
      cases h
      exact ⟨h1, h2, h3, h4, h5, h6⟩
    | TimerRegisters g =>
      cases g <;> cases h
      · exact ⟨h1, h2, ht, h4, h5, h6⟩
      · exact ⟨h1, ht, h3, h4, h5, h6⟩
  | Inc8bitRegister reg v =>
    cases reg with
    | GpRegisters g =>
      obtain ⟨_, -, h⟩ := bind_ok h
      obtain ⟨_, -, h⟩ := bind_ok h
      cases h
      exact ⟨h1, h2, h3, h4, h5, h6⟩
    | TimerRegisters g =>
      cases g <;> obtain ⟨_, -, h⟩ := bind_ok h <;> cases h
      · exact ⟨h1, h2, ht, h4, h5, h6⟩
      · exact ⟨h1, ht, h3, h4, h5, h6⟩
  | Dec8bitRegister reg v => cases h; exact ⟨h1, h2, h3, h4, h5, h6⟩
  | Write16bitRegister reg v => cases reg <;> cases h <;> exact ⟨h1, h2, h3, h4, h5, h6⟩
  | Inc16bitRegister reg v => cases reg <;> cases h <;> exact ⟨h1, h2, h3, h4, h5, h6⟩
  | Dec16bitRegister reg v => cases h; exact ⟨h1, h2, h3, h4, h5, h6⟩
  | PushStack v =>
    simp only [executeMut, pushStack, Ring.write] at h
    obtain ⟨⟨q, s⟩, hs, h⟩ := bind_ok h
    obtain ⟨_, -, h⟩ := bind_ok h
    cases h
    obtain ⟨k, -, hs⟩ := bind_ok hs
    split at hs <;> cases hs
    · exact ⟨h1, h2, h3, h4, by simpa using h5, h6⟩
    · exact ⟨h1, h2, h3, h4, h5, h6⟩
  | PopStack v => cases h; exact ⟨h1, h2, h3, h4, h5, h6⟩
  | KeyPress k => cases h; exact ⟨h1, h2, h3, h4, h5, h6⟩
  | KeyRelease => cases h; exact ⟨h1, h2, h3, h4, h5, h6⟩
  | SetDisplayPixel xy v => cases h; exact ⟨h1, h2, h3, h4, h5, h6⟩
  | SetDisplayRange s e v =>
    simp only [executeMut, setDisplayRange_eq] at h
    cases hr : rangeCounts b s e with
    | error p => rw [hr] at h; cases h
    | ok n => rw [hr] at h; cases h; exact ⟨h1, h2, h3, h4, h5, h6⟩

theorem within_execAll {S : Set B} {T : Set Instant} (hS : ClosedUnderWrites b S) {cap len : Nat} {r : R}
    {t : Instant} (ht : t ∈ T) (l : List Microcode) : ∀ {c c' : Chip8 B R}, Within S T cap len r c →
    executeAll b t c l = .ok c' → Within S T cap len r c' := by
  induction l with
  | nil => intro c c' hc h; cases h; exact hc
  | cons mc l ih =>
    intro c c' hc h
    obtain ⟨d, h1, h2⟩ := bind_ok h
    exact ih (within_exec hS ht hc mc h1) h2

theorem within_next {S : Set B} {T : Set Instant} (hS : ClosedUnderWrites b S) {cap len : Nat} {r : R}
    {e : Env} (ht : e.iterAt ∈ T) {c c' : Chip8 B R} {l : List Microcode} (hc : Within S T cap len r c)
    (h : next b e c = .ok (l, c')) : Within S T cap len r c' :=
  within_execAll hS ht l hc (next_exec h)

end Verif.Props.Chip8
