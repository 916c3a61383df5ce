import Verif.Proofs.Chip8Effect
import Verif.Proofs.Chip8Sample
import Verif.Proofs.MosStack

/-!
# CHIP-8: block transfers, decimal digits, glyph addresses (C48 – C50)
-/

namespace Verif.Props.Chip8

open Verif Verif.Chip8 Verif.Spec.Chip8
open Verif.Mos (FlatRam flatRam_coherent writeAll_coherent)
open Verif.Spec.Mos (Mem BusView writeAll upd Coherent)

variable {B R : Type} [Addressable B] {b : Build} {e : Env} {cpu cpu' : Chip8 B R} {mem : Mem}
  {x : GpRegisters}

omit [Addressable B] in
theorem iPlus_eq (cpu : Chip8 B R) (k : Nat) : cpu.i + BitVec.ofNat 16 k = iPlus cpu k := by
  apply BitVec.eq_of_toNat_eq
  unfold iPlus
  rw [BitVec.toNat_add, BitVec.toNat_ofNat, BitVec.toNat_ofNat]
  omega

omit [Addressable B] in
theorem iPlus_inj {cpu : Chip8 B R} {j k : Nat} (hj : j < 65536) (hk : k < 65536)
    (h : iPlus cpu j = iPlus cpu k) : j = k := by
  have := congrArg BitVec.toNat h
  unfold iPlus at this
  rw [BitVec.toNat_ofNat, BitVec.toNat_ofNat] at this
  have := cpu.i.isLt
  omega

/-! ## C48 -/

/-- The memory after a block write. -/
theorem block_get (mem : Mem) (n : Nat) (addr : Nat → Word) (v : Nat → Byte)
    (hinj : ∀ j k, j < n → k < n → addr j = addr k → j = k) :
    (∀ k < n, ((List.range n).map fun k => (addr k, v k)).foldl (fun m w => upd m w.1 w.2) mem
      (addr k) = v k) ∧
    (∀ a, (∀ k < n, a ≠ addr k) →
      ((List.range n).map fun k => (addr k, v k)).foldl (fun m w => upd m w.1 w.2) mem a = mem a) := by
  induction n with
  | zero => exact ⟨fun k hk => absurd hk (by omega), fun a _ => rfl⟩
  | succ n ih =>
    obtain ⟨ih1, ih2⟩ := ih fun j k hj hk => hinj j k (by omega) (by omega)
    rw [List.range_succ, List.map_append, List.foldl_append]
    simp only [List.map_cons, List.map_nil, List.foldl_cons, List.foldl_nil]
    constructor
    · intro k hk
      unfold upd
      by_cases h : k = n
      · subst h; rw [if_pos rfl]
      · rw [if_neg (fun h' => h (hinj k n hk (by omega) h'))]
        exact ih1 k (by omega)
    · intro a ha
      unfold upd
      rw [if_neg (ha n (by omega))]
      exact ih2 a fun k hk => ha k (by omega)

/-- Fx55 writes V0..Vx to I..I+x, in this order; no register changes (I included). -/
theorem C48_store (hat : At b cpu (.StoreRegistersToMemory x)) (hx : x ≠ .Vf)
    (hi : cpu.i.toNat + num x < 65536) :
    StepWrites b e cpu (advance cpu 2)
      ((List.range (num x + 1)).map fun k => (iPlus cpu k, V cpu (regOf k))) := by
  have := step_ok (e := e) (mem := fun _ => 0) hat ⟨hx, fun h => absurd h.2 (Nat.not_le.2 hi)⟩
    (by simp) (by simp)
  simp only [writes, after, iPlus_eq] at this
  exact this

/-- Fx65 reads V0..Vx from I..I+x and leaves the other registers; nothing else changes. -/
theorem C48_load (hat : At b cpu (.ReadRegistersFromMemory x))
    (hv : BusView b cpu.address_space mem) (hx : x ≠ .Vf) (hi : cpu.i.toNat + num x < 65536) :
    ∃ c, StepsTo b e cpu c ∧
      (∀ r, r ≠ .Vf → V c r = if num r ≤ num x then mem (iPlus cpu (num r)) else V cpu r) ∧
      c = { advance cpu 2 with gp_registers := c.gp_registers } := by
  refine ⟨_, step_to hat ⟨hx, fun h => absurd h.2 (Nat.not_le.2 hi)⟩ (fun _ => hv) (by simp) rfl,
    ?_, rfl⟩
  intro r hr
  have := num_lt_15 hr
  simp only [V, after, advance, loadRegs, Vector.getElem?_eq_getElem this, Vector.getElem_mapFinIdx,
    Option.getD_some, iPlus_eq]
  by_cases h : num r ≤ num x
  · rw [if_pos h, if_pos (by omega)]
  · rw [if_neg h, if_neg (by omega)]

/-- Fx55 followed, at any later time with the memory unchanged and I the same, by Fx65: V0..Vx are
what they were before Fx55, whatever the registers held in between. Fx55 changes no byte outside
the block. -/
theorem C48_round_trip {I : B → Mem → Prop} {c₀ c₁ c₂ c₃ : Chip8 B R} {e' : Env}
    (hI : Coherent b I) (hm : I c₀.address_space mem) (hx : x ≠ .Vf)
    (hi : c₀.i.toNat + num x < 65536)
    (h₀ : At b c₀ (.StoreRegistersToMemory x)) (s₀ : StepsTo b e c₀ c₁)
    (hbus : c₂.address_space = c₁.address_space) (hi₂ : c₂.i = c₀.i)
    (h₂ : At b c₂ (.ReadRegistersFromMemory x)) (s₂ : StepsTo b e' c₂ c₃) :
    (∀ r, num r ≤ num x → V c₃ r = V c₀ r) ∧
    ∃ mem', I c₁.address_space mem' ∧
      ∀ a, (∀ k, k ≤ num x → a ≠ iPlus c₀ k) → mem' a = mem a := by
  have hst := C48_store (e := e) h₀ hx hi
  unfold StepWrites at hst
  unfold StepsTo at s₀
  rw [s₀] at hst
  cases hw : writeAll b c₀.address_space
      ((List.range (num x + 1)).map fun k => (iPlus c₀ k, V c₀ (regOf k))) with
  | error p => rw [hw] at hst; cases hst
  | ok bus =>
    rw [hw] at hst
    have hst : StepState.ready c₁ = .ready { advance c₀ 2 with address_space := bus } := by
      simpa [Except.map] using hst
    have hc₁ : c₁.address_space = bus := by
      have := StepState.ready.inj hst
      rw [this]
    have hm' := writeAll_coherent hI _ hm hw
    have hn := num_lt x
    obtain ⟨g1, g2⟩ := block_get mem (num x + 1) (iPlus c₀) (fun k => V c₀ (regOf k))
      fun j k hj hk h => iPlus_inj (by omega) (by omega) h
    refine ⟨?_, _, by rw [hc₁]; exact hm', fun a ha => g2 a fun k hk => ha k (by omega)⟩
    intro r hr
    have hrf : r ≠ .Vf := by
      rintro rfl
      have := num_lt_15 hx
      rw [num_Vf] at hr
      omega
    obtain ⟨c, hs, hvals, -⟩ := C48_load (e := e') h₂
      (mem := _) (by rw [hbus, hc₁]; exact (hI _ _ hm').1) hx (by rw [hi₂]; exact hi)
    unfold StepsTo at hs s₂
    rw [s₂] at hs
    have : c₃ = c := by simpa using hs
    subst this
    rw [hvals r hrf, if_pos hr]
    have hii : iPlus c₂ (num r) = iPlus c₀ (num r) := by unfold iPlus; rw [hi₂]
    rw [hii, g1 (num r) (by omega), regOf_num]

/-- The hypotheses are met: `F355` at 0x200 with I = 0x300, then `F365` with all registers changed. -/
example : ∃ c₀ c₁ c₂ c₃ : Chip8 FlatRam Unit,
    At .debug c₀ (.StoreRegistersToMemory .V3) ∧ StepsTo .debug ⟨0, 0, 0, 0⟩ c₀ c₁ ∧
    c₂.address_space = c₁.address_space ∧ c₂.i = c₀.i ∧
    At .debug c₂ (.ReadRegistersFromMemory .V3) ∧ StepsTo .debug ⟨0, 0, 0, 0⟩ c₂ c₃ ∧
    V c₂ .V1 = 0 ∧ V c₃ .V1 = 0xfe := by
  let c₀ := place sample (.StoreRegistersToMemory .V3)
  let bus₀ : FlatRam := ⟨placeMem c₀.address_space.mem 0x202 (.ReadRegistersFromMemory .V3)⟩
  let c₀ : Chip8 FlatRam Unit := { c₀ with address_space := bus₀ }
  let bus : FlatRam := ⟨fun a => if a = 0x303 then 0x33 else if a = 0x302 then 0x0c else
    if a = 0x301 then 0xfe else if a = 0x300 then 0x11 else c₀.address_space.mem a⟩
  let c₁ : Chip8 FlatRam Unit := { c₀ with pc := 0x202, address_space := bus }
  let c₂ : Chip8 FlatRam Unit := { c₁ with gp_registers := Vector.replicate 15 0 }
  have h₂ : At .debug c₂ (.ReadRegistersFromMemory .V3) := by
    exact (C40_fetch (view _ c₂) (by decide) _).2 ⟨trivial, by decide⟩
  obtain ⟨c₃, hs, hvals, -⟩ := C48_load (e := ⟨0, 0, 0, 0⟩) h₂ (view _ c₂) (by decide) (by decide)
  have h₀ : At .debug c₀ (.StoreRegistersToMemory .V3) :=
    (C40_fetch (view _ c₀) (by decide) _).2 ⟨trivial, by decide⟩
  refine ⟨c₀, c₁, c₂, c₃, h₀, C48_store h₀ (by decide) (by decide), rfl, rfl, h₂, hs, rfl, ?_⟩
  rw [hvals .V1 (by decide)]
  rfl

/-! ## C49 -/

/-- The three digits of a byte. -/
theorem C49_digits (v : Byte) : ∃ h t u : Nat, h < 10 ∧ t < 10 ∧ u < 10 ∧
    v.toNat = 100 * h + 10 * t + u :=
  ⟨v.toNat / 100, v.toNat / 10 % 10, v.toNat % 10, by have := v.isLt; omega, by omega, by omega,
    by omega⟩

/-- Fx33 writes the hundreds, tens and units digits of Vx (`C49_digits`: every byte has exactly
one such decomposition) to I, I+1, I+2; no register changes. -/
theorem C49_bcd (hat : At b cpu (.LdBcd x)) (hx : x ≠ .Vf) (hi : cpu.i.toNat + 2 < 65536)
    {h t u : Nat} (_hh : h < 10) (ht : t < 10) (hu : u < 10)
    (hd : (V cpu x).toNat = 100 * h + 10 * t + u) :
    StepWrites b e cpu (advance cpu 2)
      [(iPlus cpu 0, BitVec.ofNat 8 h), (iPlus cpu 1, BitVec.ofNat 8 t),
        (iPlus cpu 2, BitVec.ofNat 8 u)] := by
  have := step_ok (e := e) (mem := fun _ => 0) hat ⟨hx, fun h => absurd h.2 (Nat.not_le.2 hi)⟩
    (by simp) (by simp)
  simp only [writes, after] at this
  have e0 : cpu.i = iPlus cpu 0 := by
    rw [← iPlus_eq]; simp
  have e1 : cpu.i + 1 = iPlus cpu 1 := iPlus_eq cpu 1
  have e2 : cpu.i + 2 = iPlus cpu 2 := iPlus_eq cpu 2
  have d0 : V cpu x / 100 = BitVec.ofNat 8 h := by
    apply BitVec.eq_of_toNat_eq
    rw [BitVec.toNat_udiv, BitVec.toNat_ofNat]
    show (V cpu x).toNat / 100 = _
    omega
  have d1 : V cpu x % 100 / 10 = BitVec.ofNat 8 t := by
    apply BitVec.eq_of_toNat_eq
    rw [BitVec.toNat_udiv, BitVec.toNat_umod, BitVec.toNat_ofNat]
    show (V cpu x).toNat % 100 / 10 = _
    omega
  have d2 : V cpu x % 100 % 10 = BitVec.ofNat 8 u := by
    apply BitVec.eq_of_toNat_eq
    rw [BitVec.toNat_umod, BitVec.toNat_umod, BitVec.toNat_ofNat]
    show (V cpu x).toNat % 100 % 10 = _
    omega
  rw [d0, d1, d2, e1, e2] at this
  rw [← e0]
  exact this

/-- What the memory shows after Fx33: the digits, and elsewhere what it showed before. -/
theorem C49_memory {I : B → Mem → Prop} (hI : Coherent b I) (hm : I cpu.address_space mem)
    (hat : At b cpu (.LdBcd x)) (hx : x ≠ .Vf) (hi : cpu.i.toNat + 2 < 65536)
    (hs : StepsTo b e cpu cpu') :
    ∃ mem', I cpu'.address_space mem' ∧
      (mem' (iPlus cpu 0)).toNat < 10 ∧ (mem' (iPlus cpu 1)).toNat < 10 ∧
      (mem' (iPlus cpu 2)).toNat < 10 ∧
      (V cpu x).toNat = 100 * (mem' (iPlus cpu 0)).toNat + 10 * (mem' (iPlus cpu 1)).toNat +
        (mem' (iPlus cpu 2)).toNat ∧
      ∀ a, a ≠ iPlus cpu 0 → a ≠ iPlus cpu 1 → a ≠ iPlus cpu 2 → mem' a = mem a := by
  obtain ⟨h, t, u, hh, ht, hu, hd⟩ := C49_digits (V cpu x)
  have hst := C49_bcd (e := e) hat hx hi hh ht hu hd
  unfold StepWrites at hst
  unfold StepsTo at hs
  rw [hs] at hst
  cases hw : writeAll b cpu.address_space [(iPlus cpu 0, BitVec.ofNat 8 h),
      (iPlus cpu 1, BitVec.ofNat 8 t), (iPlus cpu 2, BitVec.ofNat 8 u)] with
  | error p => rw [hw] at hst; cases hst
  | ok bus =>
    rw [hw] at hst
    have hst : StepState.ready cpu' = .ready { advance cpu 2 with address_space := bus } := by
      simpa [Except.map] using hst
    have hc : cpu'.address_space = bus := by
      rw [StepState.ready.inj hst]
    have hm' := writeAll_coherent hI _ hm hw
    have n01 : iPlus cpu 0 ≠ iPlus cpu 1 := fun h => by
      have := iPlus_inj (by omega) (by omega) h; omega
    have n02 : iPlus cpu 0 ≠ iPlus cpu 2 := fun h => by
      have := iPlus_inj (by omega) (by omega) h; omega
    have n12 : iPlus cpu 1 ≠ iPlus cpu 2 := fun h => by
      have := iPlus_inj (by omega) (by omega) h; omega
    refine ⟨_, by rw [hc]; exact hm', ?_⟩
    simp only [List.foldl_cons, List.foldl_nil, upd, if_true, if_neg n01, if_neg n02, if_neg n12,
      BitVec.toNat_ofNat]
    refine ⟨by omega, by omega, by omega, by omega, ?_⟩
    intro a h0 h1 h2
    rw [if_neg h2, if_neg h1, if_neg h0]

/-- `F133` with V1 = 254. -/
example : StepWrites .debug ⟨0, 0, 0, 0⟩ (place sample (.LdBcd .V1))
    (advance (place sample (.LdBcd .V1)) 2) [(0x300, 2), (0x301, 5), (0x302, 4)] :=
  C49_bcd (at_place _ _ trivial (by decide)) (by decide) (by decide) (h := 2) (t := 5) (u := 4)
    (by decide) (by decide) (by decide) rfl

/-! ## C50 -/

/-- Fx29 with a digit, and with every other value whose product with five fits a byte. -/
theorem C50_glyph (hat : At b cpu (.LdSpriteLocation x)) (hx : x ≠ .Vf)
    (hd : (V cpu x).toNat ≤ 51) :
    StepsTo b e cpu (advance { cpu with i := BitVec.ofNat 16 (5 * (V cpu x).toNat) } 2) := by
  have := step_to (e := e) (mem := fun _ => 0) hat
    ⟨hx, fun h => absurd h.2 (Nat.not_le.2 (by omega))⟩ (by simp) (by simp) rfl
  simp only [after] at this
  rw [show 5 * (V cpu x).toNat = (V cpu x).toNat * 5 % 256 by omega]
  exact this

/-- Fx29 with a value above 51: a build with overflow checks panics; one without sets I to an
address that is not the address of the glyph of any digit. -/
theorem C50_too_large (hat : At b cpu (.LdSpriteLocation x)) (hx : x ≠ .Vf)
    (hv : BusView b cpu.address_space mem) (hd : 51 < (V cpu x).toNat) :
    (b.overflowChecks = true → StepPanics b e cpu) ∧
    (b.overflowChecks = false → ∃ c, StepsTo b e cpu c ∧
      c = { advance cpu 2 with i := c.i } ∧ ∀ d < 16, c.i.toNat ≠ 5 * d) := by
  refine ⟨fun hc => step_panics hat hv fun hr => hr.2 ⟨hc, ?_⟩, fun hc => ?_⟩
  · show 256 ≤ (V cpu x).toNat * 5
    omega
  · refine ⟨_, step_to (mem := mem) hat ⟨hx, fun h => by rw [hc] at h; exact absurd h.1 (by decide)⟩
      (by simp) (by simp) rfl, rfl, ?_⟩
    intro d hd' he
    simp only [after, advance, BitVec.toNat_ofNat] at he
    have hlt : (V cpu x).toNat < 256 := (V cpu x).isLt
    rw [Nat.mod_eq_of_lt (Nat.lt_trans (Nat.mod_lt _ (by decide)) (by decide))] at he
    have hq := Nat.div_add_mod ((V cpu x).toNat * 5) 256
    rw [he] at hq
    generalize (V cpu x).toNat * 5 / 256 = q at hq
    have : q = 0 ∨ q = 1 ∨ q = 2 ∨ q = 3 ∨ q = 4 := by omega
    rcases this with rfl | rfl | rfl | rfl | rfl <;> omega

example : StepsTo .debug ⟨0, 0, 0, 0⟩ (place sample (.LdSpriteLocation .V2))
    (advance { place sample (.LdSpriteLocation .V2) with i := 60 } 2) :=
  C50_glyph (at_place _ _ trivial (by decide)) (by decide) (by decide)

example : StepPanics .debug ⟨0, 0, 0, 0⟩ (place sample (.LdSpriteLocation .V1)) :=
  (C50_too_large (at_place _ _ trivial (by decide)) (by decide) (view _ _) (by decide)).1 rfl

end Verif.Props.Chip8
