import Verif.Proofs.MosBound

/-!
# C137: how long to run a program to see whether it panics
-/

namespace Verif.Props

open Verif Verif.Mos Verif.Spec Verif.Spec.Mos

section
variable {B : Type} [Addressable B] {b : Build} {c : Mos6502 B}

/-- A panic stays: a longer run ends in the same panic. -/
theorem C137_panic_stays {n m : Nat} {p : Panic} (hnm : n ≤ m) (h : run b c n = .error p) :
    run b c m = .error p := by
  obtain ⟨l, d, h1, h2, h3⟩ := C12_panic.1 h
  exact C12_panic.2 ⟨l, d, h1, by omega, h3⟩

/-- A machine that executes as many instructions as it has states comes back to a state within them. -/
theorem returns {S : Set B} (hfin : S.Finite) (hS : ClosedUnderWrites b S) (hc : c.address_map ∈ S)
    {l : List Operations} {d : Mos6502 B} (h : Instructions b c l d) (hl : mosStates S.ncard ≤ l.length) :
    ∃ l₁ l₂ e, Instructions b c l₁ e ∧ l₂ ≠ [] ∧ Instructions b e l₂ e ∧
      l₁.length + l₂.length ≤ mosStates S.ncard := by
  have hpre : ∀ k ≤ mosStates S.ncard, ∃ l' e, Instructions b c l' e ∧ l'.length = k := by
    intro k hk
    have : ∀ (l : List Operations) (c d : Mos6502 B) (k : Nat), Instructions b c l d → k ≤ l.length →
        ∃ l' e, Instructions b c l' e ∧ l'.length = k := by
      intro l
      induction l with
      | nil => intro c d k _ hk; exact ⟨[], c, .nil _, by simp at hk; simp [hk]⟩
      | cons o l ih =>
        intro c d k h hk
        cases k with
        | zero => exact ⟨[], c, .nil _, rfl⟩
        | succ k =>
          cases h with
          | cons h1 h2 =>
            obtain ⟨l', e, h3, h4⟩ := ih _ _ k h2 (by simpa using hk)
            exact ⟨o :: l', e, .cons h1 h3, by simp [h4]⟩
    exact this l c d k h (by omega)
  let f : Nat → Mos6502 B := fun k => if hk : k ≤ mosStates S.ncard then (hpre k hk).choose_spec.choose else c
  have hf : ∀ k ≤ mosStates S.ncard, ∃ l', Instructions b c l' (f k) ∧ l'.length = k := by
    intro k hk
    simp only [f, dif_pos hk]
    exact ⟨_, (hpre k hk).choose_spec.choose_spec⟩
  obtain ⟨i, j, hij, hj, he⟩ := pigeons (machines_finite hfin) (machines_card hfin) f (by
    intro k hk
    obtain ⟨l', h1, -⟩ := hf k hk
    exact writeAll_mem hS _ hc (C67_bus_is_stores h1))
  obtain ⟨l₁, h1, h2⟩ := hf i (by omega)
  obtain ⟨l', h3, h4⟩ := hf j hj
  obtain ⟨l₂, rfl, h5⟩ := instructions_split h1 h3 (by omega)
  rw [← he] at h5
  rw [List.length_append] at h4
  exact ⟨l₁, l₂, _, h1, by rintro rfl; simp at h4; omega, h5, by omega⟩

theorem cycles_le {l : List Operations} {c d : Mos6502 B} (h : Instructions b c l d) :
    totalCycles l ≤ 7 * l.length := by
  induction h with
  | nil => simp [totalCycles]
  | cons h1 _ ih =>
    have := (C77_cycles h1).2
    rw [totalCycles_cons, List.length_cons]
    omega

/-- C137: on a bus with `k` states, a program that panics at all panics within `7 * 2^56 * k` cycles. -/
theorem C137_panics {S : Set B} (hfin : S.Finite) (hS : ClosedUnderWrites b S) (hc : c.address_map ∈ S)
    {n : Nat} {p : Panic} (h : run b c n = .error p) :
    run b c (7 * mosStates S.ncard) = .error p := by
  cases hr : run b c (7 * mosStates S.ncard) with
  | error q =>
    rcases Nat.le_total n (7 * mosStates S.ncard) with hn | hn
    · rw [C137_panic_stays hn h] at hr
      exact hr.symm
    · rw [C137_panic_stays hn hr] at h
      exact h
  | ok s =>
    obtain ⟨l, d, h1, -, h3, -⟩ := C77_throughput hr
    obtain ⟨l₁, l₂, e, h4, h5, h6, -⟩ := returns hfin hS hc h1 (by omega)
    obtain ⟨s', hs⟩ := (C85_panics_or_loops hfin hS hc).2 ⟨l₁, l₂, e, h4, h5, h6⟩ n
    rw [h] at hs
    cases hs

/-- C137: and a program that does not panic within so many cycles has been through its whole loop. -/
theorem C137_loops {S : Set B} (hfin : S.Finite) (hS : ClosedUnderWrites b S) (hc : c.address_map ∈ S)
    {s : StepState (Mos6502 B)} (h : run b c (7 * mosStates S.ncard) = .ok s) :
    ∃ m t, 0 < t ∧ m + t ≤ 7 * mosStates S.ncard ∧
      ∀ n, m ≤ n → ∃ s, run b c n = .ok s ∧ run b c (n + t) = .ok s := by
  obtain ⟨l, d, h1, -, h3, -⟩ := C77_throughput h
  obtain ⟨l₁, l₂, e, h4, h5, h6, h7⟩ := returns hfin hS hc h1 (by omega)
  have hn := (C85_panics_or_loops hfin hS hc).2 ⟨l₁, l₂, e, h4, h5, h6⟩
  have e1 := cycles_le h4
  have e2 := cycles_le h6
  refine ⟨totalCycles l₁, totalCycles l₂, ?_, by omega, fun n hm => ?_⟩
  · cases h6 with
    | nil => exact absurd rfl h5
    | cons hx _ =>
      have := (C77_cycles hx).1
      rw [totalCycles_cons]
      omega
  · obtain ⟨k, rfl⟩ := Nat.exists_eq_add_of_le hm
    obtain ⟨s, hs⟩ := hn (totalCycles l₁ + k)
    refine ⟨s, hs, ?_⟩
    rw [← hs, Nat.add_assoc, run_add h4, run_add h4, Nat.add_comm k, run_add h6]

end

/-- More states allow more cycles. -/
theorem mosStates_mono {j k : Nat} (h : j ≤ k) : mosStates j ≤ mosStates k := Nat.mul_le_mul_left _ h

variable {b : Build}

/-- C137 on the project's bus: a program on an address map with `r` bytes of RAM, and ROM of any size,
that panics at all panics within `7 * 2^56 * 256^r` cycles. -/
theorem C137_map {c : Mos6502 (AddressMap Memory)} {n : Nat} {p : Panic} (h : run b c n = .error p) :
    run b c (7 * mosStates (256 ^ ramBytes c.address_map)) = .error p := by
  obtain ⟨h1, h2⟩ := sameRom_card c.address_map
  exact C137_panic_stays (Nat.mul_le_mul_left _ (mosStates_mono h2))
    (C137_panics h1 (sameRom_closed _) rfl h)

/-- C137: or else it has been through its loop by then. -/
theorem C137_map_loops {c : Mos6502 (AddressMap Memory)} {s : StepState (Mos6502 (AddressMap Memory))}
    (h : run b c (7 * mosStates (256 ^ ramBytes c.address_map)) = .ok s) :
    ∃ m t, 0 < t ∧ m + t ≤ 7 * mosStates (256 ^ ramBytes c.address_map) ∧
      ∀ n, m ≤ n → ∃ s, run b c n = .ok s ∧ run b c (n + t) = .ok s := by
  obtain ⟨h1, h2⟩ := sameRom_card c.address_map
  have hle := Nat.mul_le_mul_left 7 (mosStates_mono h2)
  cases hr : run b c (7 * mosStates (sameRom c.address_map).ncard) with
  | error q => rw [C137_panic_stays hle hr] at h; cases h
  | ok s' =>
    obtain ⟨m, t, h3, h4, h5⟩ := C137_loops h1 (sameRom_closed _) rfl hr
    exact ⟨m, t, h3, by omega, h5⟩

/-- C137: so whether a program ever panics can be found out by running it. -/
def C137_decide (c : Mos6502 (AddressMap Memory)) : Decidable (∃ n p, run b c n = .error p) :=
  match hr : run b c (7 * mosStates (256 ^ ramBytes c.address_map)) with
  | .error p => .isTrue ⟨_, p, hr⟩
  | .ok s => .isFalse fun ⟨n, p, h⟩ => by rw [C137_map h] at hr; cases hr

/-- C137 with no RAM at all: the answer is there after `7 * 2^56` cycles. -/
theorem C137_rom {c : Mos6502 (AddressMap Memory)} (hrom : ∀ e ∈ c.address_map.inner, e.2.kind = .readOnly)
    {n : Nat} {p : Panic} (h : run b c n = .error p) : run b c (7 * 2 ^ 56) = .error p := by
  have hz : ramBytes c.address_map = 0 := by
    unfold ramBytes
    rw [List.filter_eq_nil_iff.2 fun e he => by simp [hrom e he]]
    rfl
  have := C137_map h
  rwa [hz] at this

/-- C137 on 64K of RAM. -/
theorem C137_flat {c : Mos6502 FlatRam} {n : Nat} {p : Panic} (h : run b c n = .error p) :
    run b c (7 * mosStates (256 ^ 2 ^ 16)) = .error p := by
  have hcard : (Set.univ : Set FlatRam).ncard ≤ 256 ^ 2 ^ 16 := by
    have : Finite FlatRam := Set.finite_univ_iff.1 flatRam_finite
    have e := Nat.card_le_card_of_injective (fun d : FlatRam => d.mem)
      (by rintro ⟨m⟩ ⟨m'⟩ h; exact congrArg _ h)
    rw [Nat.card_fun, card_bitVec, card_bitVec] at e
    rw [show (2 : Nat) ^ 8 = 256 from rfl] at e
    rw [Set.ncard_univ]
    exact e
  exact C137_panic_stays (Nat.mul_le_mul_left _ (mosStates_mono hcard))
    (C137_panics flatRam_finite (fun _ _ _ _ _ _ _ => Set.mem_univ _) (Set.mem_univ _) h)

/-! ### Concrete cases -/

/-- A program in ROM that stores to ROM: it panics within 10 cycles, so the longest run needed does. -/
example : ∃ p, run .debug (withRegs sampleRegs storeMap) 10 = .error p ∧
    run .debug (withRegs sampleRegs storeMap) (7 * 2 ^ 56) = .error p := by
  cases h : run .debug (withRegs sampleRegs storeMap) 10 with
  | error p => exact ⟨p, rfl, C137_rom (by decide) h⟩
  | ok s =>
    have : (run .debug (withRegs sampleRegs storeMap) 10).isOk = false := by decide +kernel
    rw [h] at this
    cases this

/-- The loop `NOP; NOP; JMP` in ROM does not panic, however long it runs. -/
theorem romLoop_runs (n : Nat) : ∃ s, run .debug (withRegs sampleRegs romMap) n = .ok s := by
  have h : afterN .debug (withRegs sampleRegs romMap) 3 = withRegs sampleRegs romMap := by decide +kernel
  have hk : ∀ j : Fin 3, (next .debug (afterN .debug (withRegs sampleRegs romMap) j.val)).isOk = true := by
    decide +kernel
  obtain ⟨l, h1, h2⟩ := instructions_steps (b := .debug) (c := withRegs sampleRegs romMap) 3 fun j hj => by
    have := hk ⟨j, hj⟩
    cases hx : next .debug (afterN .debug (withRegs sampleRegs romMap) j) with
    | error p => rw [hx] at this; cases this
    | ok q => exact ⟨q, rfl⟩
  rw [h] at h1
  exact C85_never_panics h1 (by rintro rfl; cases h2) n

/-- So `C137_map_loops` applies to it. -/
example : ∃ m t, 0 < t ∧ m + t ≤ 7 * mosStates (256 ^ ramBytes romMap) ∧ ∀ n, m ≤ n →
    ∃ s, run .debug (withRegs sampleRegs romMap) n = .ok s ∧
      run .debug (withRegs sampleRegs romMap) (n + t) = .ok s :=
  C137_map_loops (romLoop_runs _).choose_spec

/-- One RAM segment of three bytes and the ROM of the loop. -/
example : ramBytes ⟨(⟨0, 2⟩, ⟨.readWrite, 0, 2, [1, 2, 3]⟩) :: romMap.inner⟩ = 3 + ramBytes romMap := by
  decide +kernel

end Verif.Props
