import Verif.Proofs.MosFinite
import Verif.Props.Mos.Rom
import Verif.Props.Mos.Throughput

/-!
# C85: a program that never panics ends in a loop

The 6502 has no halt instruction and no input besides the bus. On a bus with finitely many states (64K
of RAM, or an address map of RAM and ROM segments) a program either panics or comes back to a state it
was in before; from then on it repeats itself forever.
-/

namespace Verif.Props

open Verif Verif.Mos Verif.Spec Verif.Spec.Mos

section
variable {B : Type} [Addressable B] {b : Build} {c d : Mos6502 B} {l : List Operations}

theorem totalCycles_append (l l' : List Operations) :
    totalCycles (l ++ l') = totalCycles l + totalCycles l' := by simp [totalCycles]

/-- `run` for longer than some whole instructions take. -/
theorem run_add (h : Instructions b c l d) (n : Nat) : run b c (totalCycles l + n) = run b d n := by
  rw [run_eq, run_eq, runLoop_instructions h _ (Nat.le_add_right _ _), Nat.add_sub_cancel_left]

/-- C85: once a machine is back in a state, it repeats: running it through the loop first makes no
difference. -/
theorem C85_repeats (h : Instructions b c l c) (k n : Nat) :
    run b c (k * totalCycles l + n) = run b c n := by
  induction k with
  | zero => simp
  | succ k ih => rw [Nat.succ_mul, Nat.add_comm (k * _), Nat.add_assoc, run_add h, ih]

/-- Two executions from one state are prefixes of one another. -/
theorem instructions_split {d' : Mos6502 B} {l' : List Operations} (h : Instructions b c l d)
    (h' : Instructions b c l' d') (hl : l.length ≤ l'.length) :
    ∃ l₁, l' = l ++ l₁ ∧ Instructions b d l₁ d' := by
  induction h generalizing l' with
  | nil => exact ⟨l', rfl, h'⟩
  | cons h1 _ ih => cases h' with
    | nil => simp at hl
    | cons h2 h3 =>
      rw [h1] at h2
      cases h2
      obtain ⟨l₁, rfl, h4⟩ := ih h3 (by simpa using hl)
      exact ⟨l₁, rfl, h4⟩

/-- C85: every state such a machine is ever in is one of the states of the loop. -/
theorem C85_states {l' : List Operations} (h : Instructions b c l c) (hl : l ≠ [])
    (h' : Instructions b c l' d) : ∃ k l₀ l₁, l' = (List.replicate k l).flatten ++ l₀ ∧
      l = l₀ ++ l₁ ∧ l₁ ≠ [] ∧ Instructions b c l₀ d ∧ Instructions b d l₁ c := by
  generalize hn : l'.length = n
  induction n using Nat.strongRecOn generalizing l' with
  | ind n ih =>
    by_cases hlt : l'.length < l.length
    · obtain ⟨l₁, rfl, h4⟩ := instructions_split h' h (by omega)
      refine ⟨0, l', l₁, rfl, rfl, ?_, h', h4⟩
      rintro rfl
      simp at hlt
    · obtain ⟨l₂, rfl, h4⟩ := instructions_split h h' (by omega)
      have : 0 < l.length := List.length_pos_iff.2 hl
      obtain ⟨k, l₀, l₁, e1, e2, e3, e4, e5⟩ := ih l₂.length (by simp at hn; omega) h4 rfl
      refine ⟨k + 1, l₀, l₁, ?_, e2, e3, e4, e5⟩
      rw [List.replicate_succ, List.flatten_cons, List.append_assoc, e1]

/-- C85: it never panics and it never stops. -/
theorem C85_never_panics (h : Instructions b c l c) (hl : l ≠ []) (n : Nat) :
    ∃ s, run b c n = .ok s := by
  cases hr : run b c n with
  | ok s => exact ⟨s, rfl⟩
  | error p =>
    obtain ⟨l', d, h1, -, h3⟩ := C12_panic.1 hr
    obtain ⟨k, l₀, l₁, -, -, e3, -, e5⟩ := C85_states h hl h1
    cases e5 with
    | nil => exact absurd rfl e3
    | cons h6 _ => rw [h3] at h6; cases h6

/-- The steps of a machine, as long as none panics. -/
theorem instructions_steps (k : Nat) (hk : ∀ j < k, ∃ q, next b (afterN b c j) = .ok q) :
    ∃ l, Instructions b c l (afterN b c k) ∧ l.length = k := by
  induction k with
  | zero => exact ⟨[], .nil _, rfl⟩
  | succ k ih =>
    obtain ⟨l, h1, h2⟩ := ih fun j hj => hk j (by omega)
    obtain ⟨⟨ops, e⟩, hx⟩ := hk k (by omega)
    refine ⟨l ++ [ops], instructions_append h1 (.cons hx ?_), by simp [h2]⟩
    have : afterN b c (k + 1) = e := by
      show after1 b (afterN b c k) = e
      unfold after1
      rw [hx]
    rw [this]
    exact .nil _

/-- A machine that never panics, step by step. -/
theorem instructions_afterN (hn : ∀ n, ∃ s, run b c n = .ok s) (k : Nat) :
    ∃ l, Instructions b c l (afterN b c k) ∧ l.length = k := by
  refine instructions_steps k ?_
  induction k with
  | zero => intro j hj; omega
  | succ k ih =>
    intro j hj
    by_cases h : j < k
    · exact ih j h
    · obtain rfl : j = k := by omega
      obtain ⟨l, h1, h2⟩ := instructions_steps j ih
      cases hx : next b (afterN b c j) with
      | error p =>
        obtain ⟨s, hs⟩ := hn (totalCycles l + 1)
        rw [C12_panic.2 ⟨l, _, h1, Nat.lt_succ_self _, hx⟩] at hs
        cases hs
      | ok q => exact ⟨q, rfl⟩

/-- C85: on a bus with finitely many states a program never panics exactly if it runs into a loop. -/
theorem C85_panics_or_loops {S : Set B} (hfin : S.Finite) (hS : ClosedUnderWrites b S)
    (hc : c.address_map ∈ S) : (∀ n, ∃ s, run b c n = .ok s) ↔
      ∃ l₁ l₂ d, Instructions b c l₁ d ∧ l₂ ≠ [] ∧ Instructions b d l₂ d := by
  constructor
  · intro hn
    have hmem : ∀ k, (afterN b c k).address_map ∈ S := by
      intro k
      obtain ⟨l, h1, -⟩ := instructions_afterN hn k
      exact writeAll_mem hS _ hc (C67_bus_is_stores h1)
    obtain ⟨i, -, j, -, hne, he⟩ := Set.infinite_univ.exists_ne_map_eq_of_mapsTo
      (f := fun k : Nat => afterN b c k) (t := {c : Mos6502 B | c.address_map ∈ S})
      (fun k _ => hmem k) (machines_finite hfin)
    have key : ∀ i j, i < j → afterN b c i = afterN b c j →
        ∃ l₁ l₂ d, Instructions b c l₁ d ∧ l₂ ≠ [] ∧ Instructions b d l₂ d := by
      intro i j hij he
      obtain ⟨l, h1, h2⟩ := instructions_afterN hn i
      obtain ⟨l', h3, h4⟩ := instructions_afterN hn j
      obtain ⟨l₂, rfl, h5⟩ := instructions_split h1 h3 (by omega)
      rw [← he] at h5
      refine ⟨l, l₂, _, h1, ?_, h5⟩
      rintro rfl
      simp at h4
      omega
    rcases Nat.lt_or_gt_of_ne hne with h | h
    · exact key i j h he
    · exact key j i h he.symm
  · rintro ⟨l₁, l₂, d, h1, h2, h3⟩ n
    obtain ⟨s, hs⟩ := C85_never_panics h3 h2 n
    rw [← run_add h1] at hs
    cases hr : run b c n with
    | ok s => exact ⟨s, rfl⟩
    | error p =>
      obtain ⟨l', d', e1, e2, e3⟩ := C12_panic.1 hr
      rw [C12_panic.2 ⟨l', d', e1, by omega, e3⟩] at hs
      cases hs

/-- C85: then, from some number of cycles on, `run` depends on the number of cycles modulo a period
only. -/
theorem C85_period {S : Set B} (hfin : S.Finite) (hS : ClosedUnderWrites b S)
    (hc : c.address_map ∈ S) (hn : ∀ n, ∃ s, run b c n = .ok s) :
    ∃ m t, 0 < t ∧ ∀ n, m ≤ n → run b c (n + t) = run b c n := by
  obtain ⟨l₁, l₂, d, h1, h2, h3⟩ := (C85_panics_or_loops hfin hS hc).1 hn
  refine ⟨totalCycles l₁, totalCycles l₂, ?_, fun n hm => ?_⟩
  · cases h3 with
    | nil => exact absurd rfl h2
    | cons hx _ =>
      have := (C77_cycles hx).1
      rw [totalCycles_cons]
      omega
  · obtain ⟨k, rfl⟩ := Nat.exists_eq_add_of_le hm
    rw [Nat.add_assoc, run_add h1, run_add h1, Nat.add_comm k, run_add h3]

end

/-- C85 on 64K of RAM. -/
theorem C85_flat {b : Build} (c : Mos6502 FlatRam) : (∃ n p, run b c n = .error p) ∨
    ∃ m t, 0 < t ∧ ∀ n, m ≤ n → run b c (n + t) = run b c n := by
  by_cases h : ∃ n p, run b c n = .error p
  · exact .inl h
  · refine .inr (C85_period flatRam_finite (fun _ _ _ _ _ _ _ => Set.mem_univ _) (Set.mem_univ _) fun n => ?_)
    cases hr : run b c n with
    | ok s => exact ⟨s, rfl⟩
    | error p => exact absurd ⟨n, p, hr⟩ h

/-- C85 on the project's bus: an address map of memory segments, whatever they are. -/
theorem C85_map {b : Build} (c : Mos6502 (AddressMap Memory)) : (∃ n p, run b c n = .error p) ∨
    ∃ m t, 0 < t ∧ ∀ n, m ≤ n → run b c (n + t) = run b c n := by
  by_cases h : ∃ n p, run b c n = .error p
  · exact .inl h
  · refine .inr (C85_period (sameFrame_finite c.address_map) (sameFrame_closed _) rfl fun n => ?_)
    cases hr : run b c n with
    | ok s => exact ⟨s, rfl⟩
    | error p => exact absurd ⟨n, p, hr⟩ h

/-! ### Concrete cases -/

deriving instance DecidableEq for AddressMap

/-- The loop `NOP; NOP; JMP` comes back to its state, so the theorems about loops apply to it. -/
example : ∃ l, Instructions .debug (withRegs sampleRegs romMap) l (withRegs sampleRegs romMap) ∧
    l ≠ [] := by
  have h : afterN .debug (withRegs sampleRegs romMap) 3 = withRegs sampleRegs romMap := by decide +kernel
  have hk : ∀ j : Fin 3, (next .debug (afterN .debug (withRegs sampleRegs romMap) j.val)).isOk = true := by
    decide +kernel
  obtain ⟨l, h1, h2⟩ := instructions_steps (b := .debug) (c := withRegs sampleRegs romMap) 3 fun j hj => by
    have := hk ⟨j, hj⟩
    cases hx : next .debug (afterN .debug (withRegs sampleRegs romMap) j) with
    | error p => rw [hx] at this; cases this
    | ok q => exact ⟨q, rfl⟩
  rw [h] at h1
  exact ⟨l, h1, by rintro rfl; cases h2⟩

/-- A program that panics instead: it stores to read-only memory. -/
example : (run .debug (withRegs sampleRegs storeMap) 10).isOk = false := by decide +kernel

end Verif.Props
