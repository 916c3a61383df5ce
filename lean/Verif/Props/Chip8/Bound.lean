import Verif.Proofs.Chip8Bound
import Verif.Props.Mos.Bound

/-!
# C137: how long to run a CHIP-8 program to see whether it panics
-/

namespace Verif.Props.Chip8

open Verif Verif.Chip8 Verif.Spec Verif.Spec.Chip8
open Verif.Mos (ClosedUnderWrites pigeons sameRom sameRom_card sameRom_closed)

variable {B R : Type} [Addressable B] {b : Build} {env : Nat → Env} {c : Chip8 B R}

/-- A panic of the iterator stays. -/
theorem iterates_stays {n m : Nat} {p : Panic} (hnm : n ≤ m) (h : iterates b env n 0 c = .error p) :
    iterates b env m 0 c = .error p := by
  obtain ⟨k, rfl⟩ := Nat.exists_eq_add_of_le hnm
  rw [iterates_add, h]
  rfl

theorem run_error_iff {n : Nat} {p : Panic} :
    run b env c n = .error p ↔ iterates b env n 0 c = .error p := by
  rcases C59_iterator_agrees_partial (b := b) (env := env) (cpu := c) n with
    ⟨q, h1, h2⟩ | ⟨i, y, h1, h2, -⟩ <;> rw [h1, h2]
  · simp
  · simp

/-- C137: a panic stays, in every world. -/
theorem C137_chip8_panic_stays {n m : Nat} {p : Panic} (hnm : n ≤ m) (h : run b env c n = .error p) :
    run b env c m = .error p := run_error_iff.2 (iterates_stays hnm (run_error_iff.1 h))

theorem within_world {S : Set B} (hS : ClosedUnderWrites b S) {cap len : Nat} {r : R}
    (hc : Within S Set.univ cap len r c) (n : Nat) {d : Chip8 B R}
    (h : iterates b env n 0 c = .ok d) : Within S Set.univ cap len r d := by
  induction n generalizing d with
  | zero => cases h; exact hc
  | succ n ih =>
    rw [iterates_add] at h
    obtain ⟨d', h1, h2⟩ := bind_ok h
    obtain ⟨⟨l, x⟩, h3, h4⟩ := bind_ok h2
    cases h4
    exact within_next hS (Set.mem_univ _) (ih h1) h3

/-- A machine that executes as many instructions as it has states, without a panic, comes back to a
state within them, but for the instants. -/
theorem returns {S : Set B} (hfin : S.Finite) (hS : ClosedUnderWrites b S) (hc : c.address_space ∈ S)
    {s : StepState (Chip8 B R)}
    (h : run b env c (chip8States c.stack.inner.length S.ncard) = .ok s) :
    ∃ m t d d', 0 < t ∧ m + t ≤ chip8States c.stack.inner.length S.ncard ∧
      run b env c m = .ok (.ready d) ∧ run b env c (m + t) = .ok (.ready d') ∧ SameButInstants d d' := by
  generalize hN : chip8States c.stack.inner.length S.ncard = N at h ⊢
  have hok : ∀ k ≤ N, ∃ it y, iterates b env k 0 c = .ok it ∧ run b env c k = .ok (.ready y) ∧
      SameButInstants it y := by
    intro k hk
    rcases C59_iterator_agrees_partial (b := b) (env := env) (cpu := c) k with ⟨q, -, h2⟩ | h1
    · rw [C137_chip8_panic_stays hk h2] at h
      cases h
    · exact h1
  let f : Nat → Chip8 B R := fun k => match iterates b env k 0 c with
    | .ok d => timeless d
    | .error _ => c
  obtain ⟨hw1, hw2⟩ := within_card hfin c.stack.capacity c.stack.inner.length c.rng
  obtain ⟨i, j, hij, hj, he⟩ := pigeons hw1 (hN ▸ hw2) f (by
    intro k hk
    obtain ⟨it, y, h1, -, -⟩ := hok k hk
    have hw := within_world hS (cap := c.stack.capacity) (len := c.stack.inner.length) (r := c.rng)
      ⟨hc, Set.mem_univ _, Set.mem_univ _, rfl, rfl, rfl⟩ k h1
    simp only [f, h1]
    exact ⟨hw.bus, rfl, rfl, hw.capacity, hw.length, hw.rng⟩)
  obtain ⟨x, y, h1, h2, h3⟩ := hok i (by omega)
  obtain ⟨x', y', h4, h5, h6⟩ := hok j hj
  simp only [f, h1, h4] at he
  refine ⟨i, j - i, y, y', by omega, by omega, h2, ?_, ?_⟩
  · rw [show i + (j - i) = j by omega]
    exact h5
  · exact same_chain (same_swap h3) (same_chain (timeless_same he) h6)

/-- C137: on a bus with `k` states, a program that panics at all panics within as many instructions as
the machine has states, provided that none of these asks the clock or the generator. -/
theorem C137_chip8_panics {S : Set B} (hfin : S.Finite) (hS : ClosedUnderWrites b S)
    (hc : c.address_space ∈ S)
    (ha : ∀ k < chip8States c.stack.inner.length S.ncard, ∀ it op,
      iterates b env k 0 c = .ok it → At b it op → AsksNothing op)
    {n : Nat} {p : Panic} (h : run b env c n = .error p) :
    run b env c (chip8States c.stack.inner.length S.ncard) = .error p := by
  cases hr : run b env c (chip8States c.stack.inner.length S.ncard) with
  | error q =>
    rcases Nat.le_total n (chip8States c.stack.inner.length S.ncard) with hn | hn
    · rw [C137_chip8_panic_stays hn h] at hr
      exact hr.symm
    · rw [C137_chip8_panic_stays hn hr] at h
      exact h
  | ok s =>
    obtain ⟨m, t, d, d', h1, h2, h3, h4, h5⟩ := returns hfin hS hc hr
    obtain ⟨x, -, h6, -⟩ := C98_returns h1 (fun k hk => ha k (by omega)) h3 h4 h5 (m + n) (by omega)
    rw [C137_chip8_panic_stays (by omega) h] at h6
    cases h6

/-- C137: and a program that does not panic within so many instructions has been through its loop,
and goes on in it, whatever the world does. -/
theorem C137_chip8_loops {S : Set B} (hfin : S.Finite) (hS : ClosedUnderWrites b S)
    (hc : c.address_space ∈ S)
    (ha : ∀ k < chip8States c.stack.inner.length S.ncard, ∀ it op,
      iterates b env k 0 c = .ok it → At b it op → AsksNothing op)
    {s : StepState (Chip8 B R)} (h : run b env c (chip8States c.stack.inner.length S.ncard) = .ok s) :
    ∃ m t, 0 < t ∧ m + t ≤ chip8States c.stack.inner.length S.ncard ∧ ∀ n, m ≤ n → ∃ x x',
      run b env c n = .ok (.ready x) ∧ run b env c (n + t) = .ok (.ready x') ∧ SameButInstants x x' := by
  obtain ⟨m, t, d, d', h1, h2, h3, h4, h5⟩ := returns hfin hS hc h
  exact ⟨m, t, h1, h2, C98_returns h1 (fun k hk => ha k (by omega)) h3 h4 h5⟩

theorem chip8States_mono {len j k : Nat} (h : j ≤ k) : chip8States len j ≤ chip8States len k :=
  Nat.mul_le_mul_left _ h

/-- C137 on the project's bus, with ROM of any size. -/
theorem C137_chip8_map {c : Chip8 (AddressMap Memory) R}
    (ha : ∀ k < chip8States c.stack.inner.length (256 ^ ramBytes c.address_space), ∀ it op,
      iterates b env k 0 c = .ok it → At b it op → AsksNothing op)
    {n : Nat} {p : Panic} (h : run b env c n = .error p) :
    run b env c (chip8States c.stack.inner.length (256 ^ ramBytes c.address_space)) = .error p := by
  obtain ⟨h1, h2⟩ := sameRom_card c.address_space
  have hle := chip8States_mono (len := c.stack.inner.length) h2
  exact C137_chip8_panic_stays hle (C137_chip8_panics h1 (sameRom_closed _) rfl
    (fun k hk => ha k (by omega)) h)

/-- C137: in a world that does not change no such proviso is needed: there the clock and the generator
always answer the same. -/
theorem C137_chip8_still {S : Set B} (hfin : S.Finite) (hS : ClosedUnderWrites b S)
    (hc : c.address_space ∈ S) (e : Env) (hdt : c.dt.written_at = e.iterAt) (hst : c.st.written_at = e.iterAt)
    {n : Nat} {p : Panic} (h : run b (fun _ => e) c n = .error p) :
    run b (fun _ => e) c (chip8States c.stack.inner.length S.ncard) = .error p := by
  cases hr : run b (fun _ => e) c (chip8States c.stack.inner.length S.ncard) with
  | error q =>
    rcases Nat.le_total n (chip8States c.stack.inner.length S.ncard) with hn | hn
    · rw [C137_chip8_panic_stays hn h] at hr
      exact hr.symm
    · rw [C137_chip8_panic_stays hn hr] at h
      exact h
  | ok s =>
    obtain ⟨m, t, d, d', h1, h2, h3, h4, h5⟩ := returns hfin hS hc hr
    have toIter : ∀ {k : Nat} {y : Chip8 B R}, run b (fun _ => e) c k = .ok (.ready y) →
        ∃ x, iterates b (fun _ => e) k 0 c = .ok x ∧ SameButInstants x y := by
      intro k y hy
      rcases C59_iterator_agrees_partial (b := b) (env := fun _ => e) (cpu := c) k with
        ⟨q, -, h2⟩ | ⟨i, y', h1, h2, h3⟩
      · rw [hy] at h2; cases h2
      · rw [hy] at h2; cases h2
        exact ⟨i, h1, h3⟩
    obtain ⟨x, i1, s1⟩ := toIter h3
    obtain ⟨x', i2, s2⟩ := toIter h4
    have hw : Within S {e.iterAt} c.stack.capacity c.stack.inner.length c.rng c :=
      ⟨hc, hdt, hst, rfl, rfl, rfl⟩
    have w1 := within_iterates hS (Set.mem_singleton _) hw m i1
    have w2 := within_iterates hS (Set.mem_singleton _) hw (m + t) i2
    have hx : x = x' := by
      obtain ⟨u, v, hs⟩ := same_chain s1 (same_chain h5 (same_swap s2))
      subst hs
      have g1 : x.dt.written_at = e.iterAt := w1.dt
      have g2 : x.st.written_at = e.iterAt := w1.st
      have g3 : u = e.iterAt := w2.dt
      have g4 : v = e.iterAt := w2.st
      rw [g3, g4, ← g1]
      conv_rhs => rw [g1, ← g2]
      obtain ⟨s, m, ⟨d1, d2⟩, ⟨s1, s2⟩, pc, sp, i, gp, dis, int, rng⟩ := x
      simp only at g1 g2
      subst g1 g2
      rfl
    subst hx
    have hback : ∀ k, iterates b (fun _ => e) (m + k * t) 0 c = .ok x := by
      intro k
      induction k with
      | zero => simpa using i1
      | succ k ih =>
        rw [Nat.succ_mul, ← Nat.add_assoc, still_add, ih]
        rw [still_add, i1] at i2
        exact i2
    have hge : n ≤ m + n * t := Nat.le_trans (Nat.le_mul_of_pos_right n h1) (Nat.le_add_left _ _)
    have := iterates_stays hge (run_error_iff.1 h)
    rw [hback] at this
    cases this

/-! ### Concrete cases -/

/-- `beeper`, which asks nothing, never panics: it is in its loop by then, in every world. -/
example : ∃ m t, 0 < t ∧ m + t ≤ chip8States beeper.stack.inner.length (Set.univ : Set Mos.FlatRam).ncard ∧ ∀ n, m ≤ n → ∃ x x',
    run b env beeper n = .ok (.ready x) ∧ run b env beeper (n + t) = .ok (.ready x') ∧
      SameButInstants x x' := by
  have hok : ∀ n, ∃ s, run b env beeper n = .ok s := by
    intro n
    cases h : run b env beeper n with
    | ok s => exact ⟨s, rfl⟩
    | error p =>
      obtain ⟨f, st, h2⟩ := beep_iterates (b := b) (env := env) n 0 true beeper.st
      have := run_error_iff.1 h
      rw [show beeper = beepAt true beeper.st from rfl, h2] at this
      cases this
  obtain ⟨s, hs⟩ := hok (chip8States beeper.stack.inner.length (Set.univ : Set Mos.FlatRam).ncard)
  exact C137_chip8_loops Mos.flatRam_finite (fun _ _ _ _ _ _ _ => Set.mem_univ _) (Set.mem_univ _)
    (fun k _ => beep_asks k) hs

/-- `VF := 1` panics at once, in every world, so it does after as many instructions as the machine has
states. -/
example : ∃ p, run .debug env (place sample (.LdImmediate .Vf 1))
    (chip8States (place sample (.LdImmediate .Vf 1)).stack.inner.length
      (Set.univ : Set Mos.FlatRam).ncard) = .error p := by
  have h1 : ∃ p, iterates .debug env 1 0 (place sample (.LdImmediate .Vf 1)) = .error p := by
    cases h : iterates .debug env 1 0 (place sample (.LdImmediate .Vf 1)) with
    | error p => exact ⟨p, rfl⟩
    | ok d =>
      have : (iterates .debug env 1 0 (place sample (.LdImmediate .Vf 1))).isOk = false := rfl
      rw [h] at this
      cases this
  obtain ⟨p, hp⟩ := h1
  refine ⟨p, C137_chip8_panics Mos.flatRam_finite (fun _ _ _ _ _ _ _ => Set.mem_univ _) (Set.mem_univ _)
    ?_ (run_error_iff.2 hp)⟩
  intro k _ it op hk hop
  cases k with
  | zero =>
    cases hk
    have : op = .LdImmediate .Vf 1 := by
      have h : At .debug (place sample (.LdImmediate .Vf 1)) (.LdImmediate .Vf 1) := rfl
      exact (Except.ok.inj (h.symm.trans hop)).symm
    subst this
    exact ⟨fun _ => nofun, fun _ _ => nofun⟩
  | succ k => rw [iterates_stays (by omega) hp] at hk; cases hk

/-- The same program in ROM, with both timers written at the instant 9. -/
def romSample : Chip8 (AddressMap Memory) Unit where
  stack := Ring.new 16
  address_space := ⟨[(⟨0x200, 0x201⟩, ⟨.readOnly, 0x200, 0x201, [0x6f, 1]⟩)]⟩
  dt := ⟨9, 3⟩
  st := ⟨9, 5⟩
  pc := 0x200
  sp := ⟨3⟩
  i := 0x300
  gp_registers := sample.gp_registers
  display := sample.display
  interrupt := none
  rng := ()

/-- Non-vacuity of `C137_chip8_map`. -/
example : ∃ p, run .debug env romSample 1 = .error p ∧ run .debug env romSample
    (chip8States romSample.stack.inner.length (256 ^ ramBytes romSample.address_space)) = .error p := by
  have hp : iterates .debug env 1 0 romSample = .error .bounds := rfl
  refine ⟨_, run_error_iff.2 hp, C137_chip8_map ?_ (run_error_iff.2 hp)⟩
  intro k _ it op hk hop
  cases k with
  | zero =>
    cases hk
    have h : At .debug romSample (.LdImmediate .Vf 1) := rfl
    have := Except.ok.inj (h.symm.trans hop)
    subst this
    exact ⟨fun _ => nofun, fun _ _ => nofun⟩
  | succ k => rw [iterates_stays (by omega) hp] at hk; cases hk

/-- Non-vacuity of `C137_chip8_still`. -/
example : ∃ p, run .debug (fun _ => ⟨7, 8, 9, 10⟩) romSample 1 = .error p ∧
    run .debug (fun _ => ⟨7, 8, 9, 10⟩) romSample
      (chip8States romSample.stack.inner.length (sameRom romSample.address_space).ncard) = .error p := by
  have hp : iterates .debug (fun _ => ⟨7, 8, 9, 10⟩) 1 0 romSample = .error .bounds := rfl
  exact ⟨_, run_error_iff.2 hp, C137_chip8_still (sameRom_card _).1 (sameRom_closed _) rfl _ rfl rfl
    (run_error_iff.2 hp)⟩

end Verif.Props.Chip8
