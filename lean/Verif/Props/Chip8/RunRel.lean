import Verif.Props.Chip8.Uses

/-!
# Two CHIP-8 machines side by side

If every instruction keeps a relation between two machines, so does `run`, although it executes every
instruction on two copies of the machine and the clock may move in between.
-/

namespace Verif.Props.Chip8

open Verif Verif.Chip8 Verif.Spec.Chip8

variable {B B' R R' : Type} [Addressable B] [Addressable B'] {b : Build} {env : Nat → Env}

/-- `Rel k` relates the machines after `k` instructions, and does not allow different delay timers. `hst`
is about every state that differs from the one after `k` instructions in the instants at which the timers
were written only. -/
theorem run_related {Rel : Nat → Chip8 B R → Chip8 B' R' → Prop} {c c' : Chip8 B R} {d : Chip8 B' R'}
    {n : Nat} (hdt : ∀ k c d, Rel k c d → d.dt = c.dt)
    (hst : ∀ k c1 it it' d1 e, k < n → run b env c k = .ok (.ready c1) → SameButInstants it c1 →
      Rel k it d1 → StepsTo b e it it' → ∃ d', StepsTo b e d1 d' ∧ Rel (k + 1) it' d')
    (h0 : Rel 0 c d) (hr : run b env c n = .ok (.ready c')) :
    ∃ d', run b env d n = .ok (.ready d') ∧ Rel n c' d' := by
  suffices H : ∃ it it2 d', iterates b env n 0 c = .ok it ∧ iterates b env n 0 d = .ok it2 ∧
      runLoop b env n 0 d d = .ok d' ∧ SameButInstants it c' ∧ SameButInstants it2 d' ∧
      Rel n it it2 ∧ Rel n c' d' by
    obtain ⟨it, it2, d', -, -, h1, -, -, -, h2⟩ := H
    exact ⟨d', run_ok_iff.2 h1, h2⟩
  rw [run_ok_iff] at hr
  induction n generalizing c' with
  | zero =>
    cases hr
    exact ⟨c, d, d, rfl, rfl, rfl, same_refl c, same_refl d, h0, h0⟩
  | succ n ih =>
    rcases same_loop (b := b) (env := env) n 0 (same_refl c) with ⟨p, h1, -⟩ | ⟨it, c1, h1, h2, h3⟩
    · rw [runLoop_last n 0 (same_refl c), h1] at hr
      cases hr
    obtain ⟨it', it2, d1, i1, i2, i3, i4, i5, i6, i7⟩ :=
      ih (fun k c1 it it' d1 e hk => hst k c1 it it' d1 e (by omega)) h2
    rw [h1] at i1
    cases i1
    rcases same_loop (b := b) (env := env) (n + 1) 0 (same_refl c) with
      ⟨p, -, j1⟩ | ⟨it', c1', j1, j2, j3⟩
    · rw [hr] at j1
      cases j1
    rw [hr] at j2
    cases j2
    rw [iterates_step n h1] at j1
    rw [runLoop_step n h1 h2 h3, ← stepsTo_next rfl] at hr
    have hit : StepsTo b { env n with foldAt := (env n).iterAt } it it' := (stepsTo_next rfl).2 j1
    obtain ⟨d', r1, r2⟩ := hst n c1 c1 c' d1 _ (by omega) (run_ok_iff.2 h2) (same_refl c1) i7 hr
    obtain ⟨it2', s1, s2⟩ := hst n c1 it it' it2 _ (by omega) (run_ok_iff.2 h2) h3 i6 hit
    have hsh : shifted (env n) it2 d1 = shifted (env n) it c1 := by
      unfold shifted
      rw [hdt _ _ _ i6, hdt _ _ _ i7]
    have hr1 : runLoop b env (n + 1) 0 d d = .ok d' := by
      rw [runLoop_step n i2 i3 i5, hsh]
      exact (stepsTo_next rfl).1 r1
    have hr2 : iterates b env (n + 1) 0 d = .ok it2' := by
      rw [iterates_step n i2]
      exact (stepsTo_next (e := { env n with foldAt := (env n).iterAt }) rfl).1 s1
    have hs2 : SameButInstants it2' d' := by
      rcases same_loop (b := b) (env := env) (n + 1) 0 (same_refl d) with ⟨p, z1, -⟩ | ⟨x, y, z1, z2, z3⟩
      · rw [hr2] at z1
        cases z1
      · rw [hr2] at z1
        rw [hr1] at z2
        cases z1
        cases z2
        exact z3
    exact ⟨it', it2', d', by rw [iterates_step n h1]; exact j1, hr2, hr1, j3, hs2, s2, r2⟩

end Verif.Props.Chip8
