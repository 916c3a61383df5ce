import Verif.Spec.FlowTimed
import Verif.Proofs.Flow

/-!
# The running time of structured programs over any actions, on any machine
-/

namespace Verif.Flow

open Verif.Spec.Flow

/-- A machine on which the parts of the code work and take the given times. `time n s t` says: from
`s` to `t` in the time `n`. -/
structure TWorks {A G V W S M : Type} [Zero M] [Add M] (D : Meaning A G V) (T : Target A G W) (k : Times A G V M)
    (time : M → S → S → Prop) (rel : V → Nat → S → Prop) (code : Nat → List W → Prop) (top : Nat) : Prop where
  nil : ∀ {s}, time 0 s s
  trans : ∀ {n m s t u}, time n s t → time m t u → time (n + m) s u
  jumpSize : ∀ l, T.bytes (T.jump l) = T.jumpSize
  append : ∀ {p u v}, code p (u ++ v) → code p u ∧ code (p + T.bytes u) v
  act : ∀ {p a σ s}, code p (T.act a) → p + T.bytes (T.act a) ≤ top → rel σ p s →
    ∃ t, time (k.act a σ) s t ∧ rel (D.eval a σ) (p + T.bytes (T.act a)) t
  testTrue : ∀ {p g σ s}, code p (T.test g) → p + T.bytes (T.test g) + T.jumpSize ≤ top → rel σ p s → D.holds g σ →
    ∃ t, time (k.testTrue p g) s t ∧ rel σ (p + T.bytes (T.test g) + T.jumpSize) t
  testFalse : ∀ {p g σ s}, code p (T.test g) → p + T.bytes (T.test g) + T.jumpSize ≤ top → rel σ p s → ¬ D.holds g σ →
    ∃ t, time (k.testFalse p g) s t ∧ rel σ (p + T.bytes (T.test g)) t
  jump : ∀ {p l σ s}, code p (T.jump l) → p + T.jumpSize ≤ top → l ≤ top → rel σ p s →
    ∃ t, time k.jump s t ∧ rel σ l t

section
variable {A G V W S M : Type} [Zero M] [Add M] {D : Meaning A G V} {T : Target A G W} {k : Times A G V M}
  {time : M → S → S → Prop} {rel : V → Nat → S → Prop} {code : Nat → List W → Prop} {top : Nat}

/-- The code of a program takes as long as counted. -/
theorem takes_reaches (hw : TWorks D T k time rel code top) {p : Nat} {c : Flow A G} {σ σ' : V} {n : M}
    (h : Takes D T k p c σ n σ') : ∀ {s : S}, code p (T.compile p c) → p + T.size c ≤ top → rel σ p s →
    ∃ t, time n s t ∧ rel σ' (p + T.size c) t := by
  have hsize : ∀ (c : Flow A G) (p : Nat), T.bytes (T.compile p c) = T.size c := compile_size hw.jumpSize
  induction h with
  | skip => intro s _ _ hs; exact ⟨s, hw.nil, hs⟩
  | act => intro s hc hp hs; exact hw.act hc hp hs
  | seq _ _ ih ih' =>
    intro s hc hp hs
    simp only [Target.compile] at hc
    simp only [Target.size] at hp ⊢
    obtain ⟨h1, h2⟩ := hw.append hc
    rw [hsize] at h2
    obtain ⟨t, ht, hr⟩ := ih h1 (by omega) hs
    obtain ⟨u, hu, hr'⟩ := ih' h2 (by omega) hr
    rw [← Nat.add_assoc]
    exact ⟨u, hw.trans ht hu, hr'⟩
  | @iteTrue p g c d σ σ' n hg _ ih =>
    intro s hc hp hs
    simp only [Target.compile] at hc
    simp only [Target.size] at hp ⊢
    obtain ⟨h1, h2⟩ := hw.append hc
    obtain ⟨-, h2⟩ := hw.append h2
    rw [hw.jumpSize] at h2
    obtain ⟨h3, h4⟩ := hw.append h2
    rw [hsize] at h4
    obtain ⟨h5, -⟩ := hw.append h4
    obtain ⟨t, ht, hr⟩ := hw.testTrue h1 (by omega) hs hg
    obtain ⟨u, hu, hr⟩ := ih h3 (by omega) hr
    obtain ⟨v, hv, hr⟩ := hw.jump h5 (by omega) (by omega) hr
    refine ⟨v, hw.trans (hw.trans ht hu) hv, ?_⟩
    rw [show p + (T.bytes (T.test g) + T.jumpSize + T.size c + T.jumpSize + T.size d) =
      p + T.bytes (T.test g) + T.jumpSize + T.size c + T.jumpSize + T.size d by omega]
    exact hr
  | @iteFalse p g c d σ σ' n hg _ ih =>
    intro s hc hp hs
    simp only [Target.compile] at hc
    simp only [Target.size] at hp ⊢
    obtain ⟨h1, h2⟩ := hw.append hc
    obtain ⟨h5, h2⟩ := hw.append h2
    rw [hw.jumpSize] at h2
    obtain ⟨h3, h4⟩ := hw.append h2
    rw [hsize] at h4
    obtain ⟨-, h4⟩ := hw.append h4
    rw [hw.jumpSize] at h4
    obtain ⟨t, ht, hr⟩ := hw.testFalse h1 (by omega) hs hg
    obtain ⟨v, hv, hr⟩ := hw.jump h5 (by omega) (by omega) hr
    obtain ⟨u, hu, hr⟩ := ih h4 (by omega) hr
    refine ⟨u, hw.trans (hw.trans ht hv) hu, ?_⟩
    rw [show p + (T.bytes (T.test g) + T.jumpSize + T.size c + T.jumpSize + T.size d) =
      p + T.bytes (T.test g) + T.jumpSize + T.size c + T.jumpSize + T.size d by omega]
    exact hr
  | loopTrue hg _ _ ih ih' =>
    intro s hc hp hs
    have hc' := hc
    have hp' := hp
    simp only [Target.compile] at hc
    simp only [Target.size] at hp
    obtain ⟨h1, h2⟩ := hw.append hc
    obtain ⟨-, h2⟩ := hw.append h2
    rw [hw.jumpSize] at h2
    obtain ⟨h3, h4⟩ := hw.append h2
    rw [hsize] at h4
    obtain ⟨t, ht, hr⟩ := hw.testTrue h1 (by omega) hs hg
    obtain ⟨u, hu, hr⟩ := ih h3 (by omega) hr
    obtain ⟨v, hv, hr⟩ := hw.jump h4 (by omega) (by omega) hr
    obtain ⟨w, hw', hr⟩ := ih' hc' hp' hr
    exact ⟨w, hw.trans (hw.trans (hw.trans ht hu) hv) hw', hr⟩
  | @loopFalse p g c σ hg =>
    intro s hc hp hs
    simp only [Target.compile] at hc
    simp only [Target.size] at hp ⊢
    obtain ⟨h1, h2⟩ := hw.append hc
    obtain ⟨h5, -⟩ := hw.append h2
    obtain ⟨t, ht, hr⟩ := hw.testFalse h1 (by omega) hs hg
    obtain ⟨v, hv, hr⟩ := hw.jump h5 (by omega) (by omega) hr
    refine ⟨v, hw.trans ht hv, ?_⟩
    rw [show p + (T.bytes (T.test g) + T.jumpSize + T.size c + T.jumpSize) =
      p + T.bytes (T.test g) + T.jumpSize + T.size c + T.jumpSize by omega]
    exact hr

/-- A program that ends has a running time, at every address. -/
theorem exec_takes {K : Costs A G} {c : Flow A G} {σ σ' : V} {n : Nat} (h : Exec D K c σ n σ') :
    ∀ p, ∃ t, Takes D T k p c σ t σ' := by
  induction h with
  | skip => exact fun p => ⟨_, .skip⟩
  | act => exact fun p => ⟨_, .act⟩
  | seq _ _ ih ih' =>
    intro p
    obtain ⟨t, ht⟩ := ih p
    obtain ⟨u, hu⟩ := ih' (p + T.size _)
    exact ⟨_, .seq ht hu⟩
  | iteTrue hg _ ih => intro p; obtain ⟨t, ht⟩ := ih _; exact ⟨_, .iteTrue hg ht⟩
  | iteFalse hg _ ih => intro p; obtain ⟨t, ht⟩ := ih _; exact ⟨_, .iteFalse hg ht⟩
  | loopTrue hg _ _ ih ih' =>
    intro p
    obtain ⟨t, ht⟩ := ih _
    obtain ⟨u, hu⟩ := ih' p
    exact ⟨_, .loopTrue hg ht hu⟩
  | loopFalse hg => exact fun p => ⟨_, .loopFalse hg⟩

/-- A program with a running time ends. -/
theorem takes_exec {K : Costs A G} {p : Nat} {c : Flow A G} {σ σ' : V} {t : M} (h : Takes D T k p c σ t σ') :
    ∃ n, Exec D K c σ n σ' := by
  induction h with
  | skip => exact ⟨_, .skip⟩
  | act => exact ⟨_, .act⟩
  | seq _ _ ih ih' =>
    obtain ⟨n, h⟩ := ih
    obtain ⟨m, h'⟩ := ih'
    exact ⟨_, .seq h h'⟩
  | iteTrue hg _ ih => obtain ⟨n, h⟩ := ih; exact ⟨_, .iteTrue hg h⟩
  | iteFalse hg _ ih => obtain ⟨n, h⟩ := ih; exact ⟨_, .iteFalse hg h⟩
  | loopTrue hg _ _ ih ih' =>
    obtain ⟨n, h⟩ := ih
    obtain ⟨m, h'⟩ := ih'
    exact ⟨_, .loopTrue hg h h'⟩
  | loopFalse hg => exact ⟨_, .loopFalse hg⟩

/-- A program at an address has one result and one running time. -/
theorem takes_unique {c : Flow A G} {p : Nat} {σ σ₁ σ₂ : V} {n m : M} (h : Takes D T k p c σ n σ₁)
    (h' : Takes D T k p c σ m σ₂) : n = m ∧ σ₁ = σ₂ := by
  induction h generalizing m σ₂ with
  | skip => cases h'; exact ⟨rfl, rfl⟩
  | act => cases h'; exact ⟨rfl, rfl⟩
  | seq _ _ ih ih' =>
    cases h' with
    | seq a b =>
      obtain ⟨rfl, rfl⟩ := ih a
      obtain ⟨rfl, rfl⟩ := ih' b
      exact ⟨rfl, rfl⟩
  | iteTrue hg _ ih =>
    cases h' with
    | iteTrue _ a => obtain ⟨rfl, rfl⟩ := ih a; exact ⟨rfl, rfl⟩
    | iteFalse hg' _ => exact absurd hg hg'
  | iteFalse hg _ ih =>
    cases h' with
    | iteTrue hg' _ => exact absurd hg' hg
    | iteFalse _ a => obtain ⟨rfl, rfl⟩ := ih a; exact ⟨rfl, rfl⟩
  | loopTrue hg _ _ ih ih' =>
    cases h' with
    | loopTrue _ a b =>
      obtain ⟨rfl, rfl⟩ := ih a
      obtain ⟨rfl, rfl⟩ := ih' b
      exact ⟨rfl, rfl⟩
    | loopFalse hg' => exact absurd hg hg'
  | loopFalse hg =>
    cases h' with
    | loopTrue hg' _ _ => exact absurd hg' hg
    | loopFalse _ => exact ⟨rfl, rfl⟩

end

/-- A time and a number of instructions. -/
structure Cost where
  time : Nat
  count : Nat

instance : Zero Cost := ⟨⟨0, 0⟩⟩
instance : Add Cost := ⟨fun a b => ⟨a.time + b.time, a.count + b.count⟩⟩

section
variable {A G V W : Type} {D : Meaning A G V} {T : Target A G W} {k : Times A G V Nat} {K : Costs A G}

/-- Time and instructions together. -/
def counted (k : Times A G V Nat) (K : Costs A G) : Times A G V Cost where
  act a s := ⟨k.act a s, K.act a⟩
  testTrue p g := ⟨k.testTrue p g, K.test g⟩
  testFalse p g := ⟨k.testFalse p g, K.test g⟩
  jump := ⟨k.jump, 1⟩

/-- A program with a running time executes a number of instructions in this time. -/
theorem takes_counted {p t : Nat} {c : Flow A G} {σ σ' : V} (h : Takes D T k p c σ t σ') :
    ∃ n, Exec D K c σ n σ' ∧ Takes D T (counted k K) p c σ ⟨t, n⟩ σ' := by
  induction h with
  | skip => exact ⟨_, .skip, .skip⟩
  | act => exact ⟨_, .act, .act⟩
  | seq _ _ ih ih' =>
    obtain ⟨n, h1, h2⟩ := ih
    obtain ⟨m, h3, h4⟩ := ih'
    exact ⟨_, .seq h1 h3, .seq h2 h4⟩
  | iteTrue hg _ ih => obtain ⟨n, h1, h2⟩ := ih; exact ⟨_, .iteTrue hg h1, .iteTrue hg h2⟩
  | iteFalse hg _ ih => obtain ⟨n, h1, h2⟩ := ih; exact ⟨_, .iteFalse hg h1, .iteFalse hg h2⟩
  | loopTrue hg _ _ ih ih' =>
    obtain ⟨n, h1, h2⟩ := ih
    obtain ⟨m, h3, h4⟩ := ih'
    exact ⟨_, .loopTrue hg h1 h3, .loopTrue hg h2 h4⟩
  | loopFalse hg => exact ⟨_, .loopFalse hg, .loopFalse hg⟩

end

end Verif.Flow
