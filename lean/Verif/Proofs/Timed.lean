import Verif.Spec.Timed
import Verif.Proofs.Recursive

/-!
# The running time of recursive programs on any machine with a stack
-/

namespace Verif.Recursive

open Verif.Spec.Structured Verif.Spec.Recursive Verif.Structured

/-- A machine on which the parts of the code work and take the given times. `time n s t` says: from
`s` to `t` in the time `n`. -/
structure TWorks {ι W S M : Type} [DecidableEq ι] [Zero M] [Add M] (T : RTarget ι W) (k : Times ι M)
    (time : M → S → S → Prop)
    (rel : List Frame → Store ι → Nat → S → Prop) (code : Nat → List W → Prop) (top cap : Nat) : Prop where
  nil : ∀ {s}, time 0 s s
  trans : ∀ {n m s t u}, time n s t → time m t u → time (n + m) s u
  jumpSize : ∀ l, T.bytes (T.jump l) = T.jumpSize
  callSize : ∀ l, T.bytes (T.call l) = T.callSize
  append : ∀ {p u v}, code p (u ++ v) → code p u ∧ code (p + T.bytes u) v
  act : ∀ {p a fs σ s}, code p (T.act a) → p + T.bytes (T.act a) ≤ top → rel fs σ p s →
    ∃ t, time (k.act a) s t ∧ rel fs (a.eval σ) (p + T.bytes (T.act a)) t
  test : ∀ {p g fs σ s}, code p (T.test g) → p + T.bytes (T.test g) + T.jumpSize ≤ top → rel fs σ p s →
    ∃ t, time (if g.Holds σ then k.testTrue p g else k.testFalse p g) s t ∧
      rel fs σ (if g.Holds σ then p + T.bytes (T.test g) + T.jumpSize else p + T.bytes (T.test g)) t
  jump : ∀ {p l fs σ s}, code p (T.jump l) → p + T.jumpSize ≤ top → l ≤ top → rel fs σ p s →
    ∃ t, time k.jump s t ∧ rel fs σ l t
  call : ∀ {p e fs σ s}, code p (T.call e) → p + T.callSize ≤ top → e ≤ top → room fs + 2 ≤ cap →
    rel fs σ p s → ∃ t, time k.call s t ∧ rel (.ret (p + T.callSize) :: fs) σ e t
  ret : ∀ {p r fs σ s}, code p T.ret → p + T.bytes T.ret ≤ top → rel (.ret r :: fs) σ p s →
    ∃ t, time k.ret s t ∧ rel fs σ r t
  save : ∀ {p x fs σ s}, code p (T.save x) → p + T.bytes (T.save x) ≤ top → room fs + 1 ≤ cap →
    rel fs σ p s → ∃ t, time k.save s t ∧ rel (.val (σ x) :: fs) σ (p + T.bytes (T.save x)) t
  restore : ∀ {p x v fs σ s}, code p (T.restore x) → p + T.bytes (T.restore x) ≤ top →
    rel (.val v :: fs) σ p s → ∃ t, time k.restore s t ∧ rel fs (put σ x v) (p + T.bytes (T.restore x)) t

section
variable {ι φ W S M : Type} [DecidableEq ι] [Zero M] [Add M] {T : RTarget ι W} {k : Times ι M}
  {time : M → S → S → Prop}
  {rel : List Frame → Store ι → Nat → S → Prop} {code : Nat → List W → Prop} {top cap : Nat}
  {body : φ → Prog ι φ} {entry : φ → Nat} {In : Nat → Prop}

/-- The code of a program takes as long as counted. -/
theorem takes_reaches (hw : TWorks T k time rel code top cap) (hl : Loaded T code top body entry In)
    {d p : Nat} {c : Prog ι φ} {σ σ' : Store ι} {n : M} (h : Takes T k body entry d p c σ n σ') :
    ∀ {s : S} {fs : List Frame}, code p (T.compile entry p c) → p + T.size c ≤ top →
    room fs + d ≤ cap → rel fs σ p s → ∃ t, time n s t ∧ rel fs σ' (p + T.size c) t := by
  have hsize : ∀ (c : Prog ι φ) (p : Nat), T.bytes (T.compile entry p c) = T.size c :=
    rcompile_size hw.jumpSize hw.callSize
  induction h with
  | skip => intro s fs _ _ _ hs; exact ⟨s, hw.nil, hs⟩
  | act => intro s fs hc hp _ hs; exact hw.act hc hp hs
  | seq _ _ ih ih' =>
    intro s fs hc hp hd hs
    simp only [RTarget.compile] at hc
    simp only [RTarget.size] at hp ⊢
    obtain ⟨h1, h2⟩ := hw.append hc
    rw [hsize] at h2
    obtain ⟨t, ht, hr⟩ := ih h1 (by omega) hd hs
    obtain ⟨u, hu, hr'⟩ := ih' h2 (by omega) hd hr
    rw [← Nat.add_assoc]
    exact ⟨u, hw.trans ht hu, hr'⟩
  | @iteTrue d p g c c' s s' n hg _ ih =>
    intro s fs hc hp hd hs
    simp only [RTarget.compile] at hc
    simp only [RTarget.size] at hp ⊢
    obtain ⟨h1, h2⟩ := hw.append hc
    obtain ⟨-, h2⟩ := hw.append h2
    rw [hw.jumpSize] at h2
    obtain ⟨h3, h4⟩ := hw.append h2
    rw [hsize] at h4
    obtain ⟨h5, -⟩ := hw.append h4
    obtain ⟨t, ht, hr⟩ := hw.test h1 (by omega) hs
    rw [if_pos hg] at ht
    rw [if_pos hg] at hr
    obtain ⟨u, hu, hr⟩ := ih h3 (by omega) hd hr
    obtain ⟨v, hv, hr⟩ := hw.jump h5 (by omega) (by omega) hr
    refine ⟨v, hw.trans (hw.trans ht hu) hv, ?_⟩
    rw [show p + (T.bytes (T.test g) + T.jumpSize + T.size c + T.jumpSize + T.size c') =
      p + T.bytes (T.test g) + T.jumpSize + T.size c + T.jumpSize + T.size c' by omega]
    exact hr
  | @iteFalse d p g c c' s s' n hg _ ih =>
    intro s fs hc hp hd hs
    simp only [RTarget.compile] at hc
    simp only [RTarget.size] at hp ⊢
    obtain ⟨h1, h2⟩ := hw.append hc
    obtain ⟨h5, h2⟩ := hw.append h2
    rw [hw.jumpSize] at h2
    obtain ⟨h3, h4⟩ := hw.append h2
    rw [hsize] at h4
    obtain ⟨-, h4⟩ := hw.append h4
    rw [hw.jumpSize] at h4
    obtain ⟨t, ht, hr⟩ := hw.test h1 (by omega) hs
    rw [if_neg hg] at ht
    rw [if_neg hg] at hr
    obtain ⟨v, hv, hr⟩ := hw.jump h5 (by omega) (by omega) hr
    obtain ⟨u, hu, hr⟩ := ih h4 (by omega) hd hr
    refine ⟨u, hw.trans (hw.trans ht hv) hu, ?_⟩
    rw [show p + (T.bytes (T.test g) + T.jumpSize + T.size c + T.jumpSize + T.size c') =
      p + T.bytes (T.test g) + T.jumpSize + T.size c + T.jumpSize + T.size c' by omega]
    exact hr
  | loopTrue hg _ _ ih ih' =>
    intro s fs hc hp hd hs
    have hc' := hc
    have hp' := hp
    simp only [RTarget.compile] at hc
    simp only [RTarget.size] at hp
    obtain ⟨h1, h2⟩ := hw.append hc
    obtain ⟨-, h2⟩ := hw.append h2
    rw [hw.jumpSize] at h2
    obtain ⟨h3, h4⟩ := hw.append h2
    rw [hsize] at h4
    obtain ⟨t, ht, hr⟩ := hw.test h1 (by omega) hs
    rw [if_pos hg] at ht
    rw [if_pos hg] at hr
    obtain ⟨u, hu, hr⟩ := ih h3 (by omega) hd hr
    obtain ⟨v, hv, hr⟩ := hw.jump h4 (by omega) (by omega) hr
    obtain ⟨w, hw', hr⟩ := ih' hc' hp' hd hr
    exact ⟨w, hw.trans (hw.trans (hw.trans ht hu) hv) hw', hr⟩
  | @loopFalse d p g c s hg =>
    intro s fs hc hp hd hs
    simp only [RTarget.compile] at hc
    simp only [RTarget.size] at hp ⊢
    obtain ⟨h1, h2⟩ := hw.append hc
    obtain ⟨h5, -⟩ := hw.append h2
    obtain ⟨t, ht, hr⟩ := hw.test h1 (by omega) hs
    rw [if_neg hg] at ht
    rw [if_neg hg] at hr
    obtain ⟨v, hv, hr⟩ := hw.jump h5 (by omega) (by omega) hr
    refine ⟨v, hw.trans ht hv, ?_⟩
    rw [show p + (T.bytes (T.test g) + T.jumpSize + T.size c + T.jumpSize) =
      p + T.bytes (T.test g) + T.jumpSize + T.size c + T.jumpSize by omega]
    exact hr
  | @call d p f s s' n _ ih =>
    intro s fs hc hp hd hs
    have hf := hl.fits f
    obtain ⟨t, ht, hr⟩ := hw.call hc hp (by omega) (by omega) hs
    obtain ⟨h1, h2⟩ := hw.append (hl.code f)
    rw [hsize] at h2
    obtain ⟨u, hu, hr⟩ := ih h1 (by omega) (by simp only [room]; omega) hr
    obtain ⟨v, hv, hr⟩ := hw.ret h2 hf hr
    exact ⟨v, hw.trans (hw.trans ht hu) hv, hr⟩
  | @keeping d p x c s s' n _ ih =>
    intro s fs hc hp hd hs
    simp only [RTarget.compile] at hc
    simp only [RTarget.size] at hp ⊢
    obtain ⟨h1, h2⟩ := hw.append hc
    obtain ⟨h3, h4⟩ := hw.append h2
    rw [hsize] at h4
    obtain ⟨t, ht, hr⟩ := hw.save h1 (by omega) (by omega) hs
    obtain ⟨u, hu, hr⟩ := ih h3 (by omega) (by simp only [room]; omega) hr
    obtain ⟨v, hv, hr⟩ := hw.restore h4 (by omega) hr
    refine ⟨v, hw.trans (hw.trans ht hu) hv, ?_⟩
    rw [show p + (T.bytes (T.save x) + T.size c + T.bytes (T.restore x)) =
      p + T.bytes (T.save x) + T.size c + T.bytes (T.restore x) by omega]
    exact hr

/-- A program that ends has a running time, at every address. -/
theorem exec_takes {K : Costs ι} {d : Nat} {c : Prog ι φ} {σ σ' : Store ι} {n : Nat}
    (h : Exec K body d c σ n σ') : ∀ p, ∃ t, Takes T k body entry d p c σ t σ' := by
  induction h with
  | skip => exact fun p => ⟨_, .skip⟩
  | act => exact fun p => ⟨_, .act⟩
  | seq _ _ ih ih' =>
    intro p
    obtain ⟨t, ht⟩ := ih p
    obtain ⟨u, hu⟩ := ih' (p + T.size _)
    exact ⟨_, .seq ht hu⟩
  | iteTrue hg _ ih => intro p; obtain ⟨t, ht⟩ := ih _; exact ⟨_, .iteTrue hg ht⟩
  | iteFalse hg _ ih => intro p; obtain ⟨t, ht⟩ := ih _; exact ⟨_, .iteFalse hg ht⟩
  | loopTrue hg _ _ ih ih' =>
    intro p
    obtain ⟨t, ht⟩ := ih _
    obtain ⟨u, hu⟩ := ih' p
    exact ⟨_, .loopTrue hg ht hu⟩
  | loopFalse hg => exact fun p => ⟨_, .loopFalse hg⟩
  | call _ ih => intro p; obtain ⟨t, ht⟩ := ih _; exact ⟨_, .call ht⟩
  | keeping _ ih => intro p; obtain ⟨t, ht⟩ := ih _; exact ⟨_, .keeping ht⟩

/-- A program with a running time ends. -/
theorem takes_exec {K : Costs ι} {d p : Nat} {c : Prog ι φ} {σ σ' : Store ι} {t : M}
    (h : Takes T k body entry d p c σ t σ') : ∃ n, Exec K body d c σ n σ' := by
  induction h with
  | skip => exact ⟨_, .skip⟩
  | act => exact ⟨_, .act⟩
  | seq _ _ ih ih' =>
    obtain ⟨n, h⟩ := ih
    obtain ⟨m, h'⟩ := ih'
    exact ⟨_, .seq h h'⟩
  | iteTrue hg _ ih => obtain ⟨n, h⟩ := ih; exact ⟨_, .iteTrue hg h⟩
  | iteFalse hg _ ih => obtain ⟨n, h⟩ := ih; exact ⟨_, .iteFalse hg h⟩
  | loopTrue hg _ _ ih ih' =>
    obtain ⟨n, h⟩ := ih
    obtain ⟨m, h'⟩ := ih'
    exact ⟨_, .loopTrue hg h h'⟩
  | loopFalse hg => exact ⟨_, .loopFalse hg⟩
  | call _ ih => obtain ⟨n, h⟩ := ih; exact ⟨_, .call h⟩
  | keeping _ ih => obtain ⟨n, h⟩ := ih; exact ⟨_, .keeping h⟩

/-- A program at an address has one result and one running time. -/
theorem takes_unique {c : Prog ι φ} {d d' p : Nat} {σ σ₁ σ₂ : Store ι} {n m : M}
    (h : Takes T k body entry d p c σ n σ₁) (h' : Takes T k body entry d' p c σ m σ₂) : n = m ∧ σ₁ = σ₂ := by
  induction h generalizing m σ₂ d' with
  | skip => cases h'; exact ⟨rfl, rfl⟩
  | act => cases h'; exact ⟨rfl, rfl⟩
  | seq _ _ ih ih' =>
    cases h' with
    | seq a b =>
      obtain ⟨rfl, rfl⟩ := ih a
      obtain ⟨rfl, rfl⟩ := ih' b
      exact ⟨rfl, rfl⟩
  | iteTrue hg _ ih =>
    cases h' with
    | iteTrue _ a => obtain ⟨rfl, rfl⟩ := ih a; exact ⟨rfl, rfl⟩
    | iteFalse hg' _ => exact absurd hg hg'
  | iteFalse hg _ ih =>
    cases h' with
    | iteTrue hg' _ => exact absurd hg' hg
    | iteFalse _ a => obtain ⟨rfl, rfl⟩ := ih a; exact ⟨rfl, rfl⟩
  | loopTrue hg _ _ ih ih' =>
    cases h' with
    | loopTrue _ a b =>
      obtain ⟨rfl, rfl⟩ := ih a
      obtain ⟨rfl, rfl⟩ := ih' b
      exact ⟨rfl, rfl⟩
    | loopFalse hg' => exact absurd hg hg'
  | loopFalse hg =>
    cases h' with
    | loopTrue hg' _ _ => exact absurd hg' hg
    | loopFalse _ => exact ⟨rfl, rfl⟩
  | call _ ih =>
    cases h' with
    | call a => obtain ⟨rfl, rfl⟩ := ih a; exact ⟨rfl, rfl⟩
  | keeping _ ih =>
    cases h' with
    | keeping a => obtain ⟨rfl, rfl⟩ := ih a; exact ⟨rfl, rfl⟩

/-- A time and a number of instructions. -/
structure Cost where
  time : Nat
  count : Nat

instance : Zero Cost := ⟨⟨0, 0⟩⟩
instance : Add Cost := ⟨fun a b => ⟨a.time + b.time, a.count + b.count⟩⟩

/-- Time and instructions together. -/
def counted (k : Times ι Nat) (K : Costs ι) : Times ι Cost where
  act a := ⟨k.act a, K.act a⟩
  testTrue p g := ⟨k.testTrue p g, K.test g⟩
  testFalse p g := ⟨k.testFalse p g, K.test g⟩
  jump := ⟨k.jump, 1⟩
  call := ⟨k.call, 1⟩
  ret := ⟨k.ret, 1⟩
  save := ⟨k.save, 2⟩
  restore := ⟨k.restore, 2⟩

theorem takes_counted {k : Times ι Nat} {K : Costs ι} {d d' p t n : Nat} {c : Prog ι φ} {σ σ₁ σ₂ : Store ι}
    (h : Takes T k body entry d p c σ t σ₁) (h' : Exec K body d' c σ n σ₂) :
    Takes T (counted k K) body entry d p c σ ⟨t, n⟩ σ₁ := by
  induction h generalizing d' n σ₂ with
  | skip => cases h'; exact .skip
  | act => cases h'; exact .act
  | seq h _ ih ih' =>
    cases h' with
    | seq a b =>
      obtain ⟨n', hn⟩ := takes_exec (K := K) h
      obtain ⟨rfl, rfl⟩ := rexec_unique hn a
      exact .seq (ih a) (ih' b)
  | iteTrue hg _ ih =>
    cases h' with
    | iteTrue _ a => exact .iteTrue hg (ih a)
    | iteFalse hg' _ => exact absurd hg hg'
  | iteFalse hg _ ih =>
    cases h' with
    | iteTrue hg' _ => exact absurd hg' hg
    | iteFalse _ a => exact .iteFalse hg (ih a)
  | loopTrue hg h _ ih ih' =>
    cases h' with
    | loopTrue _ a b =>
      obtain ⟨n', hn⟩ := takes_exec (K := K) h
      obtain ⟨rfl, rfl⟩ := rexec_unique hn a
      exact .loopTrue hg (ih a) (ih' b)
    | loopFalse hg' => exact absurd hg hg'
  | loopFalse hg =>
    cases h' with
    | loopTrue hg' _ _ => exact absurd hg' hg
    | loopFalse _ => exact .loopFalse hg
  | call _ ih => cases h' with | call a => exact .call (ih a)
  | keeping _ ih => cases h' with | keeping a => exact .keeping (ih a)

end

end Verif.Recursive
