import Verif.Spec.Flow
import Verif.Proofs.Structured

/-!
# Structured programs over any actions, on any machine

If the code of the actions, tests and jumps does on a machine what it is meant to do, then so does
the code of every program.
-/

namespace Verif.Flow

open Verif.Spec.Flow

section
variable {S : Type}

/-- In `n` steps from `s` to `t`; every state on the way (`t` excepted) has its program counter in
`lo ≤ pc < hi`. `here q s` says: the state `s` is at `q`. -/
inductive Path (step : S → S → Prop) (here : Nat → S → Prop) (lo hi : Nat) : Nat → S → S → Prop
  | nil {s} : Path step here lo hi 0 s s
  | cons {n s t u q} (h : here q s) (h1 : lo ≤ q) (h2 : q < hi) (hs : step s t)
      (ht : Path step here lo hi n t u) : Path step here lo hi (n + 1) s u

variable {step : S → S → Prop} {here : Nat → S → Prop} {lo hi : Nat}

theorem Path.trans {n m : Nat} {s t u : S} (h : Path step here lo hi n s t) (h' : Path step here lo hi m t u) :
    Path step here lo hi (n + m) s u := by
  induction h with
  | nil => rwa [Nat.zero_add]
  | cons hr h1 h2 hs _ ih =>
    rw [Nat.add_right_comm]
    exact .cons hr h1 h2 hs (ih h')

theorem Path.mono {lo' hi' n : Nat} {s t : S} (h : Path step here lo hi n s t) (hl : lo' ≤ lo) (hh : hi ≤ hi') :
    Path step here lo' hi' n s t := by
  induction h with
  | nil => exact .nil
  | cons hr h1 h2 hs _ ih => exact .cons hr (by omega) (by omega) hs ih

theorem Path.take {n m : Nat} {s t : S} (h : Path step here lo hi n s t) (hm : m ≤ n) :
    ∃ u, Path step here lo hi m s u := by
  induction h generalizing m with
  | nil => obtain rfl : m = 0 := by omega
           exact ⟨_, .nil⟩
  | cons hr h1 h2 hs _ ih =>
    cases m with
    | zero => exact ⟨_, .nil⟩
    | succ m =>
      obtain ⟨u, hu⟩ := ih (by omega : m ≤ _)
      exact ⟨u, .cons hr h1 h2 hs hu⟩

/-- A path of `C91` or `C92`. -/
theorem Path.of {ι : Type} {rel : Spec.Structured.Store ι → Nat → S → Prop} {n : Nat} {s t : S}
    (h : Structured.Path step rel lo hi n s t) (hr : ∀ σ q s, rel σ q s → here q s) :
    Path step here lo hi n s t := by
  induction h with
  | nil => exact .nil
  | cons hr' h1 h2 hs _ ih => exact .cons (hr _ _ _ hr') h1 h2 hs ih

/-- The state before the last step of a path. -/
theorem Path.last {n : Nat} {s t : S} (h : Path step here lo hi (n + 1) s t) :
    ∃ u q, Path step here lo hi n s u ∧ here q u ∧ lo ≤ q ∧ q < hi := by
  induction n generalizing s with
  | zero =>
    cases h with
    | cons hr h1 h2 hs _ => exact ⟨s, _, .nil, hr, h1, h2⟩
  | succ n ih =>
    cases h with
    | cons hr h1 h2 hs ht =>
      obtain ⟨u, q, hp, hq⟩ := ih ht
      exact ⟨u, q, .cons hr h1 h2 hs hp, hq⟩

end

/-- A machine on which the parts of the code work, for addresses up to `top`. -/
structure Works {A G V W S : Type} (M : Meaning A G V) (T : Target A G W) (k : Costs A G) (step : S → S → Prop)
    (rel : V → Nat → S → Prop) (here : Nat → S → Prop) (code : Nat → List W → Prop) (top : Nat) : Prop where
  jumpSize : ∀ l, T.bytes (T.jump l) = T.jumpSize
  append : ∀ {p u v}, code p (u ++ v) → code p u ∧ code (p + T.bytes u) v
  act : ∀ {p a σ s}, code p (T.act a) → p + T.bytes (T.act a) ≤ top → rel σ p s →
    ∃ t, Path step here p (p + T.bytes (T.act a)) (k.act a) s t ∧ rel (M.eval a σ) (p + T.bytes (T.act a)) t
  test : ∀ {p g σ s}, code p (T.test g) → p + T.bytes (T.test g) + T.jumpSize ≤ top → rel σ p s →
    ∃ t, Path step here p (p + T.bytes (T.test g)) (k.test g) s t ∧
      (M.holds g σ → rel σ (p + T.bytes (T.test g) + T.jumpSize) t) ∧
      (¬ M.holds g σ → rel σ (p + T.bytes (T.test g)) t)
  jump : ∀ {p l σ s}, code p (T.jump l) → p + T.jumpSize ≤ top → l ≤ top → rel σ p s →
    ∃ t, Path step here p (p + T.jumpSize) 1 s t ∧ rel σ l t

section
variable {A G V W S : Type} {M : Meaning A G V} {T : Target A G W} {k : Costs A G} {step : S → S → Prop}
  {rel : V → Nat → S → Prop} {here : Nat → S → Prop} {code : Nat → List W → Prop} {top : Nat}

theorem bytes_append (u v : List W) : T.bytes (u ++ v) = T.bytes u + T.bytes v := by
  simp only [Target.bytes, List.length_append, Nat.mul_add]

theorem compile_size (hj : ∀ l, T.bytes (T.jump l) = T.jumpSize) (c : Flow A G) (p : Nat) :
    T.bytes (T.compile p c) = T.size c := by
  induction c generalizing p with
  | skip => rfl
  | act a => rfl
  | seq c d ihc ihd =>
    simp only [Target.compile, Target.size, bytes_append, ihc, ihd]
  | ite g c d ihc ihd =>
    simp only [Target.compile, Target.size, bytes_append, ihc, ihd, hj]
    omega
  | loop g c ihc =>
    simp only [Target.compile, Target.size, bytes_append, ihc, hj]
    omega

/-- The code of a program computes what the program means. -/
theorem compile_exec (hw : Works M T k step rel here code top) {c : Flow A G} {σ σ' : V} {n : Nat}
    (h : Exec M k c σ n σ') : ∀ {p : Nat} {s : S}, code p (T.compile p c) → p + T.size c ≤ top → rel σ p s →
    ∃ t, Path step here p (p + T.size c) n s t ∧ rel σ' (p + T.size c) t := by
  induction h with
  | skip => intro p s _ _ hs; exact ⟨s, .nil, hs⟩
  | act => intro p s hc hp hs; exact hw.act hc hp hs
  | @seq c d σ σ1 σ2 n m _ _ ih ih' =>
    intro p s hc hp hs
    change code p (T.compile p c ++ T.compile (p + T.size c) d) at hc
    change p + (T.size c + T.size d) ≤ top at hp
    obtain ⟨h1, h2⟩ := hw.append hc
    rw [compile_size hw.jumpSize] at h2
    obtain ⟨t, ht, hr⟩ := ih h1 (by omega) hs
    obtain ⟨u, hu, hr'⟩ := ih' h2 (by omega) hr
    show ∃ t, Path step here p (p + (T.size c + T.size d)) (n + m) s t ∧ rel σ2 (p + (T.size c + T.size d)) t
    rw [← Nat.add_assoc]
    exact ⟨u, (ht.mono (Nat.le_refl _) (by omega)).trans (hu.mono (by omega) (Nat.le_refl _)), hr'⟩
  | @iteTrue g c d σ σ1 n hg _ ih =>
    intro p s hc hp hs
    simp only [Target.size] at hp ⊢
    simp only [Target.compile] at hc
    obtain ⟨h1, h2⟩ := hw.append hc
    obtain ⟨-, h2⟩ := hw.append h2
    rw [hw.jumpSize] at h2
    obtain ⟨h3, h4⟩ := hw.append h2
    rw [compile_size hw.jumpSize] at h4
    obtain ⟨h4, -⟩ := hw.append h4
    obtain ⟨t, ht, hr⟩ := hw.test h1 (by omega) hs
    replace hr := hr.1 hg
    obtain ⟨u, hu, hr⟩ := ih h3 (by omega) hr
    obtain ⟨v, hv, hr⟩ := hw.jump h4 (by omega) (by omega) hr
    refine ⟨v, ((ht.mono (by omega) (by omega)).trans (hu.mono (by omega) (by omega))).trans
      (hv.mono (by omega) (by omega)), ?_⟩
    have e : p + (T.bytes (T.test g) + T.jumpSize + T.size c + T.jumpSize + T.size d) =
      p + T.bytes (T.test g) + T.jumpSize + T.size c + T.jumpSize + T.size d := by omega
    rw [e]; exact hr
  | @iteFalse g c d σ σ1 n hg _ ih =>
    intro p s hc hp hs
    simp only [Target.size] at hp ⊢
    simp only [Target.compile] at hc
    obtain ⟨h1, h2⟩ := hw.append hc
    obtain ⟨h5, h2⟩ := hw.append h2
    rw [hw.jumpSize] at h2
    obtain ⟨h3, h4⟩ := hw.append h2
    rw [compile_size hw.jumpSize] at h4
    obtain ⟨-, h4⟩ := hw.append h4
    rw [hw.jumpSize] at h4
    obtain ⟨t, ht, hr⟩ := hw.test h1 (by omega) hs
    replace hr := hr.2 hg
    obtain ⟨u, hu, hr⟩ := hw.jump h5 (by omega) (by omega) hr
    obtain ⟨v, hv, hr⟩ := ih h4 (by omega) hr
    refine ⟨v, ((ht.mono (by omega) (by omega)).trans (hu.mono (by omega) (by omega))).trans
      (hv.mono (by omega) (by omega)), ?_⟩
    have e : p + (T.bytes (T.test g) + T.jumpSize + T.size c + T.jumpSize + T.size d) =
      p + T.bytes (T.test g) + T.jumpSize + T.size c + T.jumpSize + T.size d := by omega
    rw [e]; exact hr
  | @loopTrue g c σ σ1 σ2 n m hg _ _ ih ih' =>
    intro p s hc hp hs
    have hc' := hc
    have hp' := hp
    simp only [Target.size] at hp ⊢
    simp only [Target.compile] at hc
    obtain ⟨h1, h2⟩ := hw.append hc
    obtain ⟨h5, h2⟩ := hw.append h2
    rw [hw.jumpSize] at h2
    obtain ⟨h3, h4⟩ := hw.append h2
    rw [compile_size hw.jumpSize] at h4
    obtain ⟨t, ht, hr⟩ := hw.test h1 (by omega) hs
    replace hr := hr.1 hg
    obtain ⟨u, hu, hr⟩ := ih h3 (by omega) hr
    obtain ⟨v, hv, hr⟩ := hw.jump h4 (by omega) (by omega) hr
    obtain ⟨w, hw', hr⟩ := ih' hc' hp' hr
    simp only [Target.size] at hw' hr
    exact ⟨w, (((ht.mono (by omega) (by omega)).trans (hu.mono (by omega) (by omega))).trans
      (hv.mono (by omega) (by omega))).trans hw', hr⟩
  | @loopFalse g c σ hg =>
    intro p s hc hp hs
    simp only [Target.size] at hp ⊢
    simp only [Target.compile] at hc
    obtain ⟨h1, h2⟩ := hw.append hc
    obtain ⟨h5, h2⟩ := hw.append h2
    obtain ⟨t, ht, hr⟩ := hw.test h1 (by omega) hs
    replace hr := hr.2 hg
    obtain ⟨u, hu, hr⟩ := hw.jump h5 (by omega) (by omega) hr
    refine ⟨u, (ht.mono (by omega) (by omega)).trans (hu.mono (by omega) (by omega)), ?_⟩
    have e : p + (T.bytes (T.test g) + T.jumpSize + T.size c + T.jumpSize) =
      p + T.bytes (T.test g) + T.jumpSize + T.size c + T.jumpSize := by omega
    rw [e]; exact hr

/-- After `n` steps a program has ended, or its code is still running inside its bounds. -/
theorem compile_progress (hw : Works M T k step rel here code top) (c : Flow A G) :
    ∀ {p : Nat} {s : S} {σ : V} (n : Nat), code p (T.compile p c) → p + T.size c ≤ top → rel σ p s →
    (∃ m σ', m ≤ n ∧ Exec M k c σ m σ') ∨ ∃ t, Path step here p (p + T.size c) n s t := by
  induction c with
  | skip => intro p s σ n _ _ _; exact .inl ⟨0, σ, Nat.zero_le _, .skip⟩
  | act a =>
    intro p s σ n hc hp hs
    by_cases hn : k.act a ≤ n
    · exact .inl ⟨_, _, hn, .act⟩
    · obtain ⟨t, ht, -⟩ := hw.act hc hp hs
      exact .inr (ht.take (by omega))
  | seq c d ihc ihd =>
    intro p s σ n hc hp hs
    have hp' : p + (T.size c + T.size d) ≤ top := hp
    obtain ⟨h1, h2⟩ := hw.append (show code p (T.compile p c ++ T.compile (p + T.size c) d) from hc)
    rw [compile_size hw.jumpSize] at h2
    show _ ∨ ∃ t, Path step here p (p + (T.size c + T.size d)) n s t
    rcases ihc n h1 (by omega) hs with ⟨m, σ', hm, he⟩ | ⟨t, ht⟩
    · obtain ⟨t, ht, hr⟩ := compile_exec hw he h1 (by omega) hs
      rcases ihd (n - m) h2 (by omega) hr with ⟨m', σ'', hm', he'⟩ | ⟨u, hu⟩
      · exact .inl ⟨m + m', σ'', by omega, .seq he he'⟩
      · have := (ht.mono (Nat.le_refl _) (by omega)).trans
          (hu.mono (lo' := p) (hi' := p + (T.size c + T.size d)) (by omega) (by omega))
        rw [show m + (n - m) = n by omega] at this
        exact .inr ⟨u, this⟩
    · exact .inr ⟨t, ht.mono (Nat.le_refl _) (by omega)⟩
  | ite g c d ihc ihd =>
    intro p s σ n hc hp hs
    simp only [Target.size] at hp ⊢
    simp only [Target.compile] at hc
    obtain ⟨h1, h2⟩ := hw.append hc
    obtain ⟨h5, h2⟩ := hw.append h2
    rw [hw.jumpSize] at h2
    obtain ⟨h3, h4⟩ := hw.append h2
    rw [compile_size hw.jumpSize] at h4
    obtain ⟨h6, h4⟩ := hw.append h4
    rw [hw.jumpSize] at h4
    obtain ⟨t, ht, hr⟩ := hw.test h1 (by omega) hs
    by_cases hn : n ≤ k.test g
    · obtain ⟨u, hu⟩ := ht.take hn
      exact .inr ⟨u, hu.mono (by omega) (by omega)⟩
    by_cases hg : M.holds g σ
    · replace hr := hr.1 hg
      rcases ihc (n - k.test g) h3 (by omega) hr with ⟨m, σ', hm, he⟩ | ⟨u, hu⟩
      · by_cases hm' : k.test g + m + 1 ≤ n
        · exact .inl ⟨_, σ', hm', .iteTrue hg he⟩
        · obtain ⟨u, hu, -⟩ := compile_exec hw he h3 (by omega) hr
          have := (ht.mono (by omega) (by omega)).trans (hu.mono (lo' := p)
            (hi' := p + (T.bytes (T.test g) + T.jumpSize + T.size c + T.jumpSize + T.size d)) (by omega) (by omega))
          exact .inr (this.take (by omega))
      · have := (ht.mono (by omega) (by omega)).trans (hu.mono (lo' := p)
          (hi' := p + (T.bytes (T.test g) + T.jumpSize + T.size c + T.jumpSize + T.size d)) (by omega) (by omega))
        rw [show k.test g + (n - k.test g) = n by omega] at this
        exact .inr ⟨u, this⟩
    · replace hr := hr.2 hg
      obtain ⟨u, hu, hr⟩ := hw.jump h5 (by omega) (by omega) hr
      rcases ihd (n - k.test g - 1) h4 (by omega) hr with ⟨m, σ', hm, he⟩ | ⟨v, hv⟩
      · exact .inl ⟨_, σ', by omega, .iteFalse hg he⟩
      · have := ((ht.mono (by omega) (by omega)).trans (hu.mono (by omega) (by omega))).trans (hv.mono (lo' := p)
          (hi' := p + (T.bytes (T.test g) + T.jumpSize + T.size c + T.jumpSize + T.size d)) (by omega) (by omega))
        rw [show k.test g + 1 + (n - k.test g - 1) = n by omega] at this
        exact .inr ⟨v, this⟩
  | loop g c ihc =>
    intro p s σ n hc hp hs
    induction n using Nat.strongRecOn generalizing s σ with
    | ind n ihn =>
    have hp' := hp
    have hc' := hc
    simp only [Target.size] at hp ⊢
    simp only [Target.compile] at hc
    obtain ⟨h1, h2⟩ := hw.append hc
    obtain ⟨h5, h2⟩ := hw.append h2
    rw [hw.jumpSize] at h2
    obtain ⟨h3, h4⟩ := hw.append h2
    rw [compile_size hw.jumpSize] at h4
    obtain ⟨t, ht, hr⟩ := hw.test h1 (by omega) hs
    by_cases hn : n ≤ k.test g
    · obtain ⟨u, hu⟩ := ht.take hn
      exact .inr ⟨u, hu.mono (by omega) (by omega)⟩
    by_cases hg : M.holds g σ
    · replace hr := hr.1 hg
      rcases ihc (n - k.test g) h3 (by omega) hr with ⟨m, σ', hm, he⟩ | ⟨u, hu⟩
      · obtain ⟨u, hu, hr⟩ := compile_exec hw he h3 (by omega) hr
        obtain ⟨v, hv, hr⟩ := hw.jump h4 (by omega) (by omega) hr
        have path := ((ht.mono (by omega) (by omega)).trans (hu.mono (by omega) (by omega))).trans (hv.mono (lo' := p)
          (hi' := p + (T.bytes (T.test g) + T.jumpSize + T.size c + T.jumpSize)) (by omega) (by omega))
        by_cases hm' : k.test g + m + 1 ≤ n
        · rcases ihn (n - (k.test g + m + 1)) (by omega) hr with ⟨m', σ'', hm'', he'⟩ | ⟨w, hw'⟩
          · exact .inl ⟨_, σ'', by omega, .loopTrue hg he he'⟩
          · have := path.trans hw'
            rw [show k.test g + m + 1 + (n - (k.test g + m + 1)) = n by omega] at this
            exact .inr ⟨w, this⟩
        · exact .inr (path.take (by omega))
      · have := (ht.mono (by omega) (by omega)).trans (hu.mono (lo' := p)
          (hi' := p + (T.bytes (T.test g) + T.jumpSize + T.size c + T.jumpSize)) (by omega) (by omega))
        rw [show k.test g + (n - k.test g) = n by omega] at this
        exact .inr ⟨u, this⟩
    · exact .inl ⟨_, σ, by omega, .loopFalse hg⟩

/-- A program that does not end keeps its code running inside its bounds. -/
theorem compile_endless (hw : Works M T k step rel here code top) {c : Flow A G} {σ : V} (h : ¬ Ends M k c σ)
    {p : Nat} {s : S} (hc : code p (T.compile p c)) (hp : p + T.size c ≤ top) (hs : rel σ p s) (n : Nat) :
    ∃ t q, Path step here p (p + T.size c) n s t ∧ here q t ∧ p ≤ q ∧ q < p + T.size c := by
  rcases compile_progress hw c (n + 1) hc hp hs with ⟨m, σ', -, he⟩ | ⟨t, ht⟩
  · exact absurd ⟨m, σ', he⟩ h
  · exact ht.last

/-- What a program does does not depend on what it costs. -/
theorem exec_costs {k' : Costs A G} {c : Flow A G} {σ σ' : V} {n : Nat} (h : Exec M k c σ n σ') :
    ∃ n', Exec M k' c σ n' σ' := by
  induction h with
  | skip => exact ⟨_, .skip⟩
  | act => exact ⟨_, .act⟩
  | seq _ _ ih ih' =>
    obtain ⟨_, h1⟩ := ih
    obtain ⟨_, h2⟩ := ih'
    exact ⟨_, .seq h1 h2⟩
  | iteTrue hg _ ih => obtain ⟨_, h1⟩ := ih; exact ⟨_, .iteTrue hg h1⟩
  | iteFalse hg _ ih => obtain ⟨_, h1⟩ := ih; exact ⟨_, .iteFalse hg h1⟩
  | loopTrue hg _ _ ih ih' =>
    obtain ⟨_, h1⟩ := ih
    obtain ⟨_, h2⟩ := ih'
    exact ⟨_, .loopTrue hg h1 h2⟩
  | loopFalse hg => exact ⟨_, .loopFalse hg⟩

/-- A program has one result and one running time. -/
theorem exec_unique {c : Flow A G} {σ σ₁ σ₂ : V} {n m : Nat} (h : Exec M k c σ n σ₁)
    (h' : Exec M k c σ m σ₂) : n = m ∧ σ₁ = σ₂ := by
  induction h generalizing m σ₂ with
  | skip => cases h'; exact ⟨rfl, rfl⟩
  | act => cases h'; exact ⟨rfl, rfl⟩
  | seq _ _ ih ih' =>
    cases h' with
    | seq a b =>
      obtain ⟨rfl, rfl⟩ := ih a
      obtain ⟨rfl, rfl⟩ := ih' b
      exact ⟨rfl, rfl⟩
  | iteTrue hg _ ih =>
    cases h' with
    | iteTrue _ a => obtain ⟨rfl, rfl⟩ := ih a; exact ⟨rfl, rfl⟩
    | iteFalse hg' _ => exact absurd hg hg'
  | iteFalse hg _ ih =>
    cases h' with
    | iteTrue hg' _ => exact absurd hg' hg
    | iteFalse _ a => obtain ⟨rfl, rfl⟩ := ih a; exact ⟨rfl, rfl⟩
  | loopTrue hg _ _ ih ih' =>
    cases h' with
    | loopTrue _ a b =>
      obtain ⟨rfl, rfl⟩ := ih a
      obtain ⟨rfl, rfl⟩ := ih' b
      exact ⟨rfl, rfl⟩
    | loopFalse hg' => exact absurd hg hg'
  | loopFalse hg =>
    cases h' with
    | loopTrue hg' _ _ => exact absurd hg' hg
    | loopFalse _ => exact ⟨rfl, rfl⟩

end

end Verif.Flow
