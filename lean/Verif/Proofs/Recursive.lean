import Verif.Spec.Recursive
import Verif.Proofs.Structured

/-!
# Recursive programs on any machine with a stack
-/

namespace Verif.Recursive

open Verif.Spec.Structured Verif.Spec.Recursive Verif.Structured

/-- What is on the stack: a return address or a saved value. -/
inductive Frame
  | ret (r : Nat)
  | val (v : BitVec 8)

/-- The bytes of a stack. -/
def room : List Frame → Nat
  | [] => 0
  | .ret _ :: fs => 2 + room fs
  | .val _ :: fs => 1 + room fs

section
variable {ι S : Type}

/-- In `n` steps from `s` to `t`; every state on the way (`t` excepted) is at an address in `In`. -/
inductive Walk (step : S → S → Prop) (rel : List Frame → Store ι → Nat → S → Prop) (In : Nat → Prop) :
    Nat → S → S → Prop
  | nil {s} : Walk step rel In 0 s s
  | cons {n s t u fs σ q} (h : rel fs σ q s) (hq : In q) (hs : step s t) (ht : Walk step rel In n t u) :
      Walk step rel In (n + 1) s u

variable {step : S → S → Prop} {rel : List Frame → Store ι → Nat → S → Prop} {In : Nat → Prop}

theorem Walk.trans {n m : Nat} {s t u : S} (h : Walk step rel In n s t) (h' : Walk step rel In m t u) :
    Walk step rel In (n + m) s u := by
  induction h with
  | nil => rwa [Nat.zero_add]
  | cons hr hq hs _ ih =>
    rw [Nat.add_right_comm]
    exact .cons hr hq hs (ih h')

theorem Walk.take {n m : Nat} {s t : S} (h : Walk step rel In n s t) (hm : m ≤ n) :
    ∃ u, Walk step rel In m s u := by
  induction h generalizing m with
  | nil => obtain rfl : m = 0 := by omega
           exact ⟨_, .nil⟩
  | cons hr hq hs _ ih =>
    cases m with
    | zero => exact ⟨_, .nil⟩
    | succ m =>
      obtain ⟨u, hu⟩ := ih (by omega : m ≤ _)
      exact ⟨u, .cons hr hq hs hu⟩

theorem Walk.last {n : Nat} {s t : S} (h : Walk step rel In (n + 1) s t) :
    ∃ u fs σ q, Walk step rel In n s u ∧ rel fs σ q u ∧ In q := by
  induction n generalizing s with
  | zero =>
    cases h with
    | cons hr hq hs _ => exact ⟨s, _, _, _, .nil, hr, hq⟩
  | succ n ih =>
    cases h with
    | cons hr hq hs ht =>
      obtain ⟨u, fs, σ, q, hp, hq'⟩ := ih ht
      exact ⟨u, fs, σ, q, .cons hr hq hs hp, hq'⟩

theorem walk_of_path {fs : List Frame} {lo hi n : Nat} {s t : S} (h : Path step (rel fs) lo hi n s t)
    (hin : ∀ q, lo ≤ q → q < hi → In q) : Walk step rel In n s t := by
  induction h with
  | nil => exact .nil
  | cons hr h1 h2 hs _ ih => exact .cons hr (hin _ h1 h2) hs ih

end

/-- A machine on which the parts of the code work, for addresses up to `top` and stacks of at most
`cap` bytes. -/
structure RWorks {ι W S : Type} [DecidableEq ι] (T : RTarget ι W) (k : Costs ι) (step : S → S → Prop)
    (rel : List Frame → Store ι → Nat → S → Prop) (code : Nat → List W → Prop) (top cap : Nat) : Prop where
  base : ∀ fs, Works T.toTarget k step (rel fs) code top
  callSize : ∀ l, T.bytes (T.call l) = T.callSize
  retPos : 0 < T.bytes T.ret
  callPos : 0 < T.callSize
  call : ∀ {p e fs σ s}, code p (T.call e) → p + T.callSize ≤ top → e ≤ top → room fs + 2 ≤ cap →
    rel fs σ p s → ∃ t, step s t ∧ rel (.ret (p + T.callSize) :: fs) σ e t
  ret : ∀ {p r fs σ s}, code p T.ret → p + T.bytes T.ret ≤ top → rel (.ret r :: fs) σ p s →
    ∃ t, step s t ∧ rel fs σ r t
  save : ∀ {p x fs σ s}, code p (T.save x) → p + T.bytes (T.save x) ≤ top → room fs + 1 ≤ cap →
    rel fs σ p s → ∃ t, Path step (rel fs) p (p + T.bytes (T.save x)) 2 s t ∧
      rel (.val (σ x) :: fs) σ (p + T.bytes (T.save x)) t
  restore : ∀ {p x v fs σ s}, code p (T.restore x) → p + T.bytes (T.restore x) ≤ top →
    rel (.val v :: fs) σ p s →
    ∃ t u q, rel (.val v :: fs) σ p s ∧ step s t ∧ rel fs σ q t ∧ p ≤ q ∧ q < p + T.bytes (T.restore x) ∧
      step t u ∧ rel fs (put σ x v) (p + T.bytes (T.restore x)) u

section
variable {ι φ W S : Type} [DecidableEq ι] {T : RTarget ι W} {k : Costs ι} {step : S → S → Prop}
  {rel : List Frame → Store ι → Nat → S → Prop} {code : Nat → List W → Prop} {top cap : Nat}
  {body : φ → Prog ι φ} {entry : φ → Nat} {In : Nat → Prop}

omit [DecidableEq ι] in
theorem rcompile_size (hj : ∀ l, T.bytes (T.jump l) = T.jumpSize) (hc : ∀ l, T.bytes (T.call l) = T.callSize)
    (c : Prog ι φ) (p : Nat) : T.bytes (T.compile entry p c) = T.size c := by
  induction c generalizing p with
  | skip => rfl
  | act a => rfl
  | seq c d ihc ihd => simp only [RTarget.compile, RTarget.size, bytes_append, ihc, ihd]
  | ite g c d ihc ihd =>
    simp only [RTarget.compile, RTarget.size, bytes_append, ihc, ihd, hj]
    omega
  | loop g c ihc =>
    simp only [RTarget.compile, RTarget.size, bytes_append, ihc, hj]
    omega
  | call f => exact hc _
  | keeping x c ihc =>
    simp only [RTarget.compile, RTarget.size, bytes_append, ihc]
    omega

/-- The procedures are in memory, each followed by a return. -/
structure Loaded (T : RTarget ι W) (code : Nat → List W → Prop) (top : Nat) (body : φ → Prog ι φ)
    (entry : φ → Nat) (In : Nat → Prop) : Prop where
  code : ∀ f, code (entry f) (T.compile entry (entry f) (body f) ++ T.ret)
  fits : ∀ f, entry f + T.size (body f) + T.bytes T.ret ≤ top
  inside : ∀ f q, entry f ≤ q → q < entry f + T.size (body f) + T.bytes T.ret → In q

/-- The code of a program computes what the program means. -/
theorem rcompile_exec (hw : RWorks T k step rel code top cap) (hl : Loaded T code top body entry In)
    {d : Nat} {c : Prog ι φ} {σ σ' : Store ι} {n : Nat} (h : Exec k body d c σ n σ') :
    ∀ {p : Nat} {s : S} {fs : List Frame}, code p (T.compile entry p c) → p + T.size c ≤ top →
    (∀ q, p ≤ q → q < p + T.size c → In q) → room fs + d ≤ cap → rel fs σ p s →
    ∃ t, Walk step rel In n s t ∧ rel fs σ' (p + T.size c) t := by
  induction h with
  | skip => intro p s fs _ _ _ _ hs; exact ⟨s, .nil, hs⟩
  | act =>
    intro p s fs hc hp hin _ hs
    obtain ⟨t, ht, hr⟩ := (hw.base fs).act hc hp hs
    exact ⟨t, walk_of_path ht hin, hr⟩
  | @seq d c c' σ σ1 σ2 n m _ _ ih ih' =>
    intro p s fs hc hp hin hroom hs
    simp only [RTarget.compile] at hc
    simp only [RTarget.size] at hp hin ⊢
    obtain ⟨h1, h2⟩ := (hw.base fs).append hc
    rw [rcompile_size (hw.base fs).jumpSize hw.callSize] at h2
    obtain ⟨t, ht, hr⟩ := ih h1 (by omega) (fun q a b => hin q (by omega) (by omega)) hroom hs
    obtain ⟨u, hu, hr'⟩ := ih' h2 (by omega) (fun q a b => hin q (by omega) (by omega)) hroom hr
    rw [← Nat.add_assoc]
    exact ⟨u, ht.trans hu, hr'⟩
  | @iteTrue d g c c' σ σ1 n hg _ ih =>
    intro p s fs hc hp hin hroom hs
    simp only [RTarget.compile] at hc
    simp only [RTarget.size] at hp hin ⊢
    have hb := hw.base fs
    obtain ⟨h1, h2⟩ := hb.append hc
    obtain ⟨-, h2⟩ := hb.append h2
    rw [hb.jumpSize] at h2
    obtain ⟨h3, h4⟩ := hb.append h2
    rw [rcompile_size hb.jumpSize hw.callSize] at h4
    obtain ⟨h4, -⟩ := hb.append h4
    obtain ⟨t, ht, hr⟩ := hb.test h1 (by omega) hs
    rw [if_pos hg] at hr
    obtain ⟨u, hu, hr⟩ := ih h3 (by omega) (fun q a b => hin q (by omega) (by omega)) hroom hr
    obtain ⟨v, hv, hr⟩ := hb.jump h4 (by omega) (by omega) hr
    refine ⟨v, ((walk_of_path ht fun q a b => hin q (by omega) (by omega)).trans hu).trans
      (walk_of_path hv fun q a b => hin q (by omega) (by omega)), ?_⟩
    have e : p + (T.bytes (T.test g) + T.jumpSize + T.size c + T.jumpSize + T.size c') =
      p + T.bytes (T.test g) + T.jumpSize + T.size c + T.jumpSize + T.size c' := by omega
    rw [e]; exact hr
  | @iteFalse d g c c' σ σ1 n hg _ ih =>
    intro p s fs hc hp hin hroom hs
    simp only [RTarget.compile] at hc
    simp only [RTarget.size] at hp hin ⊢
    have hb := hw.base fs
    obtain ⟨h1, h2⟩ := hb.append hc
    obtain ⟨h5, h2⟩ := hb.append h2
    rw [hb.jumpSize] at h2
    obtain ⟨h3, h4⟩ := hb.append h2
    rw [rcompile_size hb.jumpSize hw.callSize] at h4
    obtain ⟨-, h4⟩ := hb.append h4
    rw [hb.jumpSize] at h4
    obtain ⟨t, ht, hr⟩ := hb.test h1 (by omega) hs
    rw [if_neg hg] at hr
    obtain ⟨u, hu, hr⟩ := hb.jump h5 (by omega) (by omega) hr
    obtain ⟨v, hv, hr⟩ := ih h4 (by omega) (fun q a b => hin q (by omega) (by omega)) hroom hr
    refine ⟨v, ((walk_of_path ht fun q a b => hin q (by omega) (by omega)).trans
      (walk_of_path hu fun q a b => hin q (by omega) (by omega))).trans hv, ?_⟩
    have e : p + (T.bytes (T.test g) + T.jumpSize + T.size c + T.jumpSize + T.size c') =
      p + T.bytes (T.test g) + T.jumpSize + T.size c + T.jumpSize + T.size c' := by omega
    rw [e]; exact hr
  | @loopTrue d g c σ σ1 σ2 n m hg _ _ ih ih' =>
    intro p s fs hc hp hin hroom hs
    have hc' := hc
    have hp' := hp
    have hin' := hin
    simp only [RTarget.compile] at hc
    simp only [RTarget.size] at hp hin ⊢
    have hb := hw.base fs
    obtain ⟨h1, h2⟩ := hb.append hc
    obtain ⟨h5, h2⟩ := hb.append h2
    rw [hb.jumpSize] at h2
    obtain ⟨h3, h4⟩ := hb.append h2
    rw [rcompile_size hb.jumpSize hw.callSize] at h4
    obtain ⟨t, ht, hr⟩ := hb.test h1 (by omega) hs
    rw [if_pos hg] at hr
    obtain ⟨u, hu, hr⟩ := ih h3 (by omega) (fun q a b => hin q (by omega) (by omega)) hroom hr
    obtain ⟨v, hv, hr⟩ := hb.jump h4 (by omega) (by omega) hr
    obtain ⟨w, hw', hr⟩ := ih' hc' hp' hin' hroom hr
    simp only [RTarget.size] at hr
    exact ⟨w, (((walk_of_path ht fun q a b => hin q (by omega) (by omega)).trans hu).trans
      (walk_of_path hv fun q a b => hin q (by omega) (by omega))).trans hw', hr⟩
  | @loopFalse d g c σ hg =>
    intro p s fs hc hp hin hroom hs
    simp only [RTarget.compile] at hc
    simp only [RTarget.size] at hp hin ⊢
    have hb := hw.base fs
    obtain ⟨h1, h2⟩ := hb.append hc
    obtain ⟨h5, h2⟩ := hb.append h2
    obtain ⟨t, ht, hr⟩ := hb.test h1 (by omega) hs
    rw [if_neg hg] at hr
    obtain ⟨u, hu, hr⟩ := hb.jump h5 (by omega) (by omega) hr
    refine ⟨u, (walk_of_path ht fun q a b => hin q (by omega) (by omega)).trans
      (walk_of_path hu fun q a b => hin q (by omega) (by omega)), ?_⟩
    have e : p + (T.bytes (T.test g) + T.jumpSize + T.size c + T.jumpSize) =
      p + T.bytes (T.test g) + T.jumpSize + T.size c + T.jumpSize := by omega
    rw [e]; exact hr
  | @call d f σ σ' n _ ih =>
    intro p s fs hc hp hin hroom hs
    simp only [RTarget.compile] at hc
    simp only [RTarget.size] at hp hin ⊢
    have hf := hl.fits f
    have hcp := hw.callPos
    have hrp := hw.retPos
    obtain ⟨h1, h2⟩ := (hw.base fs).append (hl.code f)
    rw [rcompile_size (hw.base fs).jumpSize hw.callSize] at h2
    obtain ⟨t, ht, hr⟩ := hw.call hc hp (by omega) (by omega) hs
    obtain ⟨u, hu, hr'⟩ := ih h1 (by omega) (fun q a b => hl.inside f q a (by omega))
      (by simp only [room]; omega) hr
    obtain ⟨v, hv, hr''⟩ := hw.ret h2 hf hr'
    refine ⟨v, ?_, hr''⟩
    exact ((Walk.cons hs (hin p (Nat.le_refl _) (by omega)) ht .nil).trans hu).trans
      (.cons hr' (hl.inside f _ (by omega) (by omega)) hv .nil)
  | @keeping d x c σ σ' n _ ih =>
    intro p s fs hc hp hin hroom hs
    simp only [RTarget.compile] at hc
    simp only [RTarget.size] at hp hin ⊢
    obtain ⟨h1, h2⟩ := (hw.base fs).append hc
    obtain ⟨h2, h3⟩ := (hw.base fs).append h2
    rw [rcompile_size (hw.base fs).jumpSize hw.callSize] at h3
    obtain ⟨t, ht, hr⟩ := hw.save h1 (by omega) (by omega) hs
    obtain ⟨u, hu, hr⟩ := ih h2 (by omega) (fun q a b => hin q (by omega) (by omega))
      (by simp only [room]; omega) hr
    obtain ⟨v, w, q, r1, s1, r2, q1, q2, s2, r3⟩ := hw.restore h3 (by omega) hr
    refine ⟨w, ((walk_of_path ht fun q a b => hin q (by omega) (by omega)).trans hu).trans
      (.cons r1 (hin _ (by omega) (by omega)) s1 (.cons r2 (hin _ (by omega) (by omega)) s2 .nil)), ?_⟩
    have e : p + (T.bytes (T.save x) + T.size c + T.bytes (T.restore x)) =
      p + T.bytes (T.save x) + T.size c + T.bytes (T.restore x) := by omega
    rw [e]; exact r3

/-- After `n` steps a program has ended, or the stack was too small, or its code is still running. -/
theorem rcompile_progress (hw : RWorks T k step rel code top cap) (hl : Loaded T code top body entry In)
    (n : Nat) : ∀ (c : Prog ι φ) {d p : Nat} {s : S} {σ : Store ι} {fs : List Frame},
    code p (T.compile entry p c) → p + T.size c ≤ top → (∀ q, p ≤ q → q < p + T.size c → In q) →
    room fs + d ≤ cap → rel fs σ p s →
    (∃ m σ', m ≤ n ∧ Exec k body d c σ m σ') ∨ Overflows k body d c σ ∨ ∃ t, Walk step rel In n s t := by
  induction n using Nat.strongRecOn with
  | ind n ihn =>
  intro c
  induction c generalizing n with
  | skip => intro d p s σ fs _ _ _ _ _; exact .inl ⟨0, σ, Nat.zero_le _, .skip⟩
  | act a =>
    intro d p s σ fs hc hp hin hroom hs
    by_cases hn : k.act a ≤ n
    · exact .inl ⟨_, _, hn, .act⟩
    · obtain ⟨t, ht, -⟩ := (hw.base fs).act hc hp hs
      exact .inr (.inr ((walk_of_path ht hin).take (by omega)))
  | seq c c' ihc ihd =>
    intro d p s σ fs hc hp hin hroom hs
    simp only [RTarget.compile] at hc
    simp only [RTarget.size] at hp hin
    obtain ⟨h1, h2⟩ := (hw.base fs).append hc
    rw [rcompile_size (hw.base fs).jumpSize hw.callSize] at h2
    rcases ihc n ihn h1 (by omega) (fun q a b => hin q (by omega) (by omega)) hroom hs with
      ⟨m, σ', hm, he⟩ | ho | ht
    · obtain ⟨t, ht, hr⟩ := rcompile_exec hw hl he h1 (by omega) (fun q a b => hin q (by omega) (by omega))
        hroom hs
      rcases ihd (n - m) (fun j hj => ihn j (by omega)) h2 (by omega)
        (fun q a b => hin q (by omega) (by omega)) hroom hr with ⟨m', σ'', hm', he'⟩ | ho | ⟨u, hu⟩
      · exact .inl ⟨m + m', σ'', by omega, .seq he he'⟩
      · exact .inr (.inl (.seqRight he ho))
      · have := ht.trans hu
        rw [show m + (n - m) = n by omega] at this
        exact .inr (.inr ⟨u, this⟩)
    · exact .inr (.inl (.seqLeft ho))
    · exact .inr (.inr ht)
  | ite g c c' ihc ihd =>
    intro d p s σ fs hc hp hin hroom hs
    simp only [RTarget.compile] at hc
    simp only [RTarget.size] at hp hin
    have hb := hw.base fs
    obtain ⟨h1, h2⟩ := hb.append hc
    obtain ⟨h5, h2⟩ := hb.append h2
    rw [hb.jumpSize] at h2
    obtain ⟨h3, h4⟩ := hb.append h2
    rw [rcompile_size hb.jumpSize hw.callSize] at h4
    obtain ⟨h6, h4⟩ := hb.append h4
    rw [hb.jumpSize] at h4
    obtain ⟨t, ht, hr⟩ := hb.test h1 (by omega) hs
    have ht := walk_of_path (In := In) ht fun q a b => hin q (by omega) (by omega)
    by_cases hn : n ≤ k.test g
    · exact .inr (.inr (ht.take hn))
    by_cases hg : g.Holds σ
    · rw [if_pos hg] at hr
      rcases ihc (n - k.test g) (fun j hj => ihn j (by omega)) h3 (by omega)
        (fun q a b => hin q (by omega) (by omega)) hroom hr with ⟨m, σ', hm, he⟩ | ho | ⟨u, hu⟩
      · by_cases hm' : k.test g + m + 1 ≤ n
        · exact .inl ⟨_, σ', hm', .iteTrue hg he⟩
        · obtain ⟨u, hu, -⟩ := rcompile_exec hw hl he h3 (by omega)
            (fun q a b => hin q (by omega) (by omega)) hroom hr
          exact .inr (.inr ((ht.trans hu).take (by omega)))
      · exact .inr (.inl (.iteTrue hg ho))
      · have := ht.trans hu
        rw [show k.test g + (n - k.test g) = n by omega] at this
        exact .inr (.inr ⟨u, this⟩)
    · rw [if_neg hg] at hr
      obtain ⟨u, hu, hr⟩ := hb.jump h5 (by omega) (by omega) hr
      have hu := walk_of_path (In := In) hu fun q a b => hin q (by omega) (by omega)
      rcases ihd (n - k.test g - 1) (fun j hj => ihn j (by omega)) h4 (by omega)
        (fun q a b => hin q (by omega) (by omega)) hroom hr with ⟨m, σ', hm, he⟩ | ho | ⟨v, hv⟩
      · exact .inl ⟨_, σ', by omega, .iteFalse hg he⟩
      · exact .inr (.inl (.iteFalse hg ho))
      · have := (ht.trans hu).trans hv
        rw [show k.test g + 1 + (n - k.test g - 1) = n by omega] at this
        exact .inr (.inr ⟨v, this⟩)
  | loop g c ihc =>
    intro d p s σ fs hc hp hin hroom hs
    have hp' := hp
    have hc' := hc
    have hin' := hin
    simp only [RTarget.compile] at hc
    simp only [RTarget.size] at hp hin
    have hb := hw.base fs
    obtain ⟨h1, h2⟩ := hb.append hc
    obtain ⟨h5, h2⟩ := hb.append h2
    rw [hb.jumpSize] at h2
    obtain ⟨h3, h4⟩ := hb.append h2
    rw [rcompile_size hb.jumpSize hw.callSize] at h4
    obtain ⟨t, ht, hr⟩ := hb.test h1 (by omega) hs
    have ht := walk_of_path (In := In) ht fun q a b => hin q (by omega) (by omega)
    by_cases hn : n ≤ k.test g
    · exact .inr (.inr (ht.take hn))
    by_cases hg : g.Holds σ
    · rw [if_pos hg] at hr
      rcases ihc (n - k.test g) (fun j hj => ihn j (by omega)) h3 (by omega)
        (fun q a b => hin q (by omega) (by omega)) hroom hr with ⟨m, σ', hm, he⟩ | ho | ⟨u, hu⟩
      · obtain ⟨u, hu, hr⟩ := rcompile_exec hw hl he h3 (by omega)
          (fun q a b => hin q (by omega) (by omega)) hroom hr
        obtain ⟨v, hv, hr⟩ := hb.jump h4 (by omega) (by omega) hr
        have path := (ht.trans hu).trans (walk_of_path (In := In) hv fun q a b => hin q (by omega) (by omega))
        by_cases hm' : k.test g + m + 1 ≤ n
        · rcases ihn (n - (k.test g + m + 1)) (by omega) (.loop g c) hc' hp' hin' hroom hr with
            ⟨m', σ'', hm'', he'⟩ | ho | ⟨w, hw'⟩
          · exact .inl ⟨_, σ'', by omega, .loopTrue hg he he'⟩
          · exact .inr (.inl (.loopNext hg he ho))
          · have := path.trans hw'
            rw [show k.test g + m + 1 + (n - (k.test g + m + 1)) = n by omega] at this
            exact .inr (.inr ⟨w, this⟩)
        · exact .inr (.inr (path.take (by omega)))
      · exact .inr (.inl (.loopBody hg ho))
      · have := ht.trans hu
        rw [show k.test g + (n - k.test g) = n by omega] at this
        exact .inr (.inr ⟨u, this⟩)
    · exact .inl ⟨_, σ, by omega, .loopFalse hg⟩
  | call f =>
    intro d p s σ fs hc hp hin hroom hs
    simp only [RTarget.compile] at hc
    simp only [RTarget.size] at hp hin
    match d with
    | 0 => exact .inr (.inl (.callHere (by omega)))
    | 1 => exact .inr (.inl (.callHere (by omega)))
    | d + 2 =>
      cases n with
      | zero => exact .inr (.inr ⟨s, .nil⟩)
      | succ n =>
        have hf := hl.fits f
        have hcp := hw.callPos
        have hrp := hw.retPos
        obtain ⟨h1, h2⟩ := (hw.base fs).append (hl.code f)
        rw [rcompile_size (hw.base fs).jumpSize hw.callSize] at h2
        obtain ⟨t, ht, hr⟩ := hw.call hc hp (by omega) (by omega) hs
        have w1 : Walk step rel In 1 s t := .cons hs (hin p (Nat.le_refl _) (by omega)) ht .nil
        have hin1 : ∀ q, entry f ≤ q → q < entry f + T.size (body f) → In q :=
          fun q a b => hl.inside f q a (by omega)
        rcases ihn n (by omega) (body f) (d := d) h1 (by omega) hin1 (by simp only [room]; omega) hr with
          ⟨m, σ', hm, he⟩ | ho | ⟨u, hu⟩
        · by_cases hm' : 1 + m + 1 ≤ n + 1
          · exact .inl ⟨_, σ', hm', .call he⟩
          · obtain ⟨u, hu, -⟩ := rcompile_exec hw hl he h1 (by omega) hin1 (by simp only [room]; omega) hr
            exact .inr (.inr ((w1.trans hu).take (by omega)))
        · exact .inr (.inl (.callBody ho))
        · have := w1.trans hu
          rw [Nat.add_comm 1 n] at this
          exact .inr (.inr ⟨u, this⟩)
  | keeping x c ihc =>
    intro d p s σ fs hc hp hin hroom hs
    simp only [RTarget.compile] at hc
    simp only [RTarget.size] at hp hin
    cases d with
    | zero => exact .inr (.inl .keepingHere)
    | succ d =>
      obtain ⟨h1, h2⟩ := (hw.base fs).append hc
      obtain ⟨h2, h3⟩ := (hw.base fs).append h2
      rw [rcompile_size (hw.base fs).jumpSize hw.callSize] at h3
      obtain ⟨t, ht, hr⟩ := hw.save h1 (by omega) (by omega) hs
      have ht := walk_of_path (In := In) ht fun q a b => hin q (by omega) (by omega)
      have hin1 : ∀ q, p + T.bytes (T.save x) ≤ q → q < p + T.bytes (T.save x) + T.size c → In q :=
        fun q a b => hin q (by omega) (by omega)
      by_cases hn : n ≤ 2
      · exact .inr (.inr (ht.take hn))
      rcases ihc (n - 2) (fun j hj => ihn j (by omega)) (d := d) h2 (by omega) hin1 (by simp only [room]; omega) hr with
        ⟨m, σ', hm, he⟩ | ho | ⟨u, hu⟩
      · by_cases hm' : 2 + m + 2 ≤ n
        · exact .inl ⟨_, _, hm', .keeping he⟩
        · obtain ⟨u, hu, hr⟩ := rcompile_exec hw hl he h2 (by omega) hin1 (by simp only [room]; omega) hr
          obtain ⟨v, w, q, r1, s1, r2, q1, q2, s2, r3⟩ := hw.restore h3 (by omega) hr
          exact .inr (.inr (((ht.trans hu).trans (.cons r1 (hin _ (by omega) (by omega)) s1
            (.cons r2 (hin _ (by omega) (by omega)) s2 .nil))).take (by omega)))
      · exact .inr (.inl (.keepingBody ho))
      · have := ht.trans hu
        rw [show 2 + (n - 2) = n by omega] at this
        exact .inr (.inr ⟨u, this⟩)

/-- A program that neither ends nor runs out of stack keeps its code running. -/
theorem rcompile_endless (hw : RWorks T k step rel code top cap) (hl : Loaded T code top body entry In)
    {c : Prog ι φ} {d p : Nat} {s : S} {σ : Store ι} {fs : List Frame} (h : ¬ Ends k body d c σ)
    (ho : ¬ Overflows k body d c σ) (hc : code p (T.compile entry p c)) (hp : p + T.size c ≤ top)
    (hin : ∀ q, p ≤ q → q < p + T.size c → In q) (hroom : room fs + d ≤ cap) (hs : rel fs σ p s) (n : Nat) :
    ∃ t fs' σ' q, Walk step rel In n s t ∧ rel fs' σ' q t ∧ In q := by
  rcases rcompile_progress hw hl (n + 1) c hc hp hin hroom hs with ⟨m, σ', -, he⟩ | h' | ⟨t, ht⟩
  · exact absurd ⟨m, σ', he⟩ h
  · exact absurd h' ho
  · exact ht.last

/-- A program has one result and one running time, whatever the stack. -/
theorem rexec_unique {c : Prog ι φ} {d d' : Nat} {σ σ₁ σ₂ : Store ι} {n m : Nat} (h : Exec k body d c σ n σ₁)
    (h' : Exec k body d' c σ m σ₂) : n = m ∧ σ₁ = σ₂ := by
  induction h generalizing m σ₂ d' with
  | skip => cases h'; exact ⟨rfl, rfl⟩
  | act => cases h'; exact ⟨rfl, rfl⟩
  | seq _ _ ih ih' =>
    cases h' with
    | seq a b =>
      obtain ⟨rfl, rfl⟩ := ih a
      obtain ⟨rfl, rfl⟩ := ih' b
      exact ⟨rfl, rfl⟩
  | iteTrue hg _ ih =>
    cases h' with
    | iteTrue _ a => obtain ⟨rfl, rfl⟩ := ih a; exact ⟨rfl, rfl⟩
    | iteFalse hg' _ => exact absurd hg hg'
  | iteFalse hg _ ih =>
    cases h' with
    | iteTrue hg' _ => exact absurd hg' hg
    | iteFalse _ a => obtain ⟨rfl, rfl⟩ := ih a; exact ⟨rfl, rfl⟩
  | loopTrue hg _ _ ih ih' =>
    cases h' with
    | loopTrue _ a b =>
      obtain ⟨rfl, rfl⟩ := ih a
      obtain ⟨rfl, rfl⟩ := ih' b
      exact ⟨rfl, rfl⟩
    | loopFalse hg' => exact absurd hg hg'
  | loopFalse hg =>
    cases h' with
    | loopTrue hg' _ _ => exact absurd hg' hg
    | loopFalse _ => exact ⟨rfl, rfl⟩
  | call _ ih =>
    cases h' with
    | call a => obtain ⟨rfl, rfl⟩ := ih a; exact ⟨rfl, rfl⟩
  | keeping _ ih =>
    cases h' with
    | keeping a => obtain ⟨rfl, rfl⟩ := ih a; exact ⟨rfl, rfl⟩

/-- A program that ends within a stack does not run out of it. -/
theorem exec_not_overflows {c : Prog ι φ} {d : Nat} {σ σ' : Store ι} {n : Nat} (h : Exec k body d c σ n σ') :
    ¬ Overflows k body d c σ := by
  induction h with
  | skip => intro h; cases h
  | act => intro h; cases h
  | seq h1 _ ih ih' =>
    intro h
    cases h with
    | seqLeft h => exact ih h
    | seqRight h2 h3 => obtain ⟨-, rfl⟩ := rexec_unique h1 h2; exact ih' h3
  | iteTrue hg _ ih =>
    intro h
    cases h with
    | iteTrue _ h => exact ih h
    | iteFalse hg' _ => exact hg' hg
  | iteFalse hg _ ih =>
    intro h
    cases h with
    | iteTrue hg' _ => exact hg hg'
    | iteFalse _ h => exact ih h
  | loopTrue hg h1 _ ih ih' =>
    intro h
    cases h with
    | loopBody _ h => exact ih h
    | loopNext _ h2 h3 => obtain ⟨-, rfl⟩ := rexec_unique h1 h2; exact ih' h3
  | loopFalse hg =>
    intro h
    cases h with
    | loopBody hg' _ => exact hg hg'
    | loopNext hg' _ _ => exact hg hg'
  | call _ ih =>
    intro h
    cases h with
    | callHere h => omega
    | callBody h => exact ih h
  | keeping _ ih =>
    intro h
    cases h with
    | keepingBody h => exact ih h

end

end Verif.Recursive
