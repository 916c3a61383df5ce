import Verif.Proofs.Recursive

/-!
# Programs with calls on a machine that returns to the call

On such a machine a call that returns is executed again, so a program never gets past a call. `rel κ`
relates states in which the machine would return to `κ`.
-/

namespace Verif.Subroutine

open Verif.Spec.Structured Verif.Spec.Recursive Verif.Structured Verif.Recursive

/-- The program keeps no variables. -/
def NoKeeping {ι φ : Type} : Prog ι φ → Prop
  | .skip | .act _ | .call _ => True
  | .seq c d | .ite _ c d => NoKeeping c ∧ NoKeeping d
  | .loop _ c => NoKeeping c
  | .keeping _ _ => False

section
variable {ι φ W S : Type} [DecidableEq ι] {T : RTarget ι W} {k : Costs ι} {step : S → S → Prop}
  {rel : Option Nat → List Frame → Store ι → Nat → S → Prop} {code : Nat → List W → Prop} {top : Nat}
  {body : φ → Prog ι φ} {entry : φ → Nat} {In : Nat → Prop}

/-- A state with any address to return to. -/
def Any (rel : Option Nat → List Frame → Store ι → Nat → S → Prop) (fs : List Frame) (σ : Store ι) (q : Nat)
    (s : S) : Prop := ∃ κ, rel κ fs σ q s

omit [DecidableEq ι] in
theorem walk_any {κ : Option Nat} {n : Nat} {s t : S} (h : Walk step (rel κ) In n s t) :
    Walk step (Any rel) In n s t := by
  induction h with
  | nil => exact .nil
  | cons hr hq hs _ ih => exact .cons ⟨κ, hr⟩ hq hs ih

omit [DecidableEq ι] in
theorem walk_path {κ : Option Nat} {fs : List Frame} {lo hi n : Nat} {s t : S}
    (h : Path step (rel κ fs) lo hi n s t) (hin : ∀ q, lo ≤ q → q < hi → In q) :
    Walk step (Any rel) In n s t := walk_any (walk_of_path h hin)

/-- The state `s` is at a call of `f` that lies at `q`. -/
structure AtCall (T : RTarget ι W) (rel : Option Nat → List Frame → Store ι → Nat → S → Prop)
    (code : Nat → List W → Prop) (top : Nat) (entry : φ → Nat) (In : Nat → Prop) (f : φ) (σ : Store ι) (q : Nat)
    (s : S) : Prop where
  state : ∃ κ, rel κ [] σ q s
  code : code q (T.call (entry f))
  fits : q + T.callSize ≤ top
  inside : In q

/-- A program that comes to a call leads to it. -/
theorem reach_call (hw : ∀ κ, RWorks T k step (rel κ) code top 0) (hl : Loaded T code top body entry In)
    {d : Nat} {c : Prog ι φ} {σ : Store ι} (h : Overflows k body d c σ) :
    d = 0 → NoKeeping c → ∀ {p : Nat} {s : S} {κ : Option Nat}, code p (T.compile entry p c) →
    p + T.size c ≤ top → (∀ q, p ≤ q → q < p + T.size c → In q) → rel κ [] σ p s →
    ∃ m t f σ' q, Walk step (Any rel) In m s t ∧ AtCall T rel code top entry In f σ' q t := by
  induction h with
  | seqLeft _ ih =>
    rintro rfl hk p s κ hc hp hin hs
    simp only [RTarget.compile] at hc
    simp only [RTarget.size] at hp hin
    obtain ⟨h1, -⟩ := ((hw κ).base []).append hc
    exact ih rfl hk.1 h1 (by omega) (fun q a b => hin q (by omega) (by omega)) hs
  | seqRight h _ ih =>
    rintro rfl hk p s κ hc hp hin hs
    simp only [RTarget.compile] at hc
    simp only [RTarget.size] at hp hin
    obtain ⟨h1, h2⟩ := ((hw κ).base []).append hc
    rw [rcompile_size ((hw κ).base []).jumpSize (hw κ).callSize] at h2
    obtain ⟨t, ht, hr⟩ := rcompile_exec (hw κ) hl h h1 (by omega) (fun q a b => hin q (by omega) (by omega))
      (Nat.le_refl _) hs
    obtain ⟨m, u, f, σ', q, hu, ha⟩ := ih rfl hk.2 h2 (by omega) (fun q a b => hin q (by omega) (by omega)) hr
    exact ⟨_, u, f, σ', q, (walk_any ht).trans hu, ha⟩
  | iteTrue hg _ ih =>
    rintro rfl hk p s κ hc hp hin hs
    simp only [RTarget.compile] at hc
    simp only [RTarget.size] at hp hin
    have hb := (hw κ).base []
    obtain ⟨h1, h2⟩ := hb.append hc
    obtain ⟨-, h2⟩ := hb.append h2
    rw [hb.jumpSize] at h2
    obtain ⟨h3, -⟩ := hb.append h2
    obtain ⟨t, ht, hr⟩ := hb.test h1 (by omega) hs
    rw [if_pos hg] at hr
    obtain ⟨m, u, f, σ', q, hu, ha⟩ := ih rfl hk.1 h3 (by omega) (fun q a b => hin q (by omega) (by omega)) hr
    exact ⟨_, u, f, σ', q, (walk_path ht fun q a b => hin q (by omega) (by omega)).trans hu, ha⟩
  | iteFalse hg _ ih =>
    rintro rfl hk p s κ hc hp hin hs
    simp only [RTarget.compile] at hc
    simp only [RTarget.size] at hp hin
    have hb := (hw κ).base []
    obtain ⟨h1, h2⟩ := hb.append hc
    obtain ⟨h5, h2⟩ := hb.append h2
    rw [hb.jumpSize] at h2
    obtain ⟨h3, h4⟩ := hb.append h2
    rw [rcompile_size hb.jumpSize (hw κ).callSize] at h4
    obtain ⟨-, h4⟩ := hb.append h4
    rw [hb.jumpSize] at h4
    obtain ⟨t, ht, hr⟩ := hb.test h1 (by omega) hs
    rw [if_neg hg] at hr
    obtain ⟨v, hv, hr⟩ := hb.jump h5 (by omega) (by omega) hr
    obtain ⟨m, u, f, σ', q, hu, ha⟩ := ih rfl hk.2 h4 (by omega) (fun q a b => hin q (by omega) (by omega)) hr
    exact ⟨_, u, f, σ', q, ((walk_path ht fun q a b => hin q (by omega) (by omega)).trans
      (walk_path hv fun q a b => hin q (by omega) (by omega))).trans hu, ha⟩
  | loopBody hg _ ih =>
    rintro rfl hk p s κ hc hp hin hs
    simp only [RTarget.compile] at hc
    simp only [RTarget.size] at hp hin
    have hb := (hw κ).base []
    obtain ⟨h1, h2⟩ := hb.append hc
    obtain ⟨-, h2⟩ := hb.append h2
    rw [hb.jumpSize] at h2
    obtain ⟨h3, -⟩ := hb.append h2
    obtain ⟨t, ht, hr⟩ := hb.test h1 (by omega) hs
    rw [if_pos hg] at hr
    obtain ⟨m, u, f, σ', q, hu, ha⟩ := ih rfl hk h3 (by omega) (fun q a b => hin q (by omega) (by omega)) hr
    exact ⟨_, u, f, σ', q, (walk_path ht fun q a b => hin q (by omega) (by omega)).trans hu, ha⟩
  | loopNext hg h _ ih =>
    rintro rfl hk p s κ hc hp hin hs
    have hc' := hc
    have hp' := hp
    have hin' := hin
    simp only [RTarget.compile] at hc
    simp only [RTarget.size] at hp hin
    have hb := (hw κ).base []
    obtain ⟨h1, h2⟩ := hb.append hc
    obtain ⟨-, h2⟩ := hb.append h2
    rw [hb.jumpSize] at h2
    obtain ⟨h3, h4⟩ := hb.append h2
    rw [rcompile_size hb.jumpSize (hw κ).callSize] at h4
    obtain ⟨t, ht, hr⟩ := hb.test h1 (by omega) hs
    rw [if_pos hg] at hr
    obtain ⟨v, hv, hr⟩ := rcompile_exec (hw κ) hl h h3 (by omega) (fun q a b => hin q (by omega) (by omega))
      (Nat.le_refl _) hr
    obtain ⟨w, hw', hr⟩ := hb.jump h4 (by omega) (by omega) hr
    obtain ⟨m, u, f, σ', q, hu, ha⟩ := ih rfl hk hc' hp' hin' hr
    exact ⟨_, u, f, σ', q, (((walk_path ht fun q a b => hin q (by omega) (by omega)).trans (walk_any hv)).trans
      (walk_path hw' fun q a b => hin q (by omega) (by omega))).trans hu, ha⟩
  | @callHere d f σ h =>
    rintro rfl hk p s κ hc hp hin hs
    have := (hw κ).callPos
    exact ⟨0, s, f, σ, p, .nil, ⟨κ, hs⟩, hc, hp, hin p (Nat.le_refl _) (by show p < p + T.callSize; omega)⟩
  | callBody => intro h; omega
  | keepingHere => intro _ hk; exact hk.elim
  | keepingBody => intro h; omega

/-- The machine returns to the call: a call notes its own address, a return leads to the noted one. -/
structure ReturnsToCall (T : RTarget ι W) (step : S → S → Prop)
    (rel : Option Nat → List Frame → Store ι → Nat → S → Prop) (code : Nat → List W → Prop) (top : Nat) : Prop where
  call : ∀ {p e κ σ s}, code p (T.call e) → p + T.callSize ≤ top → e ≤ top → rel κ [] σ p s →
    ∃ t, step s t ∧ rel (some p) [] σ e t
  ret : ∀ {p r σ s}, code p T.ret → p + T.bytes T.ret ≤ top → rel (some r) [] σ p s →
    ∃ t, step s t ∧ rel (some r) [] σ r t

/-- A call of a procedure that ends, without calls, is back at the call afterwards. -/
theorem call_again (hw : ∀ κ, RWorks T k step (rel κ) code top 0) (hc : ReturnsToCall T step rel code top)
    (hl : Loaded T code top body entry In) {f : φ} {σ σ' : Store ι} {n q : Nat} {s : S}
    (ha : AtCall T rel code top entry In f σ q s) (h : Exec k body 0 (body f) σ n σ') :
    ∃ t, Walk step (Any rel) In (1 + n + 1) s t ∧ rel (some q) [] σ' q t := by
  obtain ⟨κ, hs⟩ := ha.state
  have hf := hl.fits f
  have hrp := (hw κ).retPos
  obtain ⟨t, ht, hr⟩ := hc.call ha.code ha.fits (by omega) hs
  obtain ⟨h1, h2⟩ := ((hw κ).base []).append (hl.code f)
  rw [rcompile_size ((hw κ).base []).jumpSize (hw κ).callSize] at h2
  obtain ⟨u, hu, hr'⟩ := rcompile_exec (hw (some q)) hl h h1 (by omega)
    (fun q a b => hl.inside f q a (by omega)) (Nat.le_refl _) hr
  obtain ⟨v, hv, hr''⟩ := hc.ret h2 hf hr'
  exact ⟨v, ((Walk.cons ⟨κ, hs⟩ ha.inside ht .nil).trans (walk_any hu)).trans
    (.cons ⟨_, hr'⟩ (hl.inside f _ (by omega) (by omega)) hv .nil), hr''⟩

/-- From a call the code runs for ever. -/
theorem call_forever (hw : ∀ κ, RWorks T k step (rel κ) code top 0) (hc : ReturnsToCall T step rel code top)
    (hl : Loaded T code top body entry In) (hk : ∀ f, NoKeeping (body f)) (n : Nat) :
    ∀ {f : φ} {σ : Store ι} {q : Nat} {s : S}, AtCall T rel code top entry In f σ q s →
    ∃ t, Walk step (Any rel) In n s t := by
  induction n using Nat.strongRecOn with
  | ind n ih =>
  intro f σ q s ha
  cases n with
  | zero => exact ⟨s, .nil⟩
  | succ n =>
  obtain ⟨κ, hs⟩ := ha.state
  have hf := hl.fits f
  obtain ⟨t, ht, hr⟩ := hc.call ha.code ha.fits (by omega) hs
  obtain ⟨h1, -⟩ := ((hw κ).base []).append (hl.code f)
  have hin : ∀ q, entry f ≤ q → q < entry f + T.size (body f) → In q := fun q a b => hl.inside f q a (by omega)
  have w1 : Walk step (Any rel) In 1 s t := .cons ⟨κ, hs⟩ ha.inside ht .nil
  rcases rcompile_progress (hw (some q)) hl n (body f) h1 (by omega) hin (d := 0) (Nat.le_refl _) hr with
    ⟨m, σ', hm, he⟩ | ho | ⟨u, hu⟩
  · obtain ⟨u, hu, hr'⟩ := call_again hw hc hl ha he
    by_cases hm' : 1 + m + 1 ≤ n + 1
    · obtain ⟨v, hv⟩ := ih (n + 1 - (1 + m + 1)) (by omega) ⟨⟨_, hr'⟩, ha.code, ha.fits, ha.inside⟩
      have := hu.trans hv
      rw [show 1 + m + 1 + (n + 1 - (1 + m + 1)) = n + 1 by omega] at this
      exact ⟨v, this⟩
    · exact hu.take (by omega)
  · obtain ⟨m, u, f', σ', q', hu, ha'⟩ := reach_call hw hl ho rfl (hk f) h1 (by omega) hin hr
    by_cases hm : m ≤ n
    · obtain ⟨v, hv⟩ := ih (n - m) (by omega) ha'
      have := (w1.trans hu).trans hv
      rw [show 1 + m + (n - m) = n + 1 by omega] at this
      exact ⟨v, this⟩
    · exact (w1.trans hu).take (by omega)
  · have := w1.trans (walk_any hu)
    rw [Nat.add_comm] at this
    exact ⟨u, this⟩

/-- A program that does not end without a call keeps its code running. -/
theorem sub_endless (hw : ∀ κ, RWorks T k step (rel κ) code top 0) (hc : ReturnsToCall T step rel code top)
    (hl : Loaded T code top body entry In) (hk : ∀ f, NoKeeping (body f)) {c : Prog ι φ} (hkc : NoKeeping c)
    {p : Nat} {s : S} {σ : Store ι} {κ : Option Nat} (h : ¬ Ends k body 0 c σ)
    (hcode : code p (T.compile entry p c)) (hp : p + T.size c ≤ top)
    (hin : ∀ q, p ≤ q → q < p + T.size c → In q) (hs : rel κ [] σ p s) (n : Nat) :
    ∃ t κ' fs σ' q, Walk step (Any rel) In n s t ∧ rel κ' fs σ' q t ∧ In q := by
  have : ∃ t, Walk step (Any rel) In (n + 1) s t := by
    rcases rcompile_progress (hw κ) hl (n + 1) c hcode hp hin (d := 0) (Nat.le_refl _) hs with ⟨m, σ', -, he⟩ | ho | ⟨t, ht⟩
    · exact absurd ⟨m, σ', he⟩ h
    · obtain ⟨m, u, f', σ', q', hu, ha'⟩ := reach_call hw hl ho rfl hkc hcode hp hin hs
      by_cases hm : m ≤ n + 1
      · obtain ⟨v, hv⟩ := call_forever hw hc hl hk (n + 1 - m) ha'
        have := hu.trans hv
        rw [show m + (n + 1 - m) = n + 1 by omega] at this
        exact ⟨v, this⟩
      · exact hu.take (by omega)
    · exact ⟨t, walk_any ht⟩
  obtain ⟨t, ht⟩ := this
  obtain ⟨u, fs, σ', q, hu, ⟨κ', hr⟩, hq⟩ := ht.last
  exact ⟨u, κ', fs, σ', q, hu, hr, hq⟩

end

end Verif.Subroutine
