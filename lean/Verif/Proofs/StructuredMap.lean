import Verif.Spec.StructuredMap

/-!
# Structured programs with other variables: lemmas for C128
-/

namespace Verif.Spec.Structured

variable {ι κ : Type} [DecidableEq ι] [DecidableEq κ] {f : ι → κ} {k : Costs ι} {k' : Costs κ}

theorem put_map (hf : ∀ x y, f x = f y → x = y) (σ : Store κ) (x : ι) (v : BitVec 8) :
    (fun y => put σ (f x) v (f y)) = put (fun y => σ (f y)) x v := by
  funext y
  unfold put
  by_cases h : y = x
  · rw [if_pos h, if_pos (congrArg f h)]
  · rw [if_neg h, if_neg fun e => h (hf _ _ e)]

theorem eval_map (hf : ∀ x y, f x = f y → x = y) (a : Act ι) (σ : Store κ) :
    (fun y => (a.map f).eval σ (f y)) = a.eval (fun y => σ (f y)) := by
  cases a <;> exact put_map hf _ _ _

theorem eval_map_other (a : Act ι) (σ : Store κ) {z : κ} (hz : ∀ x, f x ≠ z) : (a.map f).eval σ z = σ z := by
  cases a <;> exact if_neg fun e => hz _ e.symm

omit [DecidableEq ι] [DecidableEq κ] in
theorem holds_map (g : Guard ι) (σ : Store κ) : (g.map f).Holds σ ↔ g.Holds (fun y => σ (f y)) := by
  cases g <;> exact Iff.rfl

/-- The program with other variables does the same with them, and nothing with the rest. -/
theorem exec_map (hf : ∀ x y, f x = f y → x = y) {c : Cmd ι} {s s' : Store ι} {n : Nat} (h : Exec k c s n s') :
    ∀ σ : Store κ, (fun y => σ (f y)) = s → ∃ n' σ', Exec k' (c.map f) σ n' σ' ∧ (fun y => σ' (f y)) = s' ∧
      ∀ z, (∀ x, f x ≠ z) → σ' z = σ z := by
  induction h with
  | skip => exact fun σ hσ => ⟨_, σ, .skip, hσ, fun _ _ => rfl⟩
  | @act a s => exact fun σ hσ => ⟨_, _, .act, by rw [eval_map hf, hσ], fun z hz => eval_map_other a σ hz⟩
  | seq _ _ ih ih' =>
    intro σ hσ
    obtain ⟨_, σ₁, h1, h2, h3⟩ := ih σ hσ
    obtain ⟨_, σ₂, h4, h5, h6⟩ := ih' σ₁ h2
    exact ⟨_, σ₂, .seq h1 h4, h5, fun z hz => (h6 z hz).trans (h3 z hz)⟩
  | iteTrue hg _ ih =>
    intro σ hσ
    obtain ⟨_, σ₁, h1, h2⟩ := ih σ hσ
    exact ⟨_, σ₁, .iteTrue ((holds_map _ _).2 (hσ ▸ hg)) h1, h2⟩
  | iteFalse hg _ ih =>
    intro σ hσ
    obtain ⟨_, σ₁, h1, h2⟩ := ih σ hσ
    exact ⟨_, σ₁, .iteFalse (fun h => hg (hσ ▸ (holds_map _ _).1 h)) h1, h2⟩
  | loopTrue hg _ _ ih ih' =>
    intro σ hσ
    obtain ⟨_, σ₁, h1, h2, h3⟩ := ih σ hσ
    obtain ⟨_, σ₂, h4, h5, h6⟩ := ih' σ₁ h2
    exact ⟨_, σ₂, .loopTrue ((holds_map _ _).2 (hσ ▸ hg)) h1 h4, h5, fun z hz => (h6 z hz).trans (h3 z hz)⟩
  | loopFalse hg =>
    exact fun σ hσ => ⟨_, σ, .loopFalse fun h => hg (hσ ▸ (holds_map _ _).1 h), hσ, fun _ _ => rfl⟩

/-- And conversely. -/
theorem exec_unmap (hf : ∀ x y, f x = f y → x = y) {c' : Cmd κ} {σ σ' : Store κ} {n : Nat}
    (h : Exec k' c' σ n σ') : ∀ c : Cmd ι, c.map f = c' →
      ∃ n', Exec k c (fun y => σ (f y)) n' (fun y => σ' (f y)) := by
  induction h with
  | skip => intro c hc; cases c <;> cases hc; exact ⟨_, .skip⟩
  | act =>
    intro c hc
    cases c <;> cases hc
    rw [eval_map hf]
    exact ⟨_, .act⟩
  | seq _ _ ih ih' =>
    intro c hc
    cases c <;> cases hc
    obtain ⟨_, h1⟩ := ih _ rfl
    obtain ⟨_, h2⟩ := ih' _ rfl
    exact ⟨_, .seq h1 h2⟩
  | iteTrue hg _ ih =>
    intro c hc
    cases c <;> cases hc
    obtain ⟨_, h1⟩ := ih _ rfl
    exact ⟨_, .iteTrue ((holds_map _ _).1 hg) h1⟩
  | iteFalse hg _ ih =>
    intro c hc
    cases c <;> cases hc
    obtain ⟨_, h1⟩ := ih _ rfl
    exact ⟨_, .iteFalse (fun h => hg ((holds_map _ _).2 h)) h1⟩
  | loopTrue hg _ _ ih ih' =>
    intro c hc
    cases c <;> cases hc
    obtain ⟨_, h1⟩ := ih _ rfl
    obtain ⟨_, h2⟩ := ih' (.loop _ _) rfl
    exact ⟨_, .loopTrue ((holds_map _ _).1 hg) h1 h2⟩
  | loopFalse hg =>
    intro c hc
    cases c <;> cases hc
    exact ⟨_, .loopFalse fun h => hg ((holds_map _ _).2 h)⟩

end Verif.Spec.Structured
