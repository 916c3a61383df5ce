import Verif.Spec.ChartTimed
import Verif.Proofs.Chart
import Verif.Proofs.FlowTimed

/-!
# The running time of flow charts, on any machine
-/

namespace Verif.Flow

open Verif.Spec.Flow

section
variable {A G V W S M : Type} [Zero M] [Add M] {D : Meaning A G V} {T : Target A G W} {k : Times A G V M}
  {time : M → S → S → Prop} {rel : V → Nat → S → Prop} {code : Nat → List W → Prop} {top : Nat} {ch : Chart A G}

theorem block_code_timed (hw : TWorks D T k time rel code top) {p l : Nat} {b : Block A G}
    (hc : code p (T.assemble p ch)) (h : ch[l]? = some b) :
    code (T.entry p ch l) (T.blockCode (T.entry p ch) b) := by
  unfold Target.assemble at hc
  rw [show ch.flatMap (T.blockCode (T.entry p ch)) = (ch.take l).flatMap (T.blockCode (T.entry p ch)) ++
      (T.blockCode (T.entry p ch) b ++ (ch.drop (l + 1)).flatMap (T.blockCode (T.entry p ch))) by
    conv => lhs; rw [chart_split h]
    rw [List.flatMap_append, List.flatMap_cons, ← chart_split h]] at hc
  have h1 := (hw.append hc).2
  rw [assemble_size hw.jumpSize] at h1
  exact (hw.append h1).1

theorem acts_reach (hw : TWorks D T k time rel code top) (as : List A) : ∀ {p : Nat} {σ : V} {s : S},
    code p (as.flatMap T.act) → p + T.bytes (as.flatMap T.act) ≤ top → rel σ p s →
    ∃ t, time (k.acts D as σ) s t ∧ rel (D.after as σ) (p + T.bytes (as.flatMap T.act)) t := by
  induction as with
  | nil =>
    intro p σ s _ _ hs
    exact ⟨s, hw.nil, hs⟩
  | cons a as ih =>
    intro p σ s hc hp hs
    rw [List.flatMap_cons] at hc hp ⊢
    rw [bytes_append] at hp ⊢
    obtain ⟨h1, h2⟩ := hw.append hc
    obtain ⟨t, ht, hr⟩ := hw.act h1 (by omega) hs
    obtain ⟨u, hu, hr⟩ := ih h2 (by omega) hr
    rw [← Nat.add_assoc]
    exact ⟨u, hw.trans ht hu, hr⟩

/-- The code of a chart takes as long as counted. -/
theorem chart_reaches (hw : TWorks D T k time rel code top) {p l l' : Nat} {n : M} {σ σ' : V}
    (hc : code p (T.assemble p ch)) (hp : p + T.chartSize ch ≤ top) (h : ChartTakes D T k p ch l σ n l' σ') :
    ∀ {s : S}, rel σ (T.entry p ch l) s → ∃ t, time n s t ∧ rel σ' (T.entry p ch l') t := by
  induction h with
  | here => intro s hs; exact ⟨s, hw.nil, hs⟩
  | @block l σ b e l' n l'' σ'' hb hg _ ih =>
    intro s hs
    have h0 := block_code_timed hw hc hb
    have h2 := entry_block (T := T) (p := p) hb
    have h3 : ∀ j, T.entry p ch j ≤ top := fun j => Nat.le_trans (entry_le p j).2 hp
    obtain ⟨acts, exit⟩ := b
    unfold Target.blockCode at h0
    unfold Target.blockSize at h2
    obtain ⟨h4, h5⟩ := hw.append h0
    simp only at h2 h4 h5 hg ih ⊢
    obtain ⟨t, ht, hr⟩ := acts_reach hw acts h4 (by omega) hs
    cases hg with
    | goto =>
      simp only at h2 h5
      obtain ⟨u, hu, hr⟩ := hw.jump h5 (by omega) (h3 _) hr
      obtain ⟨v, hv, hr⟩ := ih hr
      exact ⟨v, hw.trans (hw.trans ht hu) hv, hr⟩
    | yes hy =>
      simp only at h2 h5
      obtain ⟨h6, h7⟩ := hw.append h5
      obtain ⟨h7, h8⟩ := hw.append h7
      rw [hw.jumpSize] at h8
      obtain ⟨u, hu, hr⟩ := hw.testTrue h6 (by omega) hr hy
      obtain ⟨v, hv, hr⟩ := hw.jump h8 (by omega) (h3 _) hr
      obtain ⟨w, hw', hr⟩ := ih hr
      exact ⟨w, hw.trans (hw.trans ht (hw.trans hu hv)) hw', hr⟩
    | no hn =>
      simp only at h2 h5
      obtain ⟨h6, h7⟩ := hw.append h5
      obtain ⟨h7, h8⟩ := hw.append h7
      obtain ⟨u, hu, hr⟩ := hw.testFalse h6 (by omega) hr hn
      obtain ⟨v, hv, hr⟩ := hw.jump h7 (by omega) (h3 _) hr
      obtain ⟨w, hw', hr⟩ := ih hr
      exact ⟨w, hw.trans (hw.trans ht (hw.trans hu hv)) hw', hr⟩

theorem exitTakes_unique {q : Nat} {x : Exit G} {σ : V} {m m' : M} {l l' : Nat} (h : ExitTakes D k q x σ m l)
    (h' : ExitTakes D k q x σ m' l') : m = m' ∧ l = l' := by
  cases h with
  | goto => cases h'; exact ⟨rfl, rfl⟩
  | yes h => cases h' with
    | yes => exact ⟨rfl, rfl⟩
    | no h' => exact absurd h h'
  | no h => cases h' with
    | yes h' => exact absurd h' h
    | no => exact ⟨rfl, rfl⟩

/-- A chart that ends has one running time. -/
theorem chartTakes_unique {p l l₁ l₂ : Nat} {n₁ n₂ : M} {σ σ₁ σ₂ : V} (h₁ : ChartTakes D T k p ch l σ n₁ l₁ σ₁)
    (h₂ : ChartTakes D T k p ch l σ n₂ l₂ σ₂) (e₁ : ch.length ≤ l₁) (e₂ : ch.length ≤ l₂) :
    n₁ = n₂ ∧ l₁ = l₂ ∧ σ₁ = σ₂ := by
  induction h₁ generalizing n₂ with
  | here =>
    cases h₂ with
    | here => exact ⟨rfl, rfl, rfl⟩
    | block hb => rw [List.getElem?_eq_none e₁] at hb; cases hb
  | block hb hg _ ih =>
    cases h₂ with
    | here => rw [List.getElem?_eq_none e₂] at hb; cases hb
    | block hb' hg' h' =>
      rw [hb] at hb'
      cases hb'
      obtain ⟨rfl, rfl⟩ := exitTakes_unique hg hg'
      obtain ⟨rfl, rfl, rfl⟩ := ih h' e₁
      exact ⟨rfl, rfl, rfl⟩

/-- A chart that gets somewhere has a running time. -/
theorem follows_takes {K : Costs A G} {p l l' n : Nat} {σ σ' : V} (h : Follows D K ch l σ n l' σ') :
    ∃ t, ChartTakes D T k p ch l σ t l' σ' := by
  induction h with
  | here => exact ⟨_, .here⟩
  | @block l _ b _ _ _ _ hb hg _ ih =>
    obtain ⟨t, ht⟩ := ih
    obtain ⟨acts, exit⟩ := b
    cases hg with
    | goto => exact ⟨_, .block hb .goto ht⟩
    | yes h => exact ⟨_, .block hb (.yes h) ht⟩
    | no h => exact ⟨_, .block hb (.no h) ht⟩

end

section
variable {A G V W : Type} {D : Meaning A G V} {T : Target A G W} {k : Times A G V Nat} {K : Costs A G} {ch : Chart A G}

theorem acts_counted (as : List A) (σ : V) :
    (counted k K).acts D as σ = ⟨k.acts D as σ, (as.map K.act).sum⟩ := by
  induction as generalizing σ with
  | nil => rfl
  | cons a as ih =>
    show (counted k K).act a σ + (counted k K).acts D as (D.eval a σ) = _
    rw [ih]
    rfl

/-- A chart with a running time executes a number of instructions in this time. -/
theorem chartTakes_counted {p l l' t : Nat} {σ σ' : V} (h : ChartTakes D T k p ch l σ t l' σ') :
    ∃ n, Follows D K ch l σ n l' σ' ∧ ChartTakes D T (counted k K) p ch l σ ⟨t, n⟩ l' σ' := by
  induction h with
  | here => exact ⟨_, .here, .here⟩
  | @block l σ b e l' n l'' σ'' hb hg _ ih =>
    obtain ⟨n', h1, h2⟩ := ih
    obtain ⟨acts, exit⟩ := b
    cases hg with
    | goto =>
      refine ⟨_, .block hb .goto h1, ?_⟩
      have := ChartTakes.block (k := counted k K) hb .goto h2
      rw [acts_counted] at this
      exact this
    | yes h =>
      refine ⟨_, .block hb (.yes h) h1, ?_⟩
      have := ChartTakes.block (k := counted k K) hb (.yes h) h2
      rw [acts_counted] at this
      exact this
    | no h =>
      refine ⟨_, .block hb (.no h) h1, ?_⟩
      have := ChartTakes.block (k := counted k K) hb (.no h) h2
      rw [acts_counted] at this
      exact this

end

end Verif.Flow
