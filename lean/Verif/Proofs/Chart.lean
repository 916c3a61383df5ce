import Verif.Proofs.Flow
import Verif.Spec.Chart

/-!
# Assembled flow charts do what the charts mean
-/

namespace Verif.Flow

open Verif.Spec.Flow

section
variable {A G V W S : Type} {M : Meaning A G V} {T : Target A G W} {k : Costs A G} {step : S → S → Prop}
  {rel : V → Nat → S → Prop} {here : Nat → S → Prop} {code : Nat → List W → Prop} {top : Nat} {ch : Chart A G}

theorem blockCode_size (hj : ∀ l, T.bytes (T.jump l) = T.jumpSize) (e : Nat → Nat) (b : Block A G) :
    T.bytes (T.blockCode e b) = T.blockSize b := by
  unfold Target.blockCode Target.blockSize
  rw [bytes_append]
  cases b.exit with
  | goto l => rw [hj]
  | branch g l l' => rw [bytes_append, bytes_append, hj, hj, ← Nat.add_assoc (T.bytes (T.test g))]

theorem assemble_size (hj : ∀ l, T.bytes (T.jump l) = T.jumpSize) (e : Nat → Nat) (ch : Chart A G) :
    T.bytes (ch.flatMap (T.blockCode e)) = T.chartSize ch := by
  induction ch with
  | nil => rfl
  | cons b ch ih =>
    rw [List.flatMap_cons, bytes_append, ih, blockCode_size hj]
    rfl

theorem chartSize_append (u v : Chart A G) : T.chartSize (u ++ v) = T.chartSize u + T.chartSize v := by
  unfold Target.chartSize
  rw [List.map_append, List.sum_append]

/-- The part of a chart with a block. -/
theorem chart_split {l : Nat} {b : Block A G} (h : ch[l]? = some b) : ch = ch.take l ++ (b :: ch.drop (l + 1)) := by
  obtain ⟨hl, rfl⟩ := List.getElem?_eq_some_iff.1 h
  rw [← List.drop_eq_getElem_cons hl, List.take_append_drop]

theorem entry_le (p l : Nat) : p ≤ T.entry p ch l ∧ T.entry p ch l ≤ p + T.chartSize ch := by
  have h := chartSize_append (T := T) (ch.take l) (ch.drop l)
  rw [List.take_append_drop] at h
  unfold Target.entry
  omega

theorem entry_block {p l : Nat} {b : Block A G} (h : ch[l]? = some b) :
    T.entry p ch l + T.blockSize b ≤ p + T.chartSize ch := by
  have e := congrArg T.chartSize (chart_split h)
  rw [chartSize_append] at e
  have : T.chartSize (b :: ch.drop (l + 1)) = T.blockSize b + T.chartSize (ch.drop (l + 1)) := rfl
  unfold Target.entry
  omega

theorem entry_out {p l : Nat} (h : ch.length ≤ l) : T.entry p ch l = p + T.chartSize ch := by
  unfold Target.entry
  rw [List.take_of_length_le h]

/-- The code of a block lies where the block begins. -/
theorem block_code (hw : Works M T k step rel here code top) {p l : Nat} {b : Block A G} (hc : code p (T.assemble p ch))
    (h : ch[l]? = some b) : code (T.entry p ch l) (T.blockCode (T.entry p ch) b) := by
  unfold Target.assemble at hc
  rw [show ch.flatMap (T.blockCode (T.entry p ch)) = (ch.take l).flatMap (T.blockCode (T.entry p ch)) ++
      (T.blockCode (T.entry p ch) b ++ (ch.drop (l + 1)).flatMap (T.blockCode (T.entry p ch))) by
    conv => lhs; rw [chart_split h]
    rw [List.flatMap_append, List.flatMap_cons, ← chart_split h]] at hc
  have h1 := (hw.append hc).2
  rw [assemble_size hw.jumpSize] at h1
  exact (hw.append h1).1

theorem acts_path (hw : Works M T k step rel here code top) (as : List A) : ∀ {p : Nat} {σ : V} {s : S},
    code p (as.flatMap T.act) → p + T.bytes (as.flatMap T.act) ≤ top → rel σ p s →
    ∃ t, Path step here p (p + T.bytes (as.flatMap T.act)) (as.map k.act).sum s t ∧
      rel (M.after as σ) (p + T.bytes (as.flatMap T.act)) t := by
  induction as with
  | nil =>
    intro p σ s _ _ hs
    exact ⟨s, .nil, hs⟩
  | cons a as ih =>
    intro p σ s hc hp hs
    rw [List.flatMap_cons] at hc hp ⊢
    rw [bytes_append] at hp ⊢
    obtain ⟨h1, h2⟩ := hw.append hc
    obtain ⟨t, ht, hr⟩ := hw.act h1 (by omega) hs
    obtain ⟨u, hu, hr⟩ := ih h2 (by omega) hr
    rw [← Nat.add_assoc]
    exact ⟨u, (ht.mono (by omega) (by omega)).trans (hu.mono (by omega) (by omega)), hr⟩

/-- The code of a block does what the block means. -/
theorem block_path (hw : Works M T k step rel here code top) {p l l' : Nat} {b : Block A G} {σ : V} {s : S}
    (hc : code p (T.assemble p ch)) (hp : p + T.chartSize ch ≤ top) (hb : ch[l]? = some b)
    (hg : Goes M b.exit (M.after b.acts σ) l') (hs : rel σ (T.entry p ch l) s) :
    ∃ t, Path step here p (p + T.chartSize ch) (k.block b) s t ∧ rel (M.after b.acts σ) (T.entry p ch l') t := by
  have h0 := block_code hw hc hb
  have h1 := (entry_le (T := T) (ch := ch) p l).1
  have h2 := entry_block (T := T) (p := p) hb
  have h3 : ∀ j, T.entry p ch j ≤ top := fun j => Nat.le_trans (entry_le p j).2 hp
  obtain ⟨acts, exit⟩ := b
  unfold Target.blockCode at h0
  unfold Target.blockSize at h2
  unfold Costs.block
  obtain ⟨h4, h5⟩ := hw.append h0
  simp only at h2 h4 h5 hg ⊢
  obtain ⟨t, ht, hr⟩ := acts_path hw acts h4 (by omega) hs
  cases hg with
  | goto =>
    simp only [Costs.exit] at h2 h5 ⊢
    obtain ⟨u, hu, hr⟩ := hw.jump h5 (by omega) (h3 _) hr
    exact ⟨u, (ht.mono (by omega) (by omega)).trans (hu.mono (by omega) (by omega)), hr⟩
  | yes hy =>
    simp only [Costs.exit] at h2 h5 ⊢
    obtain ⟨h6, h7⟩ := hw.append h5
    obtain ⟨h7, h8⟩ := hw.append h7
    rw [hw.jumpSize] at h8
    obtain ⟨u, hu, hr, -⟩ := hw.test h6 (by omega) hr
    obtain ⟨v, hv, hr⟩ := hw.jump h8 (by omega) (h3 _) (hr hy)
    exact ⟨v, (ht.mono (by omega) (by omega)).trans ((hu.mono (by omega) (by omega)).trans
      (hv.mono (by omega) (by omega))), hr⟩
  | no hn =>
    simp only [Costs.exit] at h2 h5 ⊢
    obtain ⟨h6, h7⟩ := hw.append h5
    obtain ⟨h7, h8⟩ := hw.append h7
    obtain ⟨u, hu, -, hr⟩ := hw.test h6 (by omega) hr
    obtain ⟨v, hv, hr⟩ := hw.jump h7 (by omega) (h3 _) (hr hn)
    exact ⟨v, (ht.mono (by omega) (by omega)).trans ((hu.mono (by omega) (by omega)).trans
      (hv.mono (by omega) (by omega))), hr⟩

/-- The code of a chart gets where the chart gets. -/
theorem chart_path (hw : Works M T k step rel here code top) {p l l' n : Nat} {σ σ' : V}
    (hc : code p (T.assemble p ch)) (hp : p + T.chartSize ch ≤ top) (h : Follows M k ch l σ n l' σ') :
    ∀ {s : S}, rel σ (T.entry p ch l) s →
    ∃ t, Path step here p (p + T.chartSize ch) n s t ∧ rel σ' (T.entry p ch l') t := by
  induction h with
  | here => intro s hs; exact ⟨s, .nil, hs⟩
  | block hb hg _ ih =>
    intro s hs
    obtain ⟨t, ht, hr⟩ := block_path hw hc hp hb hg hs
    obtain ⟨u, hu, hr⟩ := ih hr
    exact ⟨u, ht.trans hu, hr⟩

theorem Costs.block_pos (k : Costs A G) (b : Block A G) : 1 ≤ k.block b := by
  unfold Costs.block Costs.exit
  cases b.exit <;> simp only <;> omega

theorem goes_somewhere (M : Meaning A G V) (x : Exit G) (σ : V) : ∃ l, Goes M x σ l := by
  cases x with
  | goto l => exact ⟨l, .goto⟩
  | branch g l l' =>
    by_cases h : M.holds g σ
    · exact ⟨l, .yes h⟩
    · exact ⟨l', .no h⟩

theorem goes_unique {x : Exit G} {σ : V} {l l' : Nat} (h : Goes M x σ l) (h' : Goes M x σ l') : l = l' := by
  cases h with
  | goto => cases h'; rfl
  | yes h => cases h' with
    | yes => rfl
    | no h' => exact absurd h h'
  | no h => cases h' with
    | yes h' => exact absurd h' h
    | no => rfl

/-- What follows from where a chart has got to. -/
theorem Follows.trans {l l' l'' n m : Nat} {σ σ' σ'' : V} (h : Follows M k ch l σ n l' σ')
    (h' : Follows M k ch l' σ' m l'' σ'') : Follows M k ch l σ (n + m) l'' σ'' := by
  induction h with
  | here => rwa [Nat.zero_add]
  | block hb hg _ ih =>
    rw [Nat.add_assoc]
    exact .block hb hg (ih h')

/-- A chart ends, or goes on for as long as one likes. -/
theorem chart_progress (l : Nat) (σ : V) (m : Nat) :
    (∃ n l' σ', Follows M k ch l σ n l' σ' ∧ ch.length ≤ l') ∨
      ∃ n l' σ', Follows M k ch l σ n l' σ' ∧ m ≤ n := by
  induction m generalizing l σ with
  | zero => exact .inr ⟨0, l, σ, .here, Nat.le_refl _⟩
  | succ m ih =>
    cases hb : ch[l]? with
    | none => exact .inl ⟨0, l, σ, .here, List.getElem?_eq_none_iff.1 hb⟩
    | some b =>
      obtain ⟨l₁, hg⟩ := goes_somewhere M b.exit (M.after b.acts σ)
      have hpos := Costs.block_pos k b
      rcases ih l₁ (M.after b.acts σ) with ⟨n, l', σ', h, he⟩ | ⟨n, l', σ', h, he⟩
      · exact .inl ⟨_, l', σ', .block hb hg h, he⟩
      · exact .inr ⟨_, l', σ', .block hb hg h, by omega⟩

/-- A chart that does not end keeps its code running inside its bounds. -/
theorem chart_endless (hw : Works M T k step rel here code top) {p : Nat} {σ : V} {s : S}
    (hc : code p (T.assemble p ch)) (hp : p + T.chartSize ch ≤ top) (h : ¬ ChartEnds M k ch σ) (hs : rel σ p s) (n : Nat) :
    ∃ t q, Path step here p (p + T.chartSize ch) n s t ∧ here q t ∧ p ≤ q ∧ q < p + T.chartSize ch := by
  rcases chart_progress (M := M) (k := k) (ch := ch) 0 σ (n + 1) with h' | ⟨m, l', σ', h', hm⟩
  · exact absurd h' h
  · obtain ⟨t, ht, -⟩ := chart_path hw hc hp h' (s := s) hs
    obtain ⟨u, hu⟩ := ht.take hm
    exact hu.last

/-- What a chart does does not depend on what it costs. -/
theorem follows_costs {k' : Costs A G} {l l' n : Nat} {σ σ' : V} (h : Follows M k ch l σ n l' σ') :
    ∃ n', Follows M k' ch l σ n' l' σ' := by
  induction h with
  | here => exact ⟨0, .here⟩
  | block hb hg _ ih =>
    obtain ⟨n', h'⟩ := ih
    exact ⟨_, .block hb hg h'⟩

/-- A chart that ends has one result and one running time. -/
theorem follows_unique {l l₁ l₂ n₁ n₂ : Nat} {σ σ₁ σ₂ : V} (h₁ : Follows M k ch l σ n₁ l₁ σ₁)
    (h₂ : Follows M k ch l σ n₂ l₂ σ₂) (e₁ : ch.length ≤ l₁) (e₂ : ch.length ≤ l₂) : n₁ = n₂ ∧ l₁ = l₂ ∧ σ₁ = σ₂ := by
  induction h₁ generalizing n₂ with
  | here =>
    cases h₂ with
    | here => exact ⟨rfl, rfl, rfl⟩
    | block hb => rw [List.getElem?_eq_none e₁] at hb; cases hb
  | block hb hg _ ih =>
    cases h₂ with
    | here => rw [List.getElem?_eq_none e₂] at hb; cases hb
    | block hb' hg' h' =>
      rw [hb] at hb'
      cases hb'
      obtain rfl := goes_unique hg hg'
      obtain ⟨rfl, rfl, rfl⟩ := ih h' e₁
      exact ⟨rfl, rfl, rfl⟩

end

end Verif.Flow
