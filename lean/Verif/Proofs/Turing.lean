import Verif.Spec.Turing
import Verif.Proofs.Chart

/-!
# The chart of a Turing machine does what the machine does
-/

namespace Verif.Turing

open Verif.Spec.Flow Verif.Spec.Structured Verif.Spec.Turing Verif.Flow
open Verif.Spec.CopyText (Var)

variable {K : Costs (Action Var Unit) (Guard Var)} {m : Machine}

theorem ruleBlocks_length (t : Nat → Nat) (out k : Nat) (rs : List Rule) :
    (ruleBlocks t out k rs).length = 2 * rs.length + 1 := by
  induction rs generalizing k with
  | nil => rfl
  | cons r rs ih => simp only [ruleBlocks, List.length_cons, ih]; omega

theorem rowBlocks_length (t : Nat → Nat) (out k : Nat) (rs : List Rule) :
    (rowBlocks t out k rs).length = rowLength rs := by
  simp only [rowBlocks, List.length_cons, ruleBlocks_length, rowLength]

theorem rowsBlocks_length (t : Nat → Nat) (out k : Nat) (m : Machine) :
    (rowsBlocks t out k m).length = (m.map rowLength).sum := by
  induction m generalizing k with
  | nil => rfl
  | cons r rs ih => simp only [rowsBlocks, List.length_append, rowBlocks_length, ih, List.map_cons, List.sum_cons]

theorem chart_length (m : Machine) : m.chart.length = rowAt m m.length := by
  simp only [Machine.chart, rowsBlocks_length, rowAt, List.take_length]

theorem rowAt_out {q : Nat} (h : m.length ≤ q) : rowAt m q = rowAt m m.length := by
  simp only [rowAt, List.take_length, List.take_of_length_le h]

/-- The blocks of a state lie where they should. -/
theorem rowsBlocks_get (t : Nat → Nat) (out : Nat) {m : Machine} {q : Nat} {rs : List Rule} (h : m[q]? = some rs)
    (k j : Nat) (hj : j < rowLength rs) : (rowsBlocks t out k m)[rowAt m q + j]? =
      (rowBlocks t out (k + rowAt m q) rs)[j]? := by
  unfold rowAt
  induction m generalizing k q with
  | nil => cases h
  | cons r' m ih =>
    cases q with
    | zero =>
      cases h
      simp only [rowsBlocks, List.take_zero, List.map_nil, List.sum_nil, Nat.zero_add, Nat.add_zero]
      exact List.getElem?_append_left (by rw [rowBlocks_length]; exact hj)
    | succ q =>
      have h : m[q]? = some rs := h
      have := ih h (k + rowLength r')
      simp only [rowsBlocks, List.take_succ_cons, List.map_cons, List.sum_cons]
      rw [List.getElem?_append_right (by rw [rowBlocks_length]; omega), rowBlocks_length,
        show rowLength r' + ((m.take q).map rowLength).sum + j - rowLength r' =
          ((m.take q).map rowLength).sum + j by omega, this, Nat.add_assoc]

theorem chart_get {q : Nat} {rs : List Rule} (h : m[q]? = some rs) (j : Nat) (hj : j < rowLength rs) :
    m.chart[rowAt m q + j]? = (rowBlocks (rowAt m) (rowAt m m.length) (rowAt m q) rs)[j]? := by
  have := rowsBlocks_get (rowAt m) (rowAt m m.length) h 0 j hj
  rwa [Nat.zero_add] at this

/-- A configuration as a state of the chart. -/
def Shows (s : State Var Unit) (c : Config) : Prop := s.var .i = c.head ∧ s.arr () = c.tape

theorem shift_head (d : Move) (h : BitVec 8) : BitVec.ofNat 8 (h.toNat + d.shift.toNat) = d.head h := by
  apply BitVec.eq_of_toNat_eq
  have := h.isLt
  cases d
  · show (BitVec.ofNat 8 (h.toNat + 255)).toNat = (h - 1).toNat
    rw [BitVec.toNat_ofNat, BitVec.toNat_sub]
    show (_ + 255) % 256 = (256 - 1 + h.toNat) % 256
    omega
  · show (BitVec.ofNat 8 (h.toNat + 0)).toNat = h.toNat
    rw [BitVec.toNat_ofNat]
    omega
  · show (BitVec.ofNat 8 (h.toNat + 1)).toNat = (h + 1).toNat
    rw [BitVec.toNat_ofNat, BitVec.toNat_add]
    rfl

/-- The rules find the one to apply. -/
theorem follow_rules {ch : Chart (Action Var Unit) (Guard Var)} {t : Nat → Nat} {out : Nat} {s : State Var Unit}
    {c : Config} (hs : Shows s c) (hv : s.var .v = c.tape c.head) (rs : List Rule) (k : Nat)
    (h : ∀ j, j < 2 * rs.length + 1 → ch[k + j]? = (ruleBlocks t out k rs)[j]?) :
    ∃ n s', 1 ≤ n ∧ match rs.find? fun r => decide (r.seen = c.tape c.head) with
      | none => Follows (arrays Var Unit) K ch k s n out s' ∧ Shows s' c
      | some r => Follows (arrays Var Unit) K ch k s n (t r.next) s' ∧ Shows s' (r.apply c) := by
  induction rs generalizing k with
  | nil =>
    have h0 : ch[k]? = some ⟨[], .goto out⟩ := h 0 (by decide)
    exact ⟨_, s, Nat.le_add_right_of_le (Costs.block_pos K _), .block (n := 0) h0 .goto .here, hs⟩
  | cons r rs ih =>
    have h0 : ch[k]? = some ⟨[], .branch (.eqK .v r.seen) (k + 1) (k + 2)⟩ := h 0 (by omega)
    have h1 : ch[k + 1]? = some
      ⟨[.base (.set .v r.written), .write () .i .v, .base (.add .i r.move.shift)], .goto (t r.next)⟩ :=
      h 1 (by simp only [List.length_cons]; omega)
    by_cases hb : r.seen = c.tape c.head
    · rw [List.find?_cons, decide_eq_true hb]
      refine ⟨_, _, Nat.le_add_right_of_le (Costs.block_pos K _),
        .block h0 (.yes (hv.trans hb.symm)) (.block (n := 0) h1 .goto .here), ?_, ?_⟩
      · show BitVec.ofNat 8 ((s.var .i).toNat + r.move.shift.toNat) = _
        rw [shift_head, hs.1]; rfl
      · funext j
        show (if () = () ∧ j = s.var .i then r.written else s.arr () j) = _
        rw [hs.1, hs.2]
        show _ = if j = c.head then r.written else c.tape j
        by_cases hj : j = c.head
        · rw [if_pos ⟨rfl, hj⟩, if_pos hj]
        · rw [if_neg (fun h => hj h.2), if_neg hj]
    · rw [List.find?_cons, decide_eq_false hb]
      obtain ⟨n, s', hn, hm⟩ := ih (k + 2) fun j hj => by
        have := h (j + 2) (by simp only [List.length_cons]; omega)
        rw [show k + (j + 2) = k + 2 + j by omega] at this
        exact this
      have hno : ¬ (arrays Var Unit).holds (.eqK .v r.seen) ((arrays Var Unit).after [] s) :=
        fun h => hb ((show s.var .v = r.seen from h).symm.trans hv)
      refine ⟨K.block ⟨[], .branch (.eqK .v r.seen) (k + 1) (k + 2)⟩ + n, s',
        Nat.le_add_right_of_le (Costs.block_pos K _), ?_⟩
      cases hf : rs.find? fun r => decide (r.seen = c.tape c.head) with
      | none =>
        rw [hf] at hm
        exact ⟨.block h0 (.no hno) hm.1, hm.2⟩
      | some r' =>
        rw [hf] at hm
        exact ⟨.block h0 (.no hno) hm.1, hm.2⟩

/-- The blocks of a state make one step, or end. -/
theorem follow_state {s : State Var Unit} {c : Config} (hs : Shows s c) :
    (∀ c', m.step c = some c' → ∃ n s', 1 ≤ n ∧
      Follows (arrays Var Unit) K m.chart (rowAt m c.state) s n (rowAt m c'.state) s' ∧ Shows s' c') ∧
    (m.step c = none → ∃ n s',
      Follows (arrays Var Unit) K m.chart (rowAt m c.state) s n m.chart.length s' ∧ Shows s' c) := by
  rw [chart_length]
  cases hq : m[c.state]? with
  | none =>
    have hlen : m.length ≤ c.state := List.getElem?_eq_none_iff.1 hq
    simp only [Machine.step, hq]
    refine ⟨fun c' h => (by cases h), fun _ => ⟨0, s, ?_, hs⟩⟩
    rw [rowAt_out hlen]
    exact .here
  | some rs =>
    have hget := chart_get hq
    have h0 : m.chart[rowAt m c.state]? = some ⟨[.read .v () .i], .goto (rowAt m c.state + 1)⟩ :=
      hget 0 (by unfold rowLength; omega)
    obtain ⟨s₁, es⟩ : ∃ s₁, (arrays Var Unit).after [.read .v () .i] s = s₁ := ⟨_, rfl⟩
    have s1 : Shows s₁ c := by subst es; exact hs
    have v1 : s₁.var .v = c.tape c.head := by
      subst es
      show s.arr () (s.var .i) = _
      rw [hs.1, hs.2]
    obtain ⟨n, s', hn, h1⟩ := follow_rules (K := K) (ch := m.chart) (t := rowAt m) (out := rowAt m m.length) s1 v1 rs
      (rowAt m c.state + 1) fun j hj => by
        have := hget (j + 1) (by unfold rowLength; omega)
        rw [show rowAt m c.state + (j + 1) = rowAt m c.state + 1 + j by omega] at this
        exact this
    simp only [Machine.step, hq]
    cases hf : rs.find? fun r => decide (r.seen = c.tape c.head) with
    | none =>
      rw [hf] at h1
      refine ⟨fun c' h => (by cases h), fun _ => ⟨_, s', .block (n := n) h0 .goto ?_, h1.2⟩⟩
      rw [es]; exact h1.1
    | some r =>
      rw [hf] at h1
      refine ⟨fun c' h => ?_, fun h => (by cases h)⟩
      cases h
      refine ⟨_, s', Nat.le_add_right_of_le (Costs.block_pos K _), .block (n := n) h0 .goto ?_, h1.2⟩
      rw [es]; exact h1.1

/-- The chart follows the machine. -/
theorem follow_steps {k : Nat} {c c' : Config} (h : m.Steps k c c') : ∀ {s : State Var Unit}, Shows s c →
    ∃ n s', k ≤ n ∧ Follows (arrays Var Unit) K m.chart (rowAt m c.state) s n (rowAt m c'.state) s' ∧ Shows s' c' := by
  induction h with
  | here => intro s hs; exact ⟨0, s, Nat.le_refl _, .here, hs⟩
  | step h1 _ ih =>
    intro s hs
    obtain ⟨n, s₁, hn, f1, hs₁⟩ := (follow_state (K := K) hs).1 _ h1
    obtain ⟨n', s', hn', f2, hs'⟩ := ih hs₁
    exact ⟨_, s', by omega, Follows.trans f1 f2, hs'⟩

/-- A machine halts, or makes as many steps as one likes. -/
theorem steps_progress (m : Machine) (c : Config) (k : Nat) : m.Halts c ∨ ∃ c', m.Steps k c c' := by
  induction k generalizing c with
  | zero => exact .inr ⟨c, .here⟩
  | succ k ih =>
    cases h : m.step c with
    | none => exact .inl ⟨0, c, .here, h⟩
    | some c₁ =>
      rcases ih c₁ with ⟨j, c', h1, h2⟩ | ⟨c', h1⟩
      · exact .inl ⟨j + 1, c', .step h h1, h2⟩
      · exact .inr ⟨c', .step h h1⟩

/-- Nothing follows the end of a chart. -/
theorem follows_le {A G V : Type} {M : Meaning A G V} {k : Costs A G} {ch : Chart A G} {l l₁ l₂ n₁ n₂ : Nat} {σ σ₁ σ₂ : V}
    (h₁ : Follows M k ch l σ n₁ l₁ σ₁) (h₂ : Follows M k ch l σ n₂ l₂ σ₂) (e₁ : ch.length ≤ l₁) : n₂ ≤ n₁ := by
  induction h₁ generalizing n₂ with
  | here =>
    cases h₂ with
    | here => exact Nat.le_refl _
    | block hb => rw [List.getElem?_eq_none e₁] at hb; cases hb
  | block hb hg _ ih =>
    cases h₂ with
    | here => exact Nat.zero_le _
    | block hb' hg' h' =>
      rw [hb] at hb'
      cases hb'
      cases goes_unique hg hg'
      have := ih h' e₁
      omega

/-- The chart ends exactly if the machine halts. -/
theorem ends_iff {s : State Var Unit} {c : Config} (hs : Shows s c) (h0 : c.state = 0) :
    ChartEnds (arrays Var Unit) K m.chart s ↔ m.Halts c := by
  have e0 : rowAt m c.state = 0 := by rw [h0]; rfl
  constructor
  · rintro ⟨n, l, s', h, hl⟩
    rcases steps_progress m c (n + 1) with h' | ⟨c', h'⟩
    · exact h'
    · obtain ⟨n', s'', hn, f, -⟩ := follow_steps (K := K) h' hs
      rw [e0] at f
      have := follows_le h f hl
      omega
  · rintro ⟨k, c', h1, h2⟩
    obtain ⟨n, s', -, f, hs'⟩ := follow_steps (K := K) h1 hs
    obtain ⟨n', s'', f', -⟩ := (follow_state (K := K) hs').2 h2
    rw [e0] at f
    exact ⟨_, _, s'', Follows.trans f f', Nat.le_refl _⟩

/-- What the chart ends with. -/
theorem follow_halt {k : Nat} {s : State Var Unit} {c c' : Config} (hs : Shows s c) (h0 : c.state = 0)
    (h : m.Steps k c c') (hh : m.step c' = none) :
    ∃ n s', Follows (arrays Var Unit) K m.chart 0 s n m.chart.length s' ∧ Shows s' c' := by
  have e0 : rowAt m c.state = 0 := by rw [h0]; rfl
  obtain ⟨n, s', -, f, hs'⟩ := follow_steps (K := K) h hs
  obtain ⟨n', s'', f', hs''⟩ := (follow_state (K := K) hs').2 hh
  rw [e0] at f
  exact ⟨_, s'', Follows.trans f f', hs''⟩

end Verif.Turing
