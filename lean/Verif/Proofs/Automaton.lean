import Verif.Spec.Automaton
import Verif.Proofs.Chart

/-!
# The chart of an automaton ends with 1 for the words it accepts and with 0 for the others
-/

namespace Verif.Automaton

open Verif.Spec.Flow Verif.Spec.Structured Verif.Spec.Automaton Verif.Flow
open Verif.Spec.CopyText (Var)

variable {K : Costs (Action Var Unit) (Guard Var)} {a : Spec.Automaton.Automaton}

theorem caseBlocks_length (t : Nat → Nat) (m : Nat) (cs : List (BitVec 8 × Nat)) (other : Nat) :
    (caseBlocks t m cs other).length = cs.length + 1 := by
  induction cs generalizing m with
  | nil => rfl
  | cons c cs ih =>
    obtain ⟨b, q⟩ := c
    simp only [caseBlocks, List.length_cons, ih]

theorem rowBlocks_length (t : Nat → Nat) (m : Nat) (r : Row) : (rowBlocks t m r).length = rowLength r := by
  simp only [rowBlocks, List.length_cons, caseBlocks_length, rowLength]

theorem rowsBlocks_length (t : Nat → Nat) (m : Nat) (rs : List Row) :
    (rowsBlocks t m rs).length = (rs.map rowLength).sum := by
  induction rs generalizing m with
  | nil => rfl
  | cons r rs ih => simp only [rowsBlocks, List.length_append, rowBlocks_length, ih, List.map_cons, List.sum_cons]

theorem chart_length (a : Spec.Automaton.Automaton) : a.chart.length = rowAt a a.length := by
  simp only [Automaton.chart, List.length_cons, rowsBlocks_length, rowAt, List.take_length]
  omega

/-- The blocks of a state lie where they should. -/
theorem rowsBlocks_get (t : Nat → Nat) {rs : List Row} {q : Nat} {r : Row} (h : rs[q]? = some r) (m j : Nat)
    (hj : j < rowLength r) : (rowsBlocks t m rs)[((rs.take q).map rowLength).sum + j]? =
      (rowBlocks t (m + ((rs.take q).map rowLength).sum) r)[j]? := by
  induction rs generalizing m q with
  | nil => cases h
  | cons r' rs ih =>
    cases q with
    | zero =>
      cases h
      simp only [rowsBlocks, List.take_zero, List.map_nil, List.sum_nil, Nat.zero_add, Nat.add_zero]
      exact List.getElem?_append_left (by rw [rowBlocks_length]; exact hj)
    | succ q =>
      have h : rs[q]? = some r := h
      have := ih h (m + rowLength r')
      simp only [rowsBlocks, List.take_succ_cons, List.map_cons, List.sum_cons]
      rw [List.getElem?_append_right (by rw [rowBlocks_length]; omega), rowBlocks_length,
        show rowLength r' + ((rs.take q).map rowLength).sum + j - rowLength r' =
          ((rs.take q).map rowLength).sum + j by omega, this, Nat.add_assoc]

theorem chart_get {q : Nat} {r : Row} (h : a[q]? = some r) (j : Nat) (hj : j < rowLength r) :
    a.chart[rowAt a q + j]? = (rowBlocks (target a) (rowAt a q) r)[j]? := by
  have := rowsBlocks_get (target a) h 3 j hj
  unfold rowAt
  rw [← this, show 3 + ((a.take q).map rowLength).sum + j = (((a.take q).map rowLength).sum + j) + 3 by omega]
  rfl

/-- The comparisons find the case. -/
theorem follow_cases {ch : Chart (Action Var Unit) (Guard Var)} {t : Nat → Nat} {other : Nat} {s : State Var Unit}
    (cs : List (BitVec 8 × Nat)) (m : Nat)
    (h : ∀ j, j < cs.length + 1 → ch[m + j]? = (caseBlocks t m cs other)[j]?) :
    ∃ n, Follows (arrays Var Unit) K ch m s n (t (next cs other (s.var .v))) s := by
  induction cs generalizing m with
  | nil => exact ⟨_, .block (b := ⟨[], .goto (t other)⟩) (h 0 (by decide)) .goto .here⟩
  | cons c cs ih =>
    obtain ⟨b, q⟩ := c
    have h0 : ch[m]? = some ⟨[], .branch (.eqK .v b) (t q) (m + 1)⟩ := h 0 (Nat.succ_pos _)
    by_cases hb : s.var .v = b
    · refine ⟨_, .block (n := 0) h0 (.yes hb) ?_⟩
      simp only [next, if_pos hb]
      exact .here
    · obtain ⟨n, hn⟩ := ih (m + 1) fun j hj => by
        have := h (j + 1) (by simp only [List.length_cons]; omega)
        rw [show m + (j + 1) = m + 1 + j by omega] at this
        exact this
      refine ⟨_, .block (n := n) h0 (.no hb) ?_⟩
      simp only [next, if_neg hb]
      exact hn

/-- The two blocks that end the chart. -/
theorem follow_end (s : State Var Unit) (x : Bool) : ∃ n s',
    Follows (arrays Var Unit) K a.chart (if x then 1 else 2) s n (rowAt a a.length) s' ∧
      s'.var .v = (if x then 1 else 0) ∧ s'.arr = s.arr := by
  cases x with
  | true => exact ⟨_, _, .block (b := ⟨[.base (.set .v 1)], .goto (rowAt a a.length)⟩) rfl .goto .here, rfl, rfl⟩
  | false => exact ⟨_, _, .block (b := ⟨[.base (.set .v 0)], .goto (rowAt a a.length)⟩) rfl .goto .here, rfl, rfl⟩

theorem follow_word (w : List (BitVec 8)) (q k : Nat) (s : State Var Unit) (hk : k + w.length < 256)
    (hi : s.var .i = BitVec.ofNat 8 k) (ht : TextAt (s.arr ()) k w) : ∃ n s',
      Follows (arrays Var Unit) K a.chart (target a q) s n (rowAt a a.length) s' ∧
        s'.var .v = (if a.accepts q w then 1 else 0) ∧ s'.arr = s.arr := by
  cases hq : a[q]? with
  | none =>
    have hlen : a.length ≤ q := List.getElem?_eq_none_iff.1 hq
    have e : a.accepts q w = false := by cases w <;> simp only [Automaton.accepts, hq]
    rw [e, target, if_neg (by omega)]
    exact follow_end s false
  | some r =>
    have hlen : q < a.length := (List.getElem?_eq_some_iff.1 hq).1
    have hget := chart_get hq
    rw [target, if_pos hlen]
    obtain ⟨s₁, es⟩ : ∃ s₁, (arrays Var Unit).after [.read .v () .i, .base (.add .i 1)] s = s₁ := ⟨_, rfl⟩
    have v1 : s₁.var .v = s.arr () (BitVec.ofNat 8 k) := by subst es; rw [← hi]; rfl
    have i1 : s₁.var .i = BitVec.ofNat 8 (k + 1) := by
      have : s₁.var .i = BitVec.ofNat 8 ((s.var .i).toNat + 1) := by subst es; rfl
      rw [this, hi, BitVec.toNat_ofNat, Nat.mod_eq_of_lt (by omega)]
    have a1 : s₁.arr = s.arr := by subst es; rfl
    have h0 : a.chart[rowAt a q]? = some ⟨[.read .v () .i, .base (.add .i 1)],
        .branch (.eqK .v 0) (if r.accepting then 1 else 2) (rowAt a q + 1)⟩ := hget 0 (by unfold rowLength; omega)
    cases w with
    | nil =>
      obtain ⟨n, s', h1, h2, h3⟩ := follow_end (K := K) (a := a) s₁ r.accepting
      refine ⟨_, s', .block (n := n) h0 (l' := if r.accepting then 1 else 2) ?_ ?_, ?_, h3.trans a1⟩
      · rw [es]; exact .yes (v1.trans ht)
      · rw [es]; exact h1
      · rw [h2]
        simp only [Automaton.accepts, hq]
    | cons b w =>
      obtain ⟨hb, hb0, ht⟩ := ht
      obtain ⟨n₁, h1⟩ := follow_cases (K := K) (ch := a.chart) (t := target a) (other := r.other) (s := s₁) r.cases
        (rowAt a q + 1) fun j hj => by
          have := hget (j + 1) (by unfold rowLength; omega)
          rw [show rowAt a q + (j + 1) = rowAt a q + 1 + j by omega] at this
          exact this
      rw [v1, hb] at h1
      obtain ⟨n₂, s', h2, h3, h4⟩ := follow_word w (next r.cases r.other b) (k + 1) s₁
        (by simp only [List.length_cons] at hk; omega) i1 (by rw [a1]; exact ht)
      refine ⟨_, s', .block (n := n₁ + n₂) h0 (l' := rowAt a q + 1) ?_ ?_, ?_, h4.trans a1⟩
      · rw [es]; exact .no fun h => hb0 (hb.symm.trans (v1.symm.trans h))
      · rw [es]; exact Follows.trans h1 h2
      · rw [h3]
        simp only [Automaton.accepts, hq]

/-- The chart ends, with 1 if the word is accepted and with 0 if not. -/
theorem decides (w : List (BitVec 8)) (s : State Var Unit) (hw : w.length < 256) (ht : TextAt (s.arr ()) 0 w) :
    ∃ n s', Follows (arrays Var Unit) K a.chart 0 s n a.chart.length s' ∧
      s'.var .v = (if a.accepts 0 w then 1 else 0) ∧ s'.arr = s.arr := by
  obtain ⟨n, s', h1, h2, h3⟩ := follow_word (K := K) (a := a) w 0 0
    ((arrays Var Unit).after [.base (.set .i 0)] s) (by omega) rfl ht
  rw [chart_length]
  exact ⟨_, s', .block (b := ⟨[.base (.set .i 0)], .goto (target a 0)⟩) rfl .goto h1, h2, h3⟩

end Verif.Automaton
