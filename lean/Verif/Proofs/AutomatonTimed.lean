import Verif.Spec.AutomatonTimed
import Verif.Proofs.Automaton
import Verif.Proofs.TuringTimed

/-!
# How long the chart of an automaton takes
-/

namespace Verif.Automaton

open Verif.Spec.Flow Verif.Spec.Structured Verif.Spec.Automaton Verif.Flow
open Verif.Spec.CopyText (Var)
open Verif.Turing (takes_trans takes_cast)

variable {W : Type} {T : Target (Action Var Unit) (Guard Var) W} {k : Times (Action Var Unit) (Guard Var) (State Var Unit) Nat}
  {p : Nat} {a : Spec.Automaton.Automaton}

/-- What the parts of the chart take: to start, to answer, to read, to compare in vain and not. -/
structure Prices (T : Target (Action Var Unit) (Guard Var) W) (k : Times (Action Var Unit) (Guard Var) (State Var Unit) Nat)
    (st fin : Nat) (rd : Nat → Nat) (no : Nat) (yes : Nat → Nat) (jp rb : Nat) : Prop where
  start : ∀ s, k.acts (arrays Var Unit) [.base (.set .i 0)] s + k.jump = st
  fin : ∀ s x, k.acts (arrays Var Unit) [.base (.set .v x)] s + k.jump = fin
  read : ∀ s, k.acts (arrays Var Unit) [.read .v () .i, .base (.add .i 1)] s = rd (s.var .i).toNat
  no : ∀ q u, k.testFalse q (.eqK .v u) + k.jump = no
  yes : ∀ q u, k.testTrue q (.eqK .v u) + k.jump = yes q
  jump : k.jump = jp
  bytes : T.bytes (([.read .v () .i, .base (.add .i 1)] : List (Action Var Unit)).flatMap T.act) = rb

variable {st fin : Nat} {rd : Nat → Nat} {no : Nat} {yes : Nat → Nat} {jp rb : Nat}

/-- The time to find the case. -/
theorem cases_take (hP : Prices T k st fin rd no yes jp rb) {ch : Chart (Action Var Unit) (Guard Var)} {t : Nat → Nat}
    {other : Nat} {s : State Var Unit} {b : BitVec 8} (hv : s.var .v = b) (cs : List (BitVec 8 × Nat)) (m : Nat)
    (h : ∀ j, j < cs.length + 1 → ch[m + j]? = (caseBlocks t m cs other)[j]?) :
    ChartTakes (arrays Var Unit) T k p ch m s
      (no * (cs.findIdx fun c => decide (b = c.1)) + (if (cs.findIdx fun c => decide (b = c.1)) < cs.length then
        yes (T.entry p ch (m + cs.findIdx fun c => decide (b = c.1))) else jp)) (t (next cs other b)) s := by
  induction cs generalizing m with
  | nil =>
    have h0 : ch[m]? = some ⟨[], .goto (t other)⟩ := h 0 (by decide)
    refine takes_cast (.block (n := 0) h0 .goto .here) ?_
    show 0 + k.jump + 0 = _
    simp [hP.jump]
  | cons c cs ih =>
    obtain ⟨u, q⟩ := c
    have h0 : ch[m]? = some ⟨[], .branch (.eqK .v u) (t q) (m + 1)⟩ := h 0 (Nat.succ_pos _)
    by_cases hb : b = u
    · simp only [next, if_pos hb, List.findIdx_cons, decide_eq_true hb]
      refine takes_cast (.block (n := 0) h0 (.yes (hv.trans hb)) .here) ?_
      have e1 := hP.yes (T.entry p ch m + T.bytes (([] : List (Action Var Unit)).flatMap T.act)) u
      have e3 : T.entry p ch m + T.bytes (([] : List (Action Var Unit)).flatMap T.act) = T.entry p ch m := rfl
      rw [e3] at e1
      show 0 + (k.testTrue (T.entry p ch m) (.eqK .v u) + k.jump) + 0 = no * 0 + (if 0 < cs.length + 1 then
        yes (T.entry p ch (m + 0)) else jp)
      rw [e1, if_pos (by omega)]
      simp
    · have hm := ih (m + 1) fun j hj => by
        have := h (j + 1) (by simp only [List.length_cons]; omega)
        rw [show m + (j + 1) = m + 1 + j by omega] at this
        exact this
      have hno : ¬ (arrays Var Unit).holds (.eqK .v u) ((arrays Var Unit).after [] s) :=
        fun h => hb (hv.symm.trans (show s.var .v = u from h))
      have e0 := hP.no (T.entry p ch m) u
      simp only [next, if_neg hb, List.findIdx_cons, decide_eq_false hb]
      refine takes_cast (.block h0 (.no hno) hm) ?_
      generalize hfi : (cs.findIdx fun c => decide (b = c.1)) = j
      show 0 + (k.testFalse (T.entry p ch m) (.eqK .v u) + k.jump) +
          (no * j + (if j < cs.length then yes (T.entry p ch (m + 1 + j)) else jp)) =
        no * (j + 1) + (if j + 1 < cs.length + 1 then yes (T.entry p ch (m + (j + 1))) else jp)
      rw [e0, Nat.mul_succ, show m + 1 + j = m + (j + 1) by omega]
      by_cases hj : j < cs.length
      · rw [if_pos hj, if_pos (by omega)]
        omega
      · rw [if_neg hj, if_neg (by omega)]
        omega

theorem end_takes (hP : Prices T k st fin rd no yes jp rb) (s : State Var Unit) (x : Bool) : ∃ s',
    ChartTakes (arrays Var Unit) T k p a.chart (if x then 1 else 2) s fin (rowAt a a.length) s' ∧
      s'.var .v = (if x then 1 else 0) ∧ s'.arr = s.arr := by
  cases x with
  | true =>
    exact ⟨_, takes_cast (.block (n := 0) (b := ⟨[.base (.set .v 1)], .goto (rowAt a a.length)⟩) rfl .goto .here)
      (hP.fin s 1), rfl, rfl⟩
  | false =>
    exact ⟨_, takes_cast (.block (n := 0) (b := ⟨[.base (.set .v 0)], .goto (rowAt a a.length)⟩) rfl .goto .here)
      (hP.fin s 0), rfl, rfl⟩

/-- The time for the end of the word. -/
def stopPrice (T : Target (Action Var Unit) (Guard Var) W) (p : Nat) (a : Spec.Automaton.Automaton) (fin : Nat) (rd yes : Nat → Nat)
    (rb q k : Nat) : Nat := rd k + yes (T.entry p a.chart (rowAt a q) + rb) + fin

/-- The time for a byte. -/
def bytePrice (T : Target (Action Var Unit) (Guard Var) W) (p : Nat) (a : Spec.Automaton.Automaton) (rd : Nat → Nat) (no : Nat)
    (yes : Nat → Nat) (jp : Nat) (r : Row) (q k : Nat) (b : BitVec 8) : Nat :=
  rd k + no + (no * vain r b + if found r b then yes (T.entry p a.chart (rowAt a q + 1 + vain r b)) else jp)

theorem word_takes (hP : Prices T k st fin rd no yes jp rb) (w : List (BitVec 8)) (q n : Nat) (s : State Var Unit)
    (hk : n + w.length < 256) (hi : s.var .i = BitVec.ofNat 8 n) (ht : TextAt (s.arr ()) n w) : ∃ s',
      ChartTakes (arrays Var Unit) T k p a.chart (target a q) s
        (a.wordTime fin (stopPrice T p a fin rd yes rb) (bytePrice T p a rd no yes jp) q n w) (rowAt a a.length) s' ∧
        s'.var .v = (if a.accepts q w then 1 else 0) ∧ s'.arr = s.arr := by
  cases hq : a[q]? with
  | none =>
    have hlen : a.length ≤ q := List.getElem?_eq_none_iff.1 hq
    have e : a.accepts q w = false := by cases w <;> simp only [Automaton.accepts, hq]
    have e' : a.wordTime fin (stopPrice T p a fin rd yes rb) (bytePrice T p a rd no yes jp) q n w = fin := by
      cases w <;> simp only [Automaton.wordTime, hq]
    rw [e, e', target, if_neg (by omega)]
    exact end_takes hP s false
  | some r =>
    have hlen : q < a.length := (List.getElem?_eq_some_iff.1 hq).1
    have hget := chart_get hq
    rw [target, if_pos hlen]
    have er := hP.read s
    rw [hi, BitVec.toNat_ofNat, Nat.mod_eq_of_lt (by omega)] at er
    obtain ⟨s₁, es⟩ : ∃ s₁, (arrays Var Unit).after [.read .v () .i, .base (.add .i 1)] s = s₁ := ⟨_, rfl⟩
    have v1 : s₁.var .v = s.arr () (BitVec.ofNat 8 n) := by subst es; rw [← hi]; rfl
    have i1 : s₁.var .i = BitVec.ofNat 8 (n + 1) := by
      have : s₁.var .i = BitVec.ofNat 8 ((s.var .i).toNat + 1) := by subst es; rfl
      rw [this, hi, BitVec.toNat_ofNat, Nat.mod_eq_of_lt (by omega)]
    have a1 : s₁.arr = s.arr := by subst es; rfl
    have h0 : a.chart[rowAt a q]? = some ⟨[.read .v () .i, .base (.add .i 1)],
        .branch (.eqK .v 0) (if r.accepting then 1 else 2) (rowAt a q + 1)⟩ := hget 0 (by unfold rowLength; omega)
    cases w with
    | nil =>
      obtain ⟨s', h1, h2, h3⟩ := end_takes (p := p) (a := a) hP s₁ r.accepting
      refine ⟨s', takes_cast (.block h0 (l' := if r.accepting then 1 else 2) (e := k.testTrue (T.entry p a.chart (rowAt a q) +
        T.bytes (([.read .v () .i, .base (.add .i 1)] : List (Action Var Unit)).flatMap T.act)) (.eqK .v 0) + k.jump) ?_
          (by rw [es]; exact h1)) ?_, ?_, h3.trans a1⟩
      · rw [es]; exact .yes (v1.trans ht)
      · simp only [Automaton.wordTime, hq]
        rw [hP.yes, hP.bytes, er, stopPrice]
      · rw [h2]
        simp only [Automaton.accepts, hq]
    | cons b w =>
      obtain ⟨hb, hb0, ht⟩ := ht
      have h1 := cases_take (p := p) hP (ch := a.chart) (t := target a) (other := r.other) (s := s₁) (v1.trans hb) r.cases
        (rowAt a q + 1) fun j hj => by
          have := hget (j + 1) (by unfold rowLength; omega)
          rw [show rowAt a q + (j + 1) = rowAt a q + 1 + j by omega] at this
          exact this
      obtain ⟨s', h2, h3, h4⟩ := word_takes hP w (next r.cases r.other b) (n + 1) s₁
        (by simp only [List.length_cons] at hk; omega) i1 (by rw [a1]; exact ht)
      refine ⟨s', takes_cast (.block h0 (l' := rowAt a q + 1) (e := k.testFalse (T.entry p a.chart (rowAt a q) +
        T.bytes (([.read .v () .i, .base (.add .i 1)] : List (Action Var Unit)).flatMap T.act)) (.eqK .v 0) + k.jump) ?_
          (by rw [es]; exact takes_trans h1 h2)) ?_, ?_, h4.trans a1⟩
      · rw [es]; exact .no fun h => hb0 (hb.symm.trans (v1.symm.trans h))
      · simp only [Automaton.wordTime, hq]
        rw [hP.no, er, bytePrice]
        exact (Nat.add_assoc _ _ _).symm
      · rw [h3]
        simp only [Automaton.accepts, hq]

/-- The time from the beginning to the end. -/
theorem decides_takes (hP : Prices T k st fin rd no yes jp rb) (w : List (BitVec 8)) (s : State Var Unit) (hw : w.length < 256)
    (ht : TextAt (s.arr ()) 0 w) : ∃ s', ChartTakes (arrays Var Unit) T k p a.chart 0 s
      (st + a.wordTime fin (stopPrice T p a fin rd yes rb) (bytePrice T p a rd no yes jp) 0 0 w) a.chart.length s' ∧
      s'.var .v = (if a.accepts 0 w then 1 else 0) ∧ s'.arr = s.arr := by
  obtain ⟨s', h1, h2, h3⟩ := word_takes (p := p) (a := a) hP w 0 0
    ((arrays Var Unit).after [.base (.set .i 0)] s) (by omega) rfl ht
  rw [chart_length]
  refine ⟨s', takes_cast (.block (b := ⟨[.base (.set .i 0)], .goto (target a 0)⟩) rfl .goto h1) ?_, h2, h3⟩
  rw [← hP.start s]

theorem wordTime_congr {gone : Nat} {stop stop' : Nat → Nat → Nat} {step step' : Row → Nat → Nat → BitVec 8 → Nat}
    (h : ∀ q r, a[q]? = some r → ∀ k, stop q k = stop' q k) (h' : ∀ q r, a[q]? = some r → ∀ k b, step r q k b = step' r q k b)
    (w : List (BitVec 8)) (q n : Nat) : a.wordTime gone stop step q n w = a.wordTime gone stop' step' q n w := by
  induction w generalizing q n with
  | nil =>
    cases hq : a[q]? with
    | none => simp only [Automaton.wordTime, hq]
    | some r => simp only [Automaton.wordTime, hq, h q r hq]
  | cons b w ih =>
    cases hq : a[q]? with
    | none => simp only [Automaton.wordTime, hq]
    | some r => simp only [Automaton.wordTime, hq, h' q r hq, ih]

theorem wordTime_le {gone e x : Nat} {stop : Nat → Nat → Nat} {step : Row → Nat → Nat → BitVec 8 → Nat} (hg : gone ≤ e)
    (h : ∀ q k, stop q k ≤ e) (h' : ∀ r ∈ a, ∀ q k b, step r q k b ≤ x) (w : List (BitVec 8)) (q n : Nat) :
    a.wordTime gone stop step q n w ≤ e + x * w.length := by
  induction w generalizing q n with
  | nil =>
    cases hq : a[q]? with
    | none => simp only [Automaton.wordTime, hq]; omega
    | some r => simp only [Automaton.wordTime, hq]; have := h q n; omega
  | cons b w ih =>
    cases hq : a[q]? with
    | none => simp only [Automaton.wordTime, hq]; omega
    | some r =>
      simp only [Automaton.wordTime, hq, List.length_cons, Nat.mul_succ]
      have := h' r (List.mem_of_getElem? hq) q n b
      have := ih (next r.cases r.other b) (n + 1)
      omega

theorem next_lt {l other : Nat} (ho : other < l) (cs : List (BitVec 8 × Nat)) (h : ∀ c ∈ cs, c.2 < l) (b : BitVec 8) :
    next cs other b < l := by
  induction cs with
  | nil => exact ho
  | cons c cs ih =>
    obtain ⟨u, q⟩ := c
    simp only [next]
    split
    · exact h (u, q) (by simp)
    · exact ih fun c hc => h c (by simp [hc])

theorem le_wordTime {gone e x : Nat} {stop : Nat → Nat → Nat} {step : Row → Nat → Nat → BitVec 8 → Nat} (ha : a.complete)
    (h : ∀ q k, e ≤ stop q k) (h' : ∀ r q k b, x ≤ step r q k b) (w : List (BitVec 8)) (q n : Nat) (hq : q < a.length) :
    e + x * w.length ≤ a.wordTime gone stop step q n w := by
  induction w generalizing q n with
  | nil =>
    simp only [Automaton.wordTime, List.getElem?_eq_getElem hq]
    exact h q n
  | cons b w ih =>
    simp only [Automaton.wordTime, List.getElem?_eq_getElem hq, List.length_cons, Nat.mul_succ]
    have h1 := ha.2 _ (List.getElem_mem hq)
    have := h' a[q] q n b
    have := ih (next a[q].cases a[q].other b) (n + 1) (next_lt h1.1 _ h1.2 b)
    omega

/-- The blocks before a block of a state. -/
theorem rowsBlocks_take (t : Nat → Nat) {rs : List Row} {q : Nat} {r : Row} (h : rs[q]? = some r)
    (l x : Nat) (hx : x ≤ rowLength r) : (rowsBlocks t l rs).take (((rs.take q).map rowLength).sum + x) =
      rowsBlocks t l (rs.take q) ++ (rowBlocks t (l + ((rs.take q).map rowLength).sum) r).take x := by
  induction rs generalizing l q with
  | nil => cases h
  | cons r' rs ih =>
    cases q with
    | zero =>
      cases h
      simp only [rowsBlocks, List.take_zero, List.map_nil, List.sum_nil, Nat.zero_add, Nat.add_zero, List.nil_append]
      exact List.take_append_of_le_length (by rw [rowBlocks_length]; exact hx)
    | succ q =>
      have h : rs[q]? = some r := h
      have := ih h (l + rowLength r')
      simp only [rowsBlocks, List.take_succ_cons, List.map_cons, List.sum_cons]
      rw [List.take_append, rowBlocks_length, List.take_of_length_le (by rw [rowBlocks_length]; omega),
        show rowLength r' + ((rs.take q).map rowLength).sum + x - rowLength r' =
          ((rs.take q).map rowLength).sum + x by omega, this, List.append_assoc, Nat.add_assoc]

/-- The length of the code before the case `j`. -/
theorem caseBlocks_take_size {cl : Nat} (hc : ∀ u x l, T.blockSize ⟨[], .branch (.eqK .v u) x l⟩ = cl) (t : Nat → Nat)
    (cs : List (BitVec 8 × Nat)) (other l : Nat) {j : Nat} (hj : j ≤ cs.length) :
    T.chartSize ((caseBlocks t l cs other).take j) = cl * j := by
  induction j generalizing cs l with
  | zero => rfl
  | succ j ih =>
    cases cs with
    | nil => exact absurd hj (Nat.not_succ_le_zero _)
    | cons c cs =>
      obtain ⟨u, q⟩ := c
      show T.blockSize ⟨[], .branch (.eqK .v u) (t q) (l + 1)⟩ + T.chartSize ((caseBlocks t (l + 1) cs other).take j) = _
      rw [hc, ih cs _ (Nat.le_of_succ_le_succ hj), Nat.mul_succ, Nat.add_comm]

end Verif.Automaton
