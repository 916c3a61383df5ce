import Verif.Spec.TuringTimed
import Verif.Spec.ChartTimed
import Verif.Proofs.Turing

/-!
# How long the chart of a Turing machine takes
-/

namespace Verif.Turing

open Verif.Spec.Flow Verif.Spec.Structured Verif.Spec.Turing Verif.Flow
open Verif.Spec.CopyText (Var)

section
variable {A G S W : Type} {D : Meaning A G S} {T : Target A G W} {k : Times A G S Nat} {p : Nat} {ch : Chart A G}

theorem takes_trans {l l' l'' n n' : Nat} {s s' s'' : S} (h : ChartTakes D T k p ch l s n l' s')
    (h' : ChartTakes D T k p ch l' s' n' l'' s'') : ChartTakes D T k p ch l s (n + n') l'' s'' := by
  induction h with
  | here => rwa [Nat.zero_add]
  | block hb hg _ ih =>
    rw [Nat.add_assoc]
    exact .block hb hg (ih h')

theorem takes_cast {l l' n n' : Nat} {s s' : S} (h : ChartTakes D T k p ch l s n l' s') (e : n = n') :
    ChartTakes D T k p ch l s n' l' s' := e ▸ h

/-- Numbers of instructions as times. -/
def ofCosts (K : Costs A G) : Times A G S Nat where
  act a _ := K.act a
  testTrue _ g := K.test g
  testFalse _ g := K.test g
  jump := 1

theorem ofCosts_acts (K : Costs A G) (as : List A) (s : S) : (ofCosts K).acts D as s = (as.map K.act).sum := by
  induction as generalizing s with
  | nil => rfl
  | cons a as ih =>
    show K.act a + (ofCosts K).acts D as _ = _
    rw [ih, List.map_cons, List.sum_cons]

theorem follows_of_takes {K : Costs A G} {l l' n : Nat} {s s' : S} (h : ChartTakes D T (ofCosts K) p ch l s n l' s') :
    Follows D K ch l s n l' s' := by
  induction h with
  | here => exact .here
  | @block l s b e l' n l'' s'' hb hg _ ih =>
    obtain ⟨acts, exit⟩ := b
    have key : Goes D exit (D.after acts s) l' ∧ e = K.exit exit := by
      cases hg with
      | goto => exact ⟨.goto, rfl⟩
      | yes h => exact ⟨.yes h, rfl⟩
      | no h => exact ⟨.no h, rfl⟩
    rw [ofCosts_acts, key.2]
    exact .block hb key.1 ih

end

section
variable {W : Type} {T : Target (Action Var Unit) (Guard Var) W} {k : Times (Action Var Unit) (Guard Var) (State Var Unit) Nat}
  {p : Nat} {m : Machine}

/-- What reading, trying and applying take. -/
structure Prices (T : Target (Action Var Unit) (Guard Var) W) (k : Times (Action Var Unit) (Guard Var) (State Var Unit) Nat)
    (rd : BitVec 8 → Nat) (no : Nat) (yes : Nat → Nat) (ap jp : Nat) : Prop where
  read : ∀ s, k.acts (arrays Var Unit) [.read .v () .i] s + k.jump = rd (s.var .i)
  no : ∀ q u, k.testFalse q (.eqK .v u) + k.jump = no
  yes : ∀ q u, k.testTrue q (.eqK .v u) + k.jump = yes q
  apply : ∀ s w d, k.acts (arrays Var Unit) [.base (.set .v w), .write () .i .v, .base (.add .i d)] s + k.jump = ap
  jump : k.jump = jp

variable {rd : BitVec 8 → Nat} {no : Nat} {yes : Nat → Nat} {ap jp : Nat}

/-- The time to find the rule and apply it. -/
theorem rules_take (hP : Prices T k rd no yes ap jp) {ch : Chart (Action Var Unit) (Guard Var)} {t : Nat → Nat} {out : Nat}
    {s : State Var Unit} {c : Config} (hs : Shows s c) (hv : s.var .v = c.tape c.head) (rs : List Rule) (l : Nat)
    (h : ∀ j, j < 2 * rs.length + 1 → ch[l + j]? = (ruleBlocks t out l rs)[j]?) :
    ∃ s', match rs.find? fun r => decide (r.seen = c.tape c.head) with
      | none => ChartTakes (arrays Var Unit) T k p ch l s
          (no * (rs.findIdx fun r => decide (r.seen = c.tape c.head)) + jp) out s' ∧ Shows s' c
      | some r => ChartTakes (arrays Var Unit) T k p ch l s
          (no * (rs.findIdx fun r => decide (r.seen = c.tape c.head)) +
            yes (T.entry p ch (l + 2 * rs.findIdx fun r => decide (r.seen = c.tape c.head))) + ap) (t r.next) s' ∧
          Shows s' (r.apply c) := by
  induction rs generalizing l with
  | nil =>
    have h0 : ch[l]? = some ⟨[], .goto out⟩ := h 0 (by decide)
    refine ⟨s, takes_cast (.block (n := 0) h0 .goto .here) ?_, hs⟩
    show 0 + k.jump + 0 = no * 0 + jp
    rw [hP.jump]
    omega
  | cons r rs ih =>
    have h0 : ch[l]? = some ⟨[], .branch (.eqK .v r.seen) (l + 1) (l + 2)⟩ := h 0 (by omega)
    have h1 : ch[l + 1]? = some
      ⟨[.base (.set .v r.written), .write () .i .v, .base (.add .i r.move.shift)], .goto (t r.next)⟩ :=
      h 1 (by simp only [List.length_cons]; omega)
    by_cases hb : r.seen = c.tape c.head
    · rw [List.find?_cons, List.findIdx_cons, decide_eq_true hb]
      refine ⟨_, takes_cast (.block h0 (.yes (hv.trans hb.symm)) (.block (n := 0) h1 .goto .here)) ?_, ?_, ?_⟩
      · have e1 := hP.yes (T.entry p ch l + T.bytes (([] : List (Action Var Unit)).flatMap T.act)) r.seen
        have e2 := hP.apply ((arrays Var Unit).after [] s) r.written r.move.shift
        have e3 : T.entry p ch l + T.bytes (([] : List (Action Var Unit)).flatMap T.act) = T.entry p ch l := rfl
        rw [e3] at e1
        show 0 + (k.testTrue (T.entry p ch l) (.eqK .v r.seen) + k.jump) + (k.acts (arrays Var Unit) _ _ + k.jump + 0) =
          no * 0 + yes (T.entry p ch (l + 2 * 0)) + ap
        rw [e1]
        rw [Nat.add_zero, e2]
        simp
      · show BitVec.ofNat 8 ((s.var .i).toNat + r.move.shift.toNat) = _
        rw [shift_head, hs.1]; rfl
      · funext j
        show (if () = () ∧ j = s.var .i then r.written else s.arr () j) = _
        rw [hs.1, hs.2]
        show _ = if j = c.head then r.written else c.tape j
        by_cases hj : j = c.head
        · rw [if_pos ⟨rfl, hj⟩, if_pos hj]
        · rw [if_neg (fun h => hj h.2), if_neg hj]
    · rw [List.find?_cons, List.findIdx_cons, decide_eq_false hb]
      obtain ⟨s', hm⟩ := ih (l + 2) fun j hj => by
        have := h (j + 2) (by simp only [List.length_cons]; omega)
        rw [show l + (j + 2) = l + 2 + j by omega] at this
        exact this
      have hno : ¬ (arrays Var Unit).holds (.eqK .v r.seen) ((arrays Var Unit).after [] s) :=
        fun h => hb ((show s.var .v = r.seen from h).symm.trans hv)
      have e0 := hP.no (T.entry p ch l) r.seen
      refine ⟨s', ?_⟩
      generalize hfi : (rs.findIdx fun r => decide (r.seen = c.tape c.head)) = j at hm
      cases hf : rs.find? fun r => decide (r.seen = c.tape c.head) with
      | none =>
        rw [hf] at hm
        refine ⟨takes_cast (.block h0 (.no hno) hm.1) ?_, hm.2⟩
        show 0 + (k.testFalse (T.entry p ch l) (.eqK .v r.seen) + k.jump) + (no * j + jp) = no * (j + 1) + jp
        rw [e0, Nat.mul_succ]
        omega
      | some r' =>
        rw [hf] at hm
        refine ⟨takes_cast (.block h0 (.no hno) hm.1) ?_, hm.2⟩
        show 0 + (k.testFalse (T.entry p ch l) (.eqK .v r.seen) + k.jump) +
          (no * j + yes (T.entry p ch (l + 2 + 2 * j)) + ap) = no * (j + 1) + yes (T.entry p ch (l + 2 * (j + 1))) + ap
        rw [e0, Nat.mul_succ, show l + 2 + 2 * j = l + 2 * (j + 1) by omega]
        omega

/-- The time of a step. -/
def stepPrice (T : Target (Action Var Unit) (Guard Var) W) (rd : BitVec 8 → Nat) (no : Nat) (yes : Nat → Nat) (ap p : Nat)
    (m : Machine) (c : Config) : Nat :=
  rd c.head + (no * m.tried c + yes (T.entry p m.chart (rowAt m c.state + 1 + 2 * m.tried c)) + ap)

/-- The time to halt. -/
def haltPrice (rd : BitVec 8 → Nat) (no jp : Nat) (m : Machine) (c : Config) : Nat :=
  if c.state < m.length then rd c.head + (no * m.tried c + jp) else 0

theorem state_takes (hP : Prices T k rd no yes ap jp) {s : State Var Unit} {c : Config} (hs : Shows s c) :
    (∀ c', m.step c = some c' → ∃ s', ChartTakes (arrays Var Unit) T k p m.chart (rowAt m c.state) s
      (stepPrice T rd no yes ap p m c) (rowAt m c'.state) s' ∧ Shows s' c') ∧
    (m.step c = none → ∃ s', ChartTakes (arrays Var Unit) T k p m.chart (rowAt m c.state) s
      (haltPrice rd no jp m c) m.chart.length s' ∧ Shows s' c) := by
  rw [chart_length]
  cases hq : m[c.state]? with
  | none =>
    have hlen : m.length ≤ c.state := List.getElem?_eq_none_iff.1 hq
    simp only [Machine.step, hq]
    refine ⟨fun c' h => (by cases h), fun _ => ⟨s, ?_, hs⟩⟩
    rw [rowAt_out hlen, haltPrice, if_neg (by omega)]
    exact .here
  | some rs =>
    have hlt : c.state < m.length := (List.getElem?_eq_some_iff.1 hq).1
    have ht : m.tried c = rs.findIdx fun r => decide (r.seen = c.tape c.head) := by
      unfold Machine.tried
      rw [hq]
      rfl
    have hget := chart_get hq
    have h0 : m.chart[rowAt m c.state]? = some ⟨[.read .v () .i], .goto (rowAt m c.state + 1)⟩ :=
      hget 0 (by unfold rowLength; omega)
    have er := hP.read s
    rw [hs.1] at er
    obtain ⟨s₁, es⟩ : ∃ s₁, (arrays Var Unit).after [.read .v () .i] s = s₁ := ⟨_, rfl⟩
    have s1 : Shows s₁ c := by subst es; exact hs
    have v1 : s₁.var .v = c.tape c.head := by
      subst es
      show s.arr () (s.var .i) = _
      rw [hs.1, hs.2]
    obtain ⟨s', h1⟩ := rules_take (p := p) hP (ch := m.chart) (t := rowAt m) (out := rowAt m m.length) s1 v1 rs
      (rowAt m c.state + 1) fun j hj => by
        have := hget (j + 1) (by unfold rowLength; omega)
        rw [show rowAt m c.state + (j + 1) = rowAt m c.state + 1 + j by omega] at this
        exact this
    rw [← ht] at h1
    simp only [Machine.step, hq]
    cases hf : rs.find? fun r => decide (r.seen = c.tape c.head) with
    | none =>
      rw [hf] at h1
      refine ⟨fun c' h => (by cases h), fun _ => ⟨s', ?_, h1.2⟩⟩
      refine takes_cast (.block h0 .goto (by rw [es]; exact h1.1)) ?_
      rw [haltPrice, if_pos hlt, ← er]
    | some r =>
      rw [hf] at h1
      refine ⟨fun c' h => ?_, fun h => (by cases h)⟩
      cases h
      refine ⟨s', takes_cast (.block h0 .goto (by rw [es]; exact h1.1)) ?_, h1.2⟩
      rw [stepPrice, ← er]

/-- The time of some steps. -/
theorem steps_take (hP : Prices T k rd no yes ap jp) {n : Nat} {c c' : Config} (h : m.Steps n c c') :
    ∀ {s : State Var Unit}, Shows s c → ∃ s', ChartTakes (arrays Var Unit) T k p m.chart (rowAt m c.state) s
      (m.stepsTime (stepPrice T rd no yes ap p m) n c) (rowAt m c'.state) s' ∧ Shows s' c' := by
  induction h with
  | here => intro s hs; exact ⟨s, .here, hs⟩
  | step h1 _ ih =>
    intro s hs
    obtain ⟨s₁, f1, hs₁⟩ := (state_takes (p := p) hP hs).1 _ h1
    obtain ⟨s', f2, hs'⟩ := ih hs₁
    refine ⟨s', takes_cast (takes_trans f1 f2) ?_, hs'⟩
    simp only [Machine.stepsTime, h1]

/-- The time of a run to the end. -/
theorem halt_takes (hP : Prices T k rd no yes ap jp) {n : Nat} {s : State Var Unit} {c c' : Config} (hs : Shows s c)
    (h0 : c.state = 0) (h : m.Steps n c c') (hh : m.step c' = none) :
    ∃ s', ChartTakes (arrays Var Unit) T k p m.chart 0 s
      (m.stepsTime (stepPrice T rd no yes ap p m) n c + haltPrice rd no jp m c') m.chart.length s' ∧ Shows s' c' := by
  have e0 : rowAt m c.state = 0 := by rw [h0]; rfl
  obtain ⟨s', f, hs'⟩ := steps_take (p := p) hP h hs
  obtain ⟨s'', f', hs''⟩ := (state_takes (p := p) hP hs').2 hh
  rw [e0] at f
  exact ⟨s'', takes_trans f f', hs''⟩

theorem stepsTime_congr {f g : Config → Nat} (h : ∀ c c', m.step c = some c' → f c = g c) (n : Nat) (c : Config) :
    m.stepsTime f n c = m.stepsTime g n c := by
  induction n generalizing c with
  | zero => rfl
  | succ n ih =>
    cases hc : m.step c with
    | none => simp only [Machine.stepsTime, hc]
    | some c' => simp only [Machine.stepsTime, hc, h c c' hc, ih]

theorem stepsTime_bounds {f : Config → Nat} {lo hi : Nat} (h : ∀ c c', m.step c = some c' → lo ≤ f c ∧ f c ≤ hi)
    {n : Nat} {c c' : Config} (hs : m.Steps n c c') :
    lo * n ≤ m.stepsTime f n c ∧ m.stepsTime f n c ≤ hi * n := by
  induction hs with
  | here => exact ⟨Nat.le_refl _, Nat.le_refl _⟩
  | step h1 _ ih =>
    have := h _ _ h1
    simp only [Machine.stepsTime, h1, Nat.mul_succ]
    omega

/-- The blocks before a block of a state. -/
theorem rowsBlocks_take (t : Nat → Nat) (out : Nat) {m : Machine} {q : Nat} {rs : List Rule} (h : m[q]? = some rs)
    (l x : Nat) (hx : x ≤ rowLength rs) : (rowsBlocks t out l m).take (rowAt m q + x) =
      rowsBlocks t out l (m.take q) ++ (rowBlocks t out (l + rowAt m q) rs).take x := by
  unfold rowAt
  induction m generalizing l q with
  | nil => cases h
  | cons r' m ih =>
    cases q with
    | zero =>
      cases h
      simp only [rowsBlocks, List.take_zero, List.map_nil, List.sum_nil, Nat.zero_add, Nat.add_zero, List.nil_append]
      exact List.take_append_of_le_length (by rw [rowBlocks_length]; exact hx)
    | succ q =>
      have h : m[q]? = some rs := h
      have := ih h (l + rowLength r')
      simp only [rowsBlocks, List.take_succ_cons, List.map_cons, List.sum_cons]
      rw [List.take_append, rowBlocks_length, List.take_of_length_le (by rw [rowBlocks_length]; omega),
        show rowLength r' + ((m.take q).map rowLength).sum + x - rowLength r' =
          ((m.take q).map rowLength).sum + x by omega, this, List.append_assoc, Nat.add_assoc]

/-- The length of the code before the test for the rule `j`. -/
theorem ruleBlocks_take_size {rl : Nat}
    (hc : ∀ u x l w d l', T.blockSize ⟨[], .branch (.eqK .v u) x l⟩ +
      T.blockSize ⟨[.base (.set .v w), .write () .i .v, .base (.add .i d)], .goto l'⟩ = rl)
    (t : Nat → Nat) (out : Nat) (rs : List Rule) (l : Nat) {j : Nat} (hj : j ≤ rs.length) :
    T.chartSize ((ruleBlocks t out l rs).take (2 * j)) = rl * j := by
  induction j generalizing rs l with
  | zero => rfl
  | succ j ih =>
    cases rs with
    | nil => exact absurd hj (Nat.not_succ_le_zero _)
    | cons r rs =>
      show T.blockSize ⟨[], .branch (.eqK .v r.seen) (l + 1) (l + 2)⟩ + (T.blockSize ⟨[.base (.set .v r.written),
        .write () .i .v, .base (.add .i r.move.shift)], .goto (t r.next)⟩ +
          T.chartSize ((ruleBlocks t out (l + 2) rs).take (2 * j))) = _
      rw [← Nat.add_assoc, hc, ih rs _ (Nat.le_of_succ_le_succ hj), Nat.mul_succ, Nat.add_comm]

/-- A rule that applies is one of the rules of the state. -/
theorem tried_lt {c c' : Config} (h : m.step c = some c') : ∃ rs ∈ m, m[c.state]? = some rs ∧ m.tried c < rs.length := by
  unfold Machine.step at h
  cases hq : m[c.state]? with
  | none => rw [hq] at h; cases h
  | some rs =>
    rw [hq] at h
    refine ⟨rs, List.mem_of_getElem? hq, rfl, ?_⟩
    unfold Machine.tried
    rw [hq]
    show List.findIdx _ rs < _
    rw [List.findIdx_lt_length]
    obtain ⟨r, hr, -⟩ := Option.map_eq_some_iff.1 h
    exact ⟨r, List.mem_of_find?_eq_some hr, by simpa using List.find?_some hr⟩

end

end Verif.Turing
