import Verif.Spec.Sort
import Mathlib.Data.List.Count
import Mathlib.Data.List.Flatten

/-!
# Counting sort sorts
-/

namespace Verif.Sort

open Verif.Spec.Flow Verif.Spec.Structured Verif.Spec.Sort

/-! ### Rules for executions -/

/-- The program ends in `s'`. -/
def Does {A G S : Type} (M : Meaning A G S) (k : Costs A G) (c : Flow A G) (s s' : S) : Prop := ∃ n, Exec M k c s n s'

section
variable {A G S : Type} {M : Meaning A G S} {k : Costs A G}

theorem does_seq {c d : Flow A G} {s s' s'' : S} (h : Does M k c s s') (h' : Does M k d s' s'') :
    Does M k (.seq c d) s s'' := by
  obtain ⟨_, h⟩ := h
  obtain ⟨_, h'⟩ := h'
  exact ⟨_, .seq h h'⟩

theorem does_block (as : List A) (s : S) : Does M k (block as) s (as.foldl (fun s a => M.eval a s) s) := by
  induction as generalizing s with
  | nil => exact ⟨_, .skip⟩
  | cons a as ih => exact does_seq ⟨_, .act⟩ (ih _)

theorem does_loop {g : G} {c : Flow A G} {Inv : Nat → S → Prop}
    (step : ∀ m s, Inv m s → M.holds g s → ∃ m' s', m' < m ∧ Does M k c s s' ∧ Inv m' s')
    {m : Nat} {s : S} (h : Inv m s) : ∃ m' s', Does M k (.loop g c) s s' ∧ Inv m' s' ∧ ¬ M.holds g s' := by
  induction m using Nat.strongRecOn generalizing s with
  | _ m ih =>
    by_cases hg : M.holds g s
    · obtain ⟨m', s', hlt, ⟨_, h1⟩, h2⟩ := step m s h hg
      obtain ⟨m'', s'', ⟨_, h3⟩, h4, h5⟩ := ih m' hlt h2
      exact ⟨m'', s'', ⟨_, .loopTrue hg h1 h3⟩, h4, h5⟩
    · exact ⟨m, s, ⟨_, .loopFalse hg⟩, h, hg⟩

end

/-! ### Lists -/

theorem first_succ (a : BitVec 8 → BitVec 8) (k : Nat) : first a (k + 1) = first a k ++ [a (BitVec.ofNat 8 k)] := by
  unfold first
  rw [List.range_succ, List.map_append]
  rfl

theorem length_first (a : BitVec 8 → BitVec 8) (k : Nat) : (first a k).length = k := by
  unfold first
  rw [List.length_map, List.length_range]

theorem first_congr {a a' : BitVec 8 → BitVec 8} {k : Nat} (h : ∀ j, j < k → a (BitVec.ofNat 8 j) = a' (BitVec.ofNat 8 j)) :
    first a k = first a' k := by
  unfold first
  exact List.map_congr_left fun j hj => h j (List.mem_range.1 hj)

/-- The values below `V`, each as often as `f` says. -/
def emitted (f : BitVec 8 → Nat) : Nat → List (BitVec 8)
  | 0 => []
  | V + 1 => emitted f V ++ List.replicate (f (BitVec.ofNat 8 V)) (BitVec.ofNat 8 V)

theorem mem_emitted {f : BitVec 8 → Nat} {V : Nat} (hV : V ≤ 256) {u : BitVec 8} (h : u ∈ emitted f V) : u.toNat < V := by
  induction V with
  | zero => cases h
  | succ V ih =>
    unfold emitted at h
    rcases List.mem_append.1 h with h | h
    · have := ih (by omega) h
      omega
    · rw [List.eq_of_mem_replicate h, BitVec.toNat_ofNat]
      omega

theorem emitted_sorted (f : BitVec 8 → Nat) {V : Nat} (hV : V ≤ 256) :
    (emitted f V).Pairwise (·.toNat ≤ ·.toNat) := by
  induction V with
  | zero => exact .nil
  | succ V ih =>
    unfold emitted
    rw [List.pairwise_append]
    refine ⟨ih (by omega), List.pairwise_replicate.2 (.inr (Nat.le_refl _)), fun u hu w hw => ?_⟩
    rw [List.eq_of_mem_replicate hw, BitVec.toNat_ofNat]
    have := mem_emitted (by omega) hu
    omega

theorem count_emitted (f : BitVec 8 → Nat) {V : Nat} (hV : V ≤ 256) (u : BitVec 8) :
    (emitted f V).count u = if u.toNat < V then f u else 0 := by
  induction V with
  | zero => rw [if_neg (by omega)]; rfl
  | succ V ih =>
    unfold emitted
    rw [List.count_append, ih (by omega), List.count_replicate]
    by_cases e : BitVec.ofNat 8 V = u
    · subst e
      have e : (BitVec.ofNat 8 V).toNat = V := by rw [BitVec.toNat_ofNat]; omega
      simp [e]
    · have : u.toNat ≠ V := fun h => e (by rw [← h, BitVec.ofNat_toNat, BitVec.setWidth_eq])
      have e' : (BitVec.ofNat 8 V == u) = false := by simpa using e
      rw [e', if_neg Bool.false_ne_true, Nat.add_zero]
      by_cases h : u.toNat < V
      · rw [if_pos h, if_pos (by omega)]
      · rw [if_neg h, if_neg (by omega)]

theorem emitted_perm (l : List (BitVec 8)) : (emitted (fun u => l.count u) 256).Perm l := by
  rw [List.perm_iff_count]
  intro u
  rw [count_emitted _ (by omega), if_pos u.isLt]

theorem emitted_prefix (f : BitVec 8 → Nat) {V : Nat} (m : Nat) : ∃ r, emitted f (V + m) = emitted f V ++ r := by
  induction m with
  | zero => exact ⟨[], (List.append_nil _).symm⟩
  | succ m ih =>
    obtain ⟨r, hr⟩ := ih
    refine ⟨r ++ List.replicate (f (BitVec.ofNat 8 (V + m))) (BitVec.ofNat 8 (V + m)), ?_⟩
    rw [← Nat.add_assoc, emitted, hr, List.append_assoc]

/-! ### The three parts -/

section
variable {k : Costs (Action Var Arr) (Guard Var)}

theorem clear_does (s : State Var Arr) : ∃ s', Does (arrays Var Arr) k clear s s' ∧
    s'.arr .data = s.arr .data ∧ s'.var .n = s.var .n ∧ ∀ u, s'.arr .count u = 0 := by
  let Inv : Nat → State Var Arr → Prop := fun m t => ∃ V, 1 ≤ V ∧ V ≤ 256 ∧ m = 256 - V ∧ t.var .v = BitVec.ofNat 8 V ∧
    t.var .z = 0 ∧ t.var .n = s.var .n ∧ t.arr .data = s.arr .data ∧ ∀ u : BitVec 8, u.toNat < V → t.arr .count u = 0
  have step : ∀ m t, Inv m t → (arrays Var Arr).holds (.neK .v 0) t → ∃ m' t', m' < m ∧
      Does (arrays Var Arr) k (block [.write .count .v .z, .base (.add .v 1)]) t t' ∧ Inv m' t' := by
    rintro m t ⟨V, h1, h2, rfl, hv, hz, hn, hd, hc⟩ hg
    have hV : V ≠ 256 := by
      rintro rfl
      exact hg hv
    refine ⟨_, _, ?_, does_block _ _, V + 1, by omega, by omega, rfl, ?_, hz, hn, ?_, fun u hu => ?_⟩
    · omega
    · show BitVec.ofNat 8 ((t.var .v).toNat + 1) = _
      rw [hv, BitVec.toNat_ofNat]
      apply BitVec.eq_of_toNat_eq
      rw [BitVec.toNat_ofNat, BitVec.toNat_ofNat]
      omega
    · rw [← hd]
      funext j
      rfl
    · show (if Arr.count = Arr.count ∧ u = t.var .v then t.var .z else t.arr .count u) = 0
      by_cases e : u = t.var .v
      · rw [if_pos ⟨rfl, e⟩, hz]
      · rw [if_neg (fun h => e h.2), hc]
        refine Nat.lt_of_le_of_ne (by omega) fun h => e ?_
        rw [hv, ← h, BitVec.ofNat_toNat, BitVec.setWidth_eq]
  have base : ∃ t, Does (arrays Var Arr) k (block [.base (.set .z 0), .base (.set .v 0), .write .count .v .z,
      .base (.add .v 1)]) s t ∧ Inv 255 t := by
    refine ⟨_, does_block _ _, 1, by omega, by omega, rfl, rfl, rfl, rfl, ?_, fun u hu => ?_⟩
    · funext j
      rfl
    · have : u = 0 := BitVec.eq_of_toNat_eq (by show u.toNat = 0; omega)
      subst this
      rfl
  obtain ⟨t, h1, h2⟩ := base
  obtain ⟨m, t', h3, ⟨V, i1, i2, -, hv, -, hn, hd, hc⟩, hg⟩ := does_loop step h2
  refine ⟨t', does_seq h1 h3, hd, hn, fun u => hc u ?_⟩
  have hV : V = 256 := by
    refine Classical.byContradiction fun h => hg ?_
    intro h0
    change t'.var .v = 0 at h0
    rw [hv] at h0
    have := congrArg BitVec.toNat h0
    rw [BitVec.toNat_ofNat] at this
    change V % 256 = 0 at this
    omega
  have := u.isLt
  omega

theorem tally_does (s : State Var Arr) (hz : ∀ u, s.arr .count u = 0) :
    ∃ s', Does (arrays Var Arr) k tally s s' ∧ s'.arr .data = s.arr .data ∧ s'.var .n = s.var .n ∧
      ∀ u, (s'.arr .count u).toNat = (first (s.arr .data) (s.var .n).toNat).count u := by
  let Inv : Nat → State Var Arr → Prop := fun m t => ∃ i, i ≤ (s.var .n).toNat ∧ m = (s.var .n).toNat - i ∧
    t.var .i = BitVec.ofNat 8 i ∧ t.var .n = s.var .n ∧ t.arr .data = s.arr .data ∧
    ∀ u, (t.arr .count u).toNat = (first (s.arr .data) i).count u
  have hN := (s.var .n).isLt
  have step : ∀ m t, Inv m t → (arrays Var Arr).holds (.ne .i .n) t → ∃ m' t', m' < m ∧
      Does (arrays Var Arr) k (block [.read .v .data .i, .read .c .count .v, .base (.add .c 1), .write .count .v .c,
        .base (.add .i 1)]) t t' ∧ Inv m' t' := by
    rintro m t ⟨i, h2, rfl, hi, hn, hd, hc⟩ hg
    have hin : i ≠ (s.var .n).toNat := by
      rintro rfl
      refine hg ?_
      show t.var .i = t.var .n
      rw [hi, hn, BitVec.ofNat_toNat, BitVec.setWidth_eq]
    refine ⟨_, _, ?_, does_block _ _, i + 1, by omega, rfl, ?_, hn, ?_, fun u => ?_⟩
    · omega
    · show BitVec.ofNat 8 ((t.var .i).toNat + 1) = _
      rw [hi, BitVec.toNat_ofNat]
      apply BitVec.eq_of_toNat_eq
      rw [BitVec.toNat_ofNat, BitVec.toNat_ofNat]
      omega
    · rw [← hd]
      funext j
      rfl
    · show BitVec.toNat (if Arr.count = Arr.count ∧ u = t.arr .data (t.var .i) then
        BitVec.ofNat 8 ((t.arr .count (t.arr .data (t.var .i))).toNat + 1) else t.arr .count u) = _
      rw [first_succ, List.count_append, hd, hi]
      have hle : List.count u (first (s.arr .data) i) ≤ i := by
        have := List.count_le_length (a := u) (l := first (s.arr .data) i)
        rwa [length_first] at this
      by_cases e : u = s.arr .data (BitVec.ofNat 8 i)
      · subst e
        rw [if_pos ⟨rfl, rfl⟩, hc, BitVec.toNat_ofNat, List.count_singleton_self, Nat.mod_eq_of_lt]
        show _ < 256
        omega
      · rw [if_neg (fun h => e h.2), hc, List.count_singleton]
        rw [if_neg (by simpa using fun h => e h.symm), Nat.add_zero]
  have base : ∃ t, Does (arrays Var Arr) k (block [.base (.set .i 0)]) s t ∧ Inv (s.var .n).toNat t := by
    refine ⟨_, does_block _ _, 0, by omega, rfl, rfl, rfl, rfl, fun u => ?_⟩
    show (s.arr .count u).toNat = 0
    rw [hz]; rfl
  obtain ⟨t, h1, h2⟩ := base
  obtain ⟨m, t', h3, ⟨i, i2, -, hi, hn, hd, hc⟩, hg⟩ := does_loop step h2
  refine ⟨t', does_seq h1 h3, hd, hn, fun u => ?_⟩
  rw [hc]
  have : i = (s.var .n).toNat := by
    refine Classical.byContradiction fun h => hg ?_
    intro h0
    change t'.var .i = t'.var .n at h0
    rw [hi, hn] at h0
    have := congrArg BitVec.toNat h0
    rw [BitVec.toNat_ofNat] at this
    change i % 256 = _ at this
    omega
  rw [this]

/-- The inner loop: `c` times the value of `v`, from `i` on. -/
theorem fill_does (s : State Var Arr) (L : Nat) (hi : s.var .i = BitVec.ofNat 8 L) (hL : L + (s.var .c).toNat < 256) :
    ∃ s', Does (arrays Var Arr) k
        (.loop (.neK .c 0) (block [.write .data .i .v, .base (.add .i 1), .base (.add .c 255)])) s s' ∧
      s'.var .i = BitVec.ofNat 8 (L + (s.var .c).toNat) ∧ s'.var .v = s.var .v ∧ s'.var .n = s.var .n ∧
      s'.arr .count = s.arr .count ∧
      first (s'.arr .data) (L + (s.var .c).toNat) = first (s.arr .data) L ++ List.replicate (s.var .c).toNat (s.var .v) ∧
      ∀ j : BitVec 8, L + (s.var .c).toNat ≤ j.toNat → s'.arr .data j = s.arr .data j := by
  let Inv : Nat → State Var Arr → Prop := fun m t => ∃ e, e + m = (s.var .c).toNat ∧ t.var .c = BitVec.ofNat 8 m ∧
    t.var .i = BitVec.ofNat 8 (L + e) ∧ t.var .v = s.var .v ∧ t.var .n = s.var .n ∧ t.arr .count = s.arr .count ∧
    first (t.arr .data) (L + e) = first (s.arr .data) L ++ List.replicate e (s.var .v) ∧
    ∀ j : BitVec 8, L + e ≤ j.toNat → t.arr .data j = s.arr .data j
  have step : ∀ m t, Inv m t → (arrays Var Arr).holds (.neK .c 0) t → ∃ m' t', m' < m ∧
      Does (arrays Var Arr) k (block [.write .data .i .v, .base (.add .i 1), .base (.add .c 255)]) t t' ∧ Inv m' t' := by
    rintro m t ⟨e, h1, hc, hi, hv, hn, hcount, hf, hr⟩ hg
    have hm : m ≠ 0 := by
      rintro rfl
      exact hg hc
    have hw : ∀ j, (if Arr.data = Arr.data ∧ j = t.var .i then t.var .v else t.arr .data j) =
        if j = BitVec.ofNat 8 (L + e) then s.var .v else t.arr .data j := by
      intro j
      rw [hi, hv]
      by_cases h : j = BitVec.ofNat 8 (L + e)
      · rw [if_pos ⟨rfl, h⟩, if_pos h]
      · rw [if_neg fun x => h x.2, if_neg h]
    refine ⟨m - 1, _, by omega, does_block _ _, e + 1, by omega, ?_, ?_, hv, hn, ?_, ?_, fun j hj => ?_⟩
    · show BitVec.ofNat 8 ((t.var .c).toNat + 255) = _
      rw [hc, BitVec.toNat_ofNat]
      apply BitVec.eq_of_toNat_eq
      rw [BitVec.toNat_ofNat, BitVec.toNat_ofNat]
      omega
    · show BitVec.ofNat 8 ((t.var .i).toNat + 1) = _
      rw [hi, BitVec.toNat_ofNat]
      apply BitVec.eq_of_toNat_eq
      rw [BitVec.toNat_ofNat, BitVec.toNat_ofNat]
      omega
    · rw [← hcount]
      funext j
      rfl
    · show first (fun j => if Arr.data = Arr.data ∧ j = t.var .i then t.var .v else t.arr .data j) (L + e + 1) = _
      rw [show (fun j => if Arr.data = Arr.data ∧ j = t.var .i then t.var .v else t.arr .data j) = _ from funext hw,
        first_succ, if_pos rfl, List.replicate_succ', ← List.append_assoc, ← hf]
      congr 1
      refine first_congr fun j hj => if_neg fun h => ?_
      have := congrArg BitVec.toNat h
      rw [BitVec.toNat_ofNat, BitVec.toNat_ofNat] at this
      omega
    · show (if Arr.data = Arr.data ∧ j = t.var .i then t.var .v else t.arr .data j) = _
      rw [hw, if_neg, hr j (by omega)]
      rintro rfl
      rw [BitVec.toNat_ofNat] at hj
      omega
  have base : Inv (s.var .c).toNat s := by
    refine ⟨0, by omega, ?_, hi, rfl, rfl, rfl, (List.append_nil _).symm, fun _ _ => rfl⟩
    rw [BitVec.ofNat_toNat, BitVec.setWidth_eq]
  obtain ⟨m, t', h3, ⟨e, h1, hc, hi, hv, hn, hcount, hf, hr⟩, hg⟩ := does_loop step base
  have hm : m = 0 := by
    refine Classical.byContradiction fun h => hg ?_
    intro h0
    change t'.var .c = 0 at h0
    rw [hc] at h0
    have := congrArg BitVec.toNat h0
    rw [BitVec.toNat_ofNat] at this
    change m % 256 = 0 at this
    omega
  subst hm
  rw [show e = (s.var .c).toNat by omega] at hi hf hr
  exact ⟨t', h3, hi, hv, hn, hcount, hf, hr⟩

theorem emit_does (s : State Var Arr) {l : List (BitVec 8)} (hl : l.length = (s.var .n).toNat)
    (hc : ∀ u, (s.arr .count u).toNat = l.count u) :
    ∃ s', Does (arrays Var Arr) k emit s s' ∧ s'.var .n = s.var .n ∧ s'.arr .count = s.arr .count ∧
      first (s'.arr .data) l.length = emitted (fun u => l.count u) 256 ∧
      ∀ j : BitVec 8, l.length ≤ j.toNat → s'.arr .data j = s.arr .data j := by
  have hN := (s.var .n).isLt
  let f : BitVec 8 → Nat := fun u => l.count u
  have hall : (emitted f 256).length = l.length := (emitted_perm l).length_eq
  let Inv : Nat → State Var Arr → Prop := fun m t => ∃ V, V + m = 256 ∧ t.var .v = BitVec.ofNat 8 V ∧
    t.var .i = BitVec.ofNat 8 (emitted f V).length ∧ t.var .n = s.var .n ∧ t.arr .count = s.arr .count ∧
    first (t.arr .data) (emitted f V).length = emitted f V ∧
    ∀ j : BitVec 8, (emitted f V).length ≤ j.toNat → t.arr .data j = s.arr .data j
  have short : ∀ V m, V + m = 256 → ∃ r, emitted f 256 = emitted f V ++ r ∧ (emitted f V).length + r.length = l.length := by
    intro V m h
    obtain ⟨r, hr⟩ := emitted_prefix f (V := V) m
    rw [h] at hr
    refine ⟨r, hr, ?_⟩
    rw [← hall, hr, List.length_append]
  have step : ∀ m t, Inv m t → (arrays Var Arr).holds (.ne .i .n) t → ∃ m' t', m' < m ∧
      Does (arrays Var Arr) k (.seq (block [.read .c .count .v])
        (.seq (.loop (.neK .c 0) (block [.write .data .i .v, .base (.add .i 1), .base (.add .c 255)]))
          (block [.base (.add .v 1)]))) t t' ∧ Inv m' t' := by
    rintro m t ⟨V, h1, hv, hi, hn, hcount, hf, hr⟩ hg
    have hV : m ≠ 0 := by
      rintro rfl
      refine hg ?_
      show t.var .i = t.var .n
      rw [hi, hn, show V = 256 by omega, hall, hl, BitVec.ofNat_toNat, BitVec.setWidth_eq]
    obtain ⟨r, -, hlen⟩ := short (V + 1) (m - 1) (by omega)
    have ef : emitted f (V + 1) = emitted f V ++ List.replicate (f (BitVec.ofNat 8 V)) (BitVec.ofNat 8 V) := rfl
    have el : (emitted f (V + 1)).length = (emitted f V).length + f (BitVec.ofNat 8 V) := by
      rw [ef, List.length_append, List.length_replicate]
    obtain ⟨t₁, d₁, c₁, i₁, v₁, n₁, a₁⟩ : ∃ t₁, Does (arrays Var Arr) k (block [.read .c .count .v]) t t₁ ∧
        t₁.var .c = t.arr .count (t.var .v) ∧ t₁.var .i = t.var .i ∧ t₁.var .v = t.var .v ∧ t₁.var .n = t.var .n ∧
        t₁.arr = t.arr := ⟨_, does_block _ _, rfl, rfl, rfl, rfl, rfl⟩
    have ec : (t₁.var .c).toNat = f (BitVec.ofNat 8 V) := by
      rw [c₁, hcount, hc, hv]
    obtain ⟨t₂, d₂, i₂, v₂, n₂, q₂, f₂, r₂⟩ := fill_does (k := k) t₁ (emitted f V).length (i₁.trans hi) (by
      rw [ec]
      omega)
    rw [ec, ← el] at i₂ r₂
    rw [ec, a₁, hf, v₁, hv, ← el, ← ef] at f₂
    refine ⟨m - 1, _, by omega, does_seq d₁ (does_seq d₂ (does_block _ _)), V + 1, by omega, ?_, i₂, ?_, ?_, f₂,
      fun j hj => ?_⟩
    · show BitVec.ofNat 8 ((t₂.var .v).toNat + 1) = _
      rw [v₂, v₁, hv, BitVec.toNat_ofNat]
      apply BitVec.eq_of_toNat_eq
      rw [BitVec.toNat_ofNat, BitVec.toNat_ofNat]
      omega
    · exact n₂.trans (n₁.trans hn)
    · show t₂.arr .count = _
      rw [q₂, a₁, hcount]
    · show t₂.arr .data j = _
      rw [r₂ j hj, a₁, hr j (by omega)]
  obtain ⟨t, h1, h2⟩ : ∃ t, Does (arrays Var Arr) k (block [.base (.set .i 0), .base (.set .v 0)]) s t ∧ Inv 256 t :=
    ⟨_, does_block _ _, 0, rfl, rfl, rfl, rfl, rfl, rfl, fun _ _ => rfl⟩
  obtain ⟨m, t', h3, ⟨V, i1, hv, hi, hn, hcount, hf, hr⟩, hg⟩ := does_loop step h2
  obtain ⟨r, er, hlen⟩ := short V m i1
  have : (emitted f V).length = l.length := by
    refine Classical.byContradiction fun h => hg ?_
    intro h0
    change t'.var .i = t'.var .n at h0
    rw [hi, hn] at h0
    have := congrArg BitVec.toNat h0
    rw [BitVec.toNat_ofNat] at this
    change _ % 256 = _ at this
    omega
  have hr0 : r = [] := List.eq_nil_of_length_eq_zero (by omega)
  rw [hr0, List.append_nil] at er
  rw [this, ← er] at hf
  rw [this] at hr
  exact ⟨t', does_seq h1 h3, hn, hcount, hf, hr⟩

/-- The program ends, with the first `n` bytes of `data` sorted. -/
theorem sort_does (s : State Var Arr) : ∃ s', Does (arrays Var Arr) k sort s s' ∧ s'.var .n = s.var .n ∧
    Sorted (s.var .n).toNat (s.arr .data) (s'.arr .data) := by
  obtain ⟨s₁, d₁, a₁, n₁, z₁⟩ := clear_does (k := k) s
  obtain ⟨s₂, d₂, a₂, n₂, c₂⟩ := tally_does (k := k) s₁ z₁
  have hl : (first (s₁.arr .data) (s₁.var .n).toNat).length = (s.var .n).toNat := by rw [length_first, n₁]
  obtain ⟨s₃, d₃, n₃, -, f₃, r₃⟩ := emit_does (k := k) s₂ (by rw [length_first, n₂]) c₂
  rw [hl] at f₃ r₃
  refine ⟨s₃, does_seq d₁ (does_seq d₂ d₃), n₃.trans (n₂.trans n₁), ?_, ?_, fun j hj => ?_⟩
  · rw [f₃]
    refine (emitted_perm _).trans ?_
    rw [a₁, n₁]
  · rw [f₃]
    exact emitted_sorted _ (by omega)
  · rw [r₃ j hj, a₂, a₁]

end

end Verif.Sort
