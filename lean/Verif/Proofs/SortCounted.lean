import Verif.Proofs.Sort
import Verif.Proofs.Flow
import Verif.Spec.SortTimed

/-!
# How many instructions the counting sort takes

For any machine on which all assignments of a kind and all tests cost the same.
-/

namespace Verif.Sort

open Verif Verif.Spec.Flow Verif.Flow Verif.Spec.Sort
open Verif.Spec.Structured (Guard Act)

theorem total_front (w : Nat → Nat) (m d : Nat) :
    total (fun k => w (m + k)) (d + 1) = w m + total (fun k => w (m + 1 + k)) d := by
  induction d with
  | zero => simp [total]
  | succ d ih =>
    rw [total, ih, total, show m + (d + 1) = m + 1 + d by omega]
    omega

theorem total_congr {w w' : Nat → Nat} {n : Nat} (h : ∀ k, k < n → w k = w' k) : total w n = total w' n := by
  induction n with
  | zero => rfl
  | succ n ih => rw [total, total, ih fun k hk => h k (by omega), h n (by omega)]

theorem total_add (w w' : Nat → Nat) (n : Nat) : total (fun k => w k + w' k) n = total w n + total w' n := by
  induction n with
  | zero => rfl
  | succ n ih => rw [total, total, total, ih]; omega

theorem total_const (a n : Nat) : total (fun _ => a) n = n * a := by
  induction n with
  | zero => simp [total]
  | succ n ih => rw [total, ih, Nat.succ_mul]

theorem total_mul (a : Nat) (w : Nat → Nat) (n : Nat) : total (fun k => a * w k) n = a * total w n := by
  induction n with
  | zero => rfl
  | succ n ih => rw [total, total, ih, Nat.mul_add]

/-- A loop that goes round `n` times. -/
theorem exec_loop {A G S : Type} {D : Meaning A G S} {K : Costs A G} {g : G} {c : Flow A G}
    (Inv : Nat → S → Prop) (w : Nat → Nat) (n : Nat)
    (step : ∀ m s, m < n → Inv m s → D.holds g s ∧ ∃ s', Exec D K c s (w m) s' ∧ Inv (m + 1) s')
    (stop : ∀ s, Inv n s → ¬ D.holds g s) {s : S} (h : Inv 0 s) :
    ∃ s', Exec D K (.loop g c) s (total (fun m => K.test g + w m + 1) n + (K.test g + 1)) s' ∧ Inv n s' := by
  have key : ∀ d m s, m + d = n → Inv m s → ∃ s', Exec D K (.loop g c) s
      (total (fun j => K.test g + w (m + j) + 1) d + (K.test g + 1)) s' ∧ Inv n s' := by
    intro d
    induction d with
    | zero =>
      intro m s e hm
      obtain rfl : m = n := by omega
      refine ⟨s, ?_, hm⟩
      rw [total, Nat.zero_add]
      exact .loopFalse (stop s hm)
    | succ d ih =>
      intro m s e hm
      obtain ⟨hg, s₁, h1, h2⟩ := step m s (by omega) hm
      obtain ⟨s₂, h3, h4⟩ := ih (m + 1) s₁ (by omega) h2
      refine ⟨s₂, ?_, h4⟩
      rw [total_front fun j => K.test g + w j + 1, Nat.add_assoc]
      exact .loopTrue hg h1 h3
  have := key n 0 s (by omega) h
  simpa only [Nat.zero_add] using this

theorem exec_cast {A G S : Type} {D : Meaning A G S} {K : Costs A G} {c : Flow A G}
    {n m : Nat} {s s' : S} (h : Exec D K c s n s') (e : n = m) : Exec D K c s m s' := e ▸ h

/-- Costs that depend on the kind of the assignment only. -/
structure Uniform (K : Costs (Action Var Arr) (Guard Var)) (S A R W T : Nat) : Prop where
  set : ∀ x v, K.act (.base (.set x v)) = S
  add : ∀ x v, K.act (.base (.add x v)) = A
  read : ∀ x t j, K.act (.read x t j) = R
  write : ∀ t j x, K.act (.write t j x) = W
  test : ∀ g, K.test g = T

variable {K : Costs (Action Var Arr) (Guard Var)} {S A R W T : Nat}

theorem lt_rounds {l : List (BitVec 8)} {v : BitVec 8} (h : v ∈ l) : v.toNat < rounds l := by
  induction l with
  | nil => cases h
  | cons u l ih =>
    unfold rounds
    rcases List.mem_cons.1 h with rfl | h
    · omega
    · have := ih h
      omega

theorem rounds_mem {l : List (BitVec 8)} (h : rounds l ≠ 0) : ∃ v ∈ l, v.toNat + 1 = rounds l := by
  induction l with
  | nil => exact absurd rfl h
  | cons u l ih =>
    unfold rounds
    by_cases e : rounds l ≤ u.toNat + 1
    · exact ⟨u, List.mem_cons_self, by omega⟩
    · obtain ⟨v, h1, h2⟩ := ih (by omega)
      exact ⟨v, List.mem_cons_of_mem _ h1, by omega⟩

theorem length_emitted (f : BitVec 8 → Nat) (V : Nat) :
    (emitted f V).length = total (fun v => f (BitVec.ofNat 8 v)) V := by
  induction V with
  | zero => rfl
  | succ V ih => rw [emitted, List.length_append, List.length_replicate, ih, total]

/-- The values below `rounds l` are all of `l`, and those below a smaller number are not. -/
theorem emitted_rounds (l : List (BitVec 8)) : rounds l ≤ 256 ∧
    (emitted (fun u => l.count u) (rounds l)).length = l.length ∧
    ∀ V, V < rounds l → (emitted (fun u => l.count u) V).length < l.length := by
  let f : BitVec 8 → Nat := fun u => l.count u
  have hall : (emitted f 256).length = l.length := (emitted_perm l).length_eq
  have hR : rounds l ≤ 256 := by
    by_cases h : rounds l = 0
    · omega
    · obtain ⟨v, -, hv⟩ := rounds_mem h
      have := v.isLt
      omega
  have mono : ∀ V m, (emitted f V).length ≤ (emitted f (V + m)).length := by
    intro V m
    obtain ⟨r, hr⟩ := emitted_prefix f (V := V) m
    rw [hr, List.length_append]
    omega
  have zero : ∀ V, rounds l ≤ V → V < 256 → f (BitVec.ofNat 8 V) = 0 := by
    intro V h1 h2
    refine List.count_eq_zero.2 fun h => ?_
    have := lt_rounds h
    rw [BitVec.toNat_ofNat] at this
    omega
  have hend : (emitted f (rounds l)).length = l.length := by
    rw [← hall, length_emitted, length_emitted]
    have : ∀ m, rounds l + m ≤ 256 → total (fun v => f (BitVec.ofNat 8 v)) (rounds l) =
        total (fun v => f (BitVec.ofNat 8 v)) (rounds l + m) := by
      intro m
      induction m with
      | zero => intro _; rfl
      | succ m ih => intro h; rw [← Nat.add_assoc, total, ← ih (by omega), zero _ (by omega) (by omega), Nat.add_zero]
    have := this (256 - rounds l) (by omega)
    rwa [show rounds l + (256 - rounds l) = 256 by omega] at this
  have hlt : ∀ V, V < rounds l → (emitted f V).length < l.length := by
    intro V hV
    obtain ⟨v, h1, h2⟩ := rounds_mem (l := l) (by omega)
    have e := mono V (rounds l - 1 - V)
    rw [show V + (rounds l - 1 - V) = v.toNat by omega] at e
    have e' : (emitted f (v.toNat + 1)).length = (emitted f v.toNat).length + f (BitVec.ofNat 8 v.toNat) := by
      rw [emitted, List.length_append, List.length_replicate]
    rw [h2, hend, BitVec.ofNat_toNat, BitVec.setWidth_eq] at e'
    have : 0 < f v := List.count_pos_iff.2 h1
    omega
  exact ⟨hR, hend, hlt⟩

theorem clear_counts (hK : Uniform K S A R W T) (s : State Var Arr) :
    ∃ s', Exec (arrays Var Arr) K clear s (2 * S + W + A + 255 * (T + W + A + 1) + (T + 1)) s' := by
  obtain ⟨s₁, h1, h2⟩ : ∃ s₁, Exec (arrays Var Arr) K (block [.base (.set .z 0), .base (.set .v 0), .write .count .v .z,
      .base (.add .v 1)]) s (2 * S + W + A) s₁ ∧ s₁.var .v = 1 := by
    refine ⟨_, exec_cast (.seq .act (.seq .act (.seq .act (.seq .act .skip)))) ?_, rfl⟩
    rw [hK.set, hK.set, hK.write, hK.add]
    omega
  obtain ⟨s₂, h3, -⟩ := exec_loop (D := arrays Var Arr) (K := K)
    (g := .neK .v 0) (c := block [.write .count .v .z, .base (.add .v 1)])
    (fun j t => t.var .v = BitVec.ofNat 8 (j + 1)) (fun _ => W + A) 255 (by
      intro m t hm hv
      refine ⟨fun h0 => ?_, _, exec_cast (.seq .act (.seq .act .skip)) (by rw [hK.write, hK.add]; omega), ?_⟩
      · change t.var .v = 0 at h0
        rw [hv] at h0
        have := congrArg BitVec.toNat h0
        rw [BitVec.toNat_ofNat] at this
        change (m + 1) % 256 = 0 at this
        omega
      · show BitVec.ofNat 8 ((t.var .v).toNat + 1) = _
        rw [hv, BitVec.toNat_ofNat]
        apply BitVec.eq_of_toNat_eq
        rw [BitVec.toNat_ofNat, BitVec.toNat_ofNat]
        omega) (fun t ht hg => hg ht) h2
  refine ⟨s₂, exec_cast (.seq h1 h3) ?_⟩
  rw [total_const, hK.test]
  omega

theorem tally_counts (hK : Uniform K S A R W T) (s : State Var Arr) :
    ∃ s', Exec (arrays Var Arr) K tally s (S + (s.var .n).toNat * (T + 2 * R + 2 * A + W + 1) + (T + 1)) s' := by
  have hN := (s.var .n).isLt
  obtain ⟨s₁, h1, h2⟩ : ∃ s₁, Exec (arrays Var Arr) K (block [.base (.set .i 0)]) s S s₁ ∧
      (s₁.var .i = BitVec.ofNat 8 0 ∧ s₁.var .n = s.var .n) :=
    ⟨_, exec_cast (.seq .act .skip) (hK.set _ _), rfl, rfl⟩
  obtain ⟨s₂, h3, -⟩ := exec_loop (D := arrays Var Arr) (K := K)
    (g := .ne .i .n) (c := block [.read .v .data .i, .read .c .count .v, .base (.add .c 1), .write .count .v .c,
      .base (.add .i 1)])
    (fun j t => t.var .i = BitVec.ofNat 8 j ∧ t.var .n = s.var .n) (fun _ => 2 * R + 2 * A + W) (s.var .n).toNat (by
      rintro m t hm ⟨hi, hn⟩
      have em : (BitVec.ofNat 8 m).toNat = m := by rw [BitVec.toNat_ofNat]; omega
      refine ⟨fun h0 => ?_, _, exec_cast (.seq .act (.seq .act (.seq .act (.seq .act (.seq .act .skip))))) ?_, ?_, hn⟩
      · change t.var .i = t.var .n at h0
        rw [hi, hn] at h0
        have := congrArg BitVec.toNat h0
        omega
      · rw [hK.read, hK.read, hK.add, hK.write, hK.add]
        omega
      · show BitVec.ofNat 8 ((t.var .i).toNat + 1) = _
        rw [hi, em]) (by
      rintro t ⟨hi, hn⟩ hg
      refine hg ?_
      show t.var .i = t.var .n
      rw [hi, hn, BitVec.ofNat_toNat, BitVec.setWidth_eq]) h2
  refine ⟨s₂, exec_cast (.seq h1 h3) ?_⟩
  rw [total_const, hK.test, show T + (2 * R + 2 * A + W) + 1 = T + 2 * R + 2 * A + W + 1 by omega]
  omega

theorem fill_counts (hK : Uniform K S A R W T) (s : State Var Arr) (L : Nat) (hi : s.var .i = BitVec.ofNat 8 L) :
    ∃ s', Exec (arrays Var Arr) K
        (.loop (.neK .c 0) (block [.write .data .i .v, .base (.add .i 1), .base (.add .c 255)])) s
        ((s.var .c).toNat * (T + W + 2 * A + 1) + (T + 1)) s' ∧
      s'.var .i = BitVec.ofNat 8 (L + (s.var .c).toNat) ∧ s'.var .v = s.var .v ∧ s'.var .n = s.var .n ∧
      s'.arr .count = s.arr .count := by
  have hC := (s.var .c).isLt
  obtain ⟨s₂, h3, h4, h5⟩ := exec_loop (D := arrays Var Arr) (K := K)
    (g := .neK .c 0) (c := block [.write .data .i .v, .base (.add .i 1), .base (.add .c 255)]) (s := s)
    (fun j t => t.var .c = BitVec.ofNat 8 ((s.var .c).toNat - j) ∧ t.var .i = BitVec.ofNat 8 (L + j) ∧
      t.var .v = s.var .v ∧ t.var .n = s.var .n ∧ t.arr .count = s.arr .count) (fun _ => W + 2 * A) (s.var .c).toNat (by
      rintro m t hm ⟨hc, hi, hv, hn, ha⟩
      refine ⟨fun h0 => ?_, _, exec_cast (.seq .act (.seq .act (.seq .act .skip)))
        (by rw [hK.write, hK.add, hK.add]; omega), ?_, ?_, hv, hn, ?_⟩
      · change t.var .c = 0 at h0
        rw [hc] at h0
        have := congrArg BitVec.toNat h0
        rw [BitVec.toNat_ofNat] at this
        change ((s.var .c).toNat - m) % 256 = 0 at this
        omega
      · show BitVec.ofNat 8 ((t.var .c).toNat + 255) = _
        rw [hc, BitVec.toNat_ofNat]
        apply BitVec.eq_of_toNat_eq
        rw [BitVec.toNat_ofNat, BitVec.toNat_ofNat]
        omega
      · show BitVec.ofNat 8 ((t.var .i).toNat + 1) = _
        rw [hi, BitVec.toNat_ofNat]
        apply BitVec.eq_of_toNat_eq
        rw [BitVec.toNat_ofNat, BitVec.toNat_ofNat]
        omega
      · rw [← ha]
        funext j
        rfl) (by
      rintro t ⟨hc, -⟩ hg
      rw [Nat.sub_self] at hc
      exact hg hc) ⟨by rw [Nat.sub_zero, BitVec.ofNat_toNat, BitVec.setWidth_eq], hi, rfl, rfl, rfl⟩
  refine ⟨s₂, exec_cast h3 ?_, h5⟩
  rw [total_const, hK.test, show T + (W + 2 * A) + 1 = T + W + 2 * A + 1 by omega]

theorem emit_counts (hK : Uniform K S A R W T) (s : State Var Arr) {l : List (BitVec 8)}
    (hl : l.length = (s.var .n).toNat) (hc : ∀ u, (s.arr .count u).toNat = l.count u) :
    ∃ s', Exec (arrays Var Arr) K emit s (2 * S + rounds l * (2 * T + R + A + 2) +
      l.length * (T + W + 2 * A + 1) + (T + 1)) s' := by
  have hN := (s.var .n).isLt
  let f : BitVec 8 → Nat := fun u => l.count u
  obtain ⟨hR, hend, hlt⟩ : rounds l ≤ 256 ∧ (emitted f (rounds l)).length = l.length ∧
      ∀ V, V < rounds l → (emitted f V).length < l.length := emitted_rounds l
  obtain ⟨s₁, h1, h2⟩ : ∃ s₁, Exec (arrays Var Arr) K (block [.base (.set .i 0), .base (.set .v 0)]) s (2 * S) s₁ ∧
      (s₁.var .v = BitVec.ofNat 8 0 ∧ s₁.var .i = BitVec.ofNat 8 (emitted f 0).length ∧ s₁.var .n = s.var .n ∧
        s₁.arr .count = s.arr .count) :=
    ⟨_, exec_cast (.seq .act (.seq .act .skip)) (by rw [hK.set, hK.set]; omega), rfl, rfl, rfl, rfl⟩
  obtain ⟨s₂, h3, -⟩ := exec_loop (D := arrays Var Arr) (K := K)
    (g := .ne .i .n) (c := .seq (block [.read .c .count .v])
      (.seq (.loop (.neK .c 0) (block [.write .data .i .v, .base (.add .i 1), .base (.add .c 255)]))
        (block [.base (.add .v 1)])))
    (fun V t => t.var .v = BitVec.ofNat 8 V ∧ t.var .i = BitVec.ofNat 8 (emitted f V).length ∧ t.var .n = s.var .n ∧
      t.arr .count = s.arr .count)
    (fun V => (R + A + T + 1) + f (BitVec.ofNat 8 V) * (T + W + 2 * A + 1)) (rounds l) (by
      rintro V t hV ⟨hv, hi, hn, ha⟩
      have eV : (BitVec.ofNat 8 V).toNat = V := by rw [BitVec.toNat_ofNat]; omega
      obtain ⟨t₁, d₁, c₁, i₁, v₁, n₁, a₁⟩ : ∃ t₁, Exec (arrays Var Arr) K (block [.read .c .count .v]) t R t₁ ∧
          t₁.var .c = t.arr .count (t.var .v) ∧ t₁.var .i = t.var .i ∧ t₁.var .v = t.var .v ∧ t₁.var .n = t.var .n ∧
          t₁.arr = t.arr :=
        ⟨_, exec_cast (.seq .act .skip) (hK.read _ _ _), rfl, rfl, rfl, rfl, rfl⟩
      have ec : (t₁.var .c).toNat = f (BitVec.ofNat 8 V) := by rw [c₁, ha, hc, hv]
      obtain ⟨t₂, d₂, i₂, v₂, n₂, q₂⟩ := fill_counts hK t₁ _ (i₁.trans hi)
      rw [ec] at d₂ i₂
      refine ⟨fun h0 => ?_, _, exec_cast (.seq d₁ (.seq d₂ (.seq .act .skip))) ?_, ?_, ?_, ?_, ?_⟩
      · change t.var .i = t.var .n at h0
        rw [hi, hn] at h0
        have := congrArg BitVec.toNat h0
        rw [BitVec.toNat_ofNat] at this
        have := hlt V hV
        omega
      · rw [hK.add]
        omega
      · show BitVec.ofNat 8 ((t₂.var .v).toNat + 1) = _
        rw [v₂, v₁, hv, eV]
      · show t₂.var .i = _
        rw [i₂, emitted, List.length_append, List.length_replicate]
      · show t₂.var .n = _
        rw [n₂, n₁, hn]
      · show t₂.arr .count = _
        rw [q₂, a₁, ha]) (by
      rintro t ⟨hv, hi, hn, ha⟩ hg
      refine hg ?_
      show t.var .i = t.var .n
      rw [hi, hn, hend, hl, BitVec.ofNat_toNat, BitVec.setWidth_eq]) h2
  refine ⟨s₂, exec_cast (.seq h1 h3) ?_⟩
  rw [hK.test, total_congr (w' := fun V => (2 * T + R + A + 2) + (T + W + 2 * A + 1) * f (BitVec.ofNat 8 V))
    fun V _ => by rw [Nat.mul_comm (f _)]; omega, total_add, total_const, total_mul, ← length_emitted, hend,
    Nat.mul_comm (T + W + 2 * A + 1)]
  omega

/-- How many instructions the sort takes. -/
theorem sort_counts (hK : Uniform K S A R W T) (s : State Var Arr) {l : List (BitVec 8)}
    (hl : l = first (s.arr .data) (s.var .n).toNat) :
    ∃ s', Exec (arrays Var Arr) K sort s (2 * S + W + A + 255 * (T + W + A + 1) + (T + 1) +
      (S + l.length * (T + 2 * R + 2 * A + W + 1) + (T + 1) + (2 * S + rounds l * (2 * T + R + A + 2) +
        l.length * (T + W + 2 * A + 1) + (T + 1)))) s' := by
  obtain ⟨s₁, ⟨m₁, d₁⟩, a₁, n₁, z₁⟩ := clear_does (k := K) s
  obtain ⟨s₂, ⟨m₂, d₂⟩, a₂, n₂, c₂⟩ := tally_does (k := K) s₁ z₁
  obtain ⟨t₁, h1⟩ := clear_counts hK s
  obtain rfl := (exec_unique h1 d₁).2
  obtain ⟨t₂, h2⟩ := tally_counts hK t₁
  obtain rfl := (exec_unique h2 d₂).2
  rw [a₁, n₁, ← hl] at c₂
  obtain ⟨t₃, h3⟩ := emit_counts hK t₂ (by rw [hl, length_first, n₂, n₁]) c₂
  refine ⟨t₃, exec_cast (.seq h1 (.seq h2 h3)) ?_⟩
  rw [n₁, show (s.var .n).toNat = l.length by rw [hl, length_first]]

/-- The number of rounds does not depend on the order. -/
theorem rounds_perm {l l' : List (BitVec 8)} (h : l.Perm l') : rounds l = rounds l' := by
  induction h with
  | nil => rfl
  | cons v _ ih => rw [rounds, rounds, ih]
  | swap u v l => simp only [rounds]; omega
  | trans _ _ ih ih' => exact ih.trans ih'

end Verif.Sort
