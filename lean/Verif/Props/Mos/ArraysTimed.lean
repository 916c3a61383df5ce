import Verif.Proofs.FlowTimed
import Verif.Proofs.SortCounted
import Verif.Props.ArraysAgree
import Verif.Props.Mos.Timed

/-!
# C143: how long programs with arrays take on the 6502
-/

namespace Verif.Mos

open Verif Verif.Spec.Mos Verif.Spec.Flow Verif.Flow
open Verif.Spec.Structured (Act Guard Store put)

section
variable {ι κ : Type} [DecidableEq ι] [DecidableEq κ] {B : Type} [Addressable B] {b : Build} {I : B → Mem → Prop}
  {r₀ : Regs} {mem₀ : Mem} {loc : ι → Byte} {base : κ → Nat}

/-- The parts of the code work and take their times. -/
theorem mosArrays_tworks (hI : Coherent b I) (hacc : AcceptsAt b I (Written base))
    (hP : Placed base 256 65536) (hl : ∀ x y, loc x = loc y → x = y) :
    TWorks (arrays ι κ) (mosArrays loc base) (counted (mosArrayTimes ι base) (mosArrayCosts ι κ))
      (fun n => Lasts (B := B) b n.time n.count) (ArraysAt I loc base r₀ mem₀) (ProgramIn base mem₀) 65532 where
  nil := Lasts.nil
  trans := Lasts.trans
  jumpSize l := rfl
  append := by
    rintro p u v h
    rw [show p + (mosArrays loc base).bytes u = p + u.length by show p + 1 * u.length = _; omega]
    exact h.split
  act := by
    rintro p a s c hc hp hs
    obtain ⟨t, -, h2, h3⟩ := array_act hI hacc hP hl hc hp hs
    exact ⟨t, h2, h3⟩
  testTrue := by
    rintro p g s c hc hp hs hg
    obtain ⟨t, -, h2, -⟩ := array_test hI hacc hc hp hs
    exact ⟨t, h2 hg⟩
  testFalse := by
    rintro p g s c hc hp hs hg
    obtain ⟨t, -, -, h3⟩ := array_test hI hacc hc hp hs
    exact ⟨t, h3 hg⟩
  jump := by
    rintro p l s c hc hp _ hs
    obtain ⟨t, -, h2, h3⟩ := array_jump hI hacc hc hp hs
    exact ⟨t, h2, h3⟩

end

end Verif.Mos

namespace Verif.Props

open Verif Verif.Mos Verif.Spec.Mos Verif.Spec.Flow Verif.Flow

section
variable {ι κ : Type} {B : Type} [Addressable B] {b : Build} {I : B → Mem → Prop} {mem : Mem} {p : Nat} {c : Mos6502 B}
  {loc : ι → Byte} {base : κ → Nat} [DecidableEq ι] [DecidableEq κ] {prog : Program ι κ}

/-- C143: if a program with arrays takes `t` cycles, then `run(t)` ends exactly behind its code with the
result in variables and arrays; the other memory, Y, the stack pointer and the other flags are unchanged. -/
theorem C143_time (hI : Coherent b I) (hacc : AcceptsAt b I (Written base)) (hP : Placed base 256 65536)
    (hl : ∀ x y, loc x = loc y → x = y) (hm : I c.address_map mem) (hpc : c.pc = word p)
    (hcode : ProgramIn base mem p ((mosArrays loc base).compile p prog))
    (hp : p + (mosArrays loc base).size prog ≤ 65532) {t : Nat} {s' : State ι κ}
    (h : Takes (arrays ι κ) (mosArrays loc base) (mosArrayTimes ι base) p prog (stateOf loc base mem) t s') :
    ∃ l d, Instructions b c l d ∧ totalCycles l = t ∧ run b c t = .ok (.ready d) ∧
      d.pc = word (p + (mosArrays loc base).size prog) ∧ KeptButX (regs c) (regs d) ∧
      ∃ mem', I d.address_map mem' ∧ Holds loc base mem s' mem' := by
  obtain ⟨n, -, hn⟩ := takes_counted (K := mosArrayCosts ι κ) h
  obtain ⟨d, ⟨l, h1, rfl, -⟩, h2, h3, h4⟩ := takes_reaches (mosArrays_tworks hI hacc hP hl) hn hcode hp
    (arraysAt_self hm hpc)
  exact ⟨l, d, h1, rfl, C12_run_eq h1 (Nat.le_refl _) (.inl rfl), h2, h3, h4⟩

/-- C143: a program with arrays that ends has exactly one running time at each address. -/
theorem C143_unique {n : Nat} {s s' : State ι κ} (h : Exec (arrays ι κ) (mosArrayCosts ι κ) prog s n s') (p : Nat) :
    ∃ t, Takes (arrays ι κ) (mosArrays loc base) (mosArrayTimes ι base) p prog s t s' ∧
      ∀ t' s'', Takes (arrays ι κ) (mosArrays loc base) (mosArrayTimes ι base) p prog s t' s'' → t' = t ∧ s'' = s' := by
  obtain ⟨t, ht⟩ := exec_takes (T := mosArrays loc base) (k := mosArrayTimes ι base) h p
  exact ⟨t, ht, fun _ _ h' => takes_unique h' ht⟩

/-- C143: as long as the executed instructions take less than that time, the emulator is inside the code. -/
theorem C143_not_before (hI : Coherent b I) (hacc : AcceptsAt b I (Written base)) (hP : Placed base 256 65536)
    (hl : ∀ x y, loc x = loc y → x = y) (hm : I c.address_map mem) (hpc : c.pc = word p)
    (hcode : ProgramIn base mem p ((mosArrays loc base).compile p prog))
    (hp : p + (mosArrays loc base).size prog ≤ 65532) {t : Nat} {s' : State ι κ}
    (h : Takes (arrays ι κ) (mosArrays loc base) (mosArrayTimes ι base) p prog (stateOf loc base mem) t s')
    {l : List Operations} {d : Mos6502 B} (hi : Instructions b c l d) (ht : totalCycles l < t) :
    ∃ q, d.pc = word q ∧ p ≤ q ∧ q < p + (mosArrays loc base).size prog := by
  obtain ⟨n, he, hn⟩ := takes_counted (K := mosArrayCosts ι κ) h
  obtain ⟨d₁, ⟨l', h1, h2, h3⟩, -⟩ := takes_reaches (mosArrays_tworks hI hacc hP hl) hn hcode hp
    (arraysAt_self hm hpc)
  obtain ⟨d₂, hw, -⟩ := compile_exec (mosArrays_works hI hacc hP hl) he hcode hp (arraysAt_self hm hpc)
  by_cases hlen : l.length < n
  · obtain ⟨u, hu⟩ := hw.take (m := l.length + 1) (by omega)
    obtain ⟨v, q, hv, hr, hq⟩ := hu.last
    obtain ⟨l₄, h6, h7⟩ := flow_instructions hv
    obtain ⟨-, rfl⟩ := instructions_same hi h6 h7.symm
    exact ⟨q, hr.pc, hq⟩
  · have := prefix_cycles h1 hi (by change l'.length = n at h3; omega)
    change totalCycles l' = t at h2
    omega

end

/-! ### The counting sort -/

section
open Verif.Spec.Sort Verif.Sort
open Verif.Spec.Structured (Guard Act)

/-- A loop that goes round `n` times. -/
theorem takes_loop {A G S W : Type} {D : Meaning A G S} {T : Target A G W} {k : Times A G S Nat} {g : G} {c : Flow A G}
    {p : Nat} (Inv : Nat → S → Prop) (w : Nat → Nat) (n : Nat)
    (step : ∀ m s, m < n → Inv m s → D.holds g s ∧
      ∃ s', Takes D T k (p + T.bytes (T.test g) + T.jumpSize) c s (w m) s' ∧ Inv (m + 1) s')
    (stop : ∀ s, Inv n s → ¬ D.holds g s) {s : S} (h : Inv 0 s) :
    ∃ s', Takes D T k p (.loop g c) s (total (fun m => k.testTrue p g + w m + k.jump) n + (k.testFalse p g + k.jump)) s' ∧
      Inv n s' := by
  have key : ∀ d m s, m + d = n → Inv m s → ∃ s', Takes D T k p (.loop g c) s
      (total (fun j => k.testTrue p g + w (m + j) + k.jump) d + (k.testFalse p g + k.jump)) s' ∧ Inv n s' := by
    intro d
    induction d with
    | zero =>
      intro m s e hm
      obtain rfl : m = n := by omega
      refine ⟨s, ?_, hm⟩
      rw [total, Nat.zero_add]
      exact .loopFalse (stop s hm)
    | succ d ih =>
      intro m s e hm
      obtain ⟨hg, s₁, h1, h2⟩ := step m s (by omega) hm
      obtain ⟨s₂, h3, h4⟩ := ih (m + 1) s₁ (by omega) h2
      refine ⟨s₂, ?_, h4⟩
      rw [total_front fun j => k.testTrue p g + w j + k.jump, Nat.add_assoc]
      exact .loopTrue hg h1 h3
  have := key n 0 s (by omega) h
  simpa only [Nat.zero_add] using this

theorem takes_cast {A G S W : Type} {D : Meaning A G S} {T : Target A G W} {k : Times A G S Nat} {c : Flow A G}
    {p n m : Nat} {s s' : S} (h : Takes D T k p c s n s') (e : n = m) : Takes D T k p c s m s' := e ▸ h

variable {loc : Var → Byte} {base : Arr → Nat}

/-- The times of the sort. -/
abbrev SortTakes (loc : Var → Byte) (base : Arr → Nat) :=
  Takes (arrays Var Arr) (mosArrays loc base) (mosArrayTimes Var base)

theorem clear_takes (p : Nat) (s : State Var Arr) :
    ∃ s', SortTakes loc base p clear s (8201 + 255 * branchPenalty (p + 22)) s' := by
  obtain ⟨s₁, h1, h2⟩ : ∃ s₁, SortTakes loc base p (block [.base (.set .z 0), .base (.set .v 0), .write .count .v .z,
      .base (.add .v 1)]) s 31 s₁ ∧ s₁.var .v = 1 := ⟨_, .seq .act (.seq .act (.seq .act (.seq .act .skip))), rfl⟩
  obtain ⟨s₂, h3, -⟩ := takes_loop (D := arrays Var Arr) (T := mosArrays loc base) (k := mosArrayTimes Var base)
    (g := .neK .v 0) (c := block [.write .count .v .z, .base (.add .v 1)]) (p := p + 22)
    (fun j t => t.var .v = BitVec.ofNat 8 (j + 1)) (fun _ => 21) 255 (by
      intro m t hm hv
      refine ⟨fun h0 => ?_, _, .seq .act (.seq .act .skip), ?_⟩
      · change t.var .v = 0 at h0
        rw [hv] at h0
        have := congrArg BitVec.toNat h0
        rw [BitVec.toNat_ofNat] at this
        change (m + 1) % 256 = 0 at this
        omega
      · show BitVec.ofNat 8 ((t.var .v).toNat + 1) = _
        rw [hv, BitVec.toNat_ofNat]
        apply BitVec.eq_of_toNat_eq
        rw [BitVec.toNat_ofNat, BitVec.toNat_ofNat]
        omega) (fun t ht hg => hg ht) h2
  refine ⟨s₂, takes_cast (.seq h1 h3) ?_⟩
  rw [total_const]
  show 31 + (255 * (7 + 1 + branchPenalty (p + 22) + 21 + 3) + (7 + 3)) = _
  omega

theorem tally_takes (p : Nat) (s : State Var Arr) :
    ∃ s', SortTakes loc base p tally s (16 + 63 * (s.var .n).toNat + (s.var .n).toNat * branchPenalty (p + 4) +
      (total (indexPenalty (base .data)) (s.var .n).toNat +
        ((first (s.arr .data) (s.var .n).toNat).map fun v => indexPenalty (base .count) v.toNat).sum)) s' := by
  have hN := (s.var .n).isLt
  obtain ⟨s₁, h1, h2⟩ : ∃ s₁, SortTakes loc base p (block [.base (.set .i 0)]) s 5 s₁ ∧
      (s₁.var .i = BitVec.ofNat 8 0 ∧ s₁.var .n = s.var .n ∧ s₁.arr .data = s.arr .data) :=
    ⟨_, .seq .act .skip, rfl, rfl, rfl⟩
  obtain ⟨s₂, h3, -⟩ := takes_loop (D := arrays Var Arr) (T := mosArrays loc base) (k := mosArrayTimes Var base)
    (g := .ne .i .n) (c := block [.read .v .data .i, .read .c .count .v, .base (.add .c 1), .write .count .v .c,
      .base (.add .i 1)]) (p := p + 4)
    (fun j t => t.var .i = BitVec.ofNat 8 j ∧ t.var .n = s.var .n ∧ t.arr .data = s.arr .data)
    (fun j => 51 + (indexPenalty (base .data) j + indexPenalty (base .count) (s.arr .data (BitVec.ofNat 8 j)).toNat))
    (s.var .n).toNat (by
      rintro m t hm ⟨hi, hn, hd⟩
      have em : (BitVec.ofNat 8 m).toNat = m := by rw [BitVec.toNat_ofNat]; omega
      refine ⟨fun h0 => ?_, _, takes_cast (.seq .act (.seq .act (.seq .act (.seq .act (.seq .act .skip))))) ?_, ?_, hn, ?_⟩
      · change t.var .i = t.var .n at h0
        rw [hi, hn] at h0
        have := congrArg BitVec.toNat h0
        omega
      · show 3 + (4 + indexPenalty (base .data) (t.var .i).toNat) + 3 +
          (3 + (4 + indexPenalty (base .count) (t.arr .data (t.var .i)).toNat) + 3 + (10 + (11 + (10 + 0)))) = _
        rw [hd, hi, em]
        omega
      · show BitVec.ofNat 8 ((t.var .i).toNat + 1) = _
        rw [hi, em]
      · rw [← hd]
        funext j
        rfl) (by
      rintro t ⟨hi, hn, -⟩ hg
      refine hg ?_
      show t.var .i = t.var .n
      rw [hi, hn, BitVec.ofNat_toNat, BitVec.setWidth_eq]) h2
  refine ⟨s₂, takes_cast (.seq h1 h3) ?_⟩
  have e : ∀ n, ((first (s.arr .data) n).map fun v => indexPenalty (base .count) v.toNat).sum =
      total (fun j => indexPenalty (base .count) (s.arr .data (BitVec.ofNat 8 j)).toNat) n := by
    intro n
    induction n with
    | zero => rfl
    | succ n ih => rw [first_succ, List.map_append, List.sum_append, ih, total]; simp
  rw [e]
  show 5 + (total (fun m => 8 + 1 + branchPenalty (p + 4) + (51 + (indexPenalty (base .data) m +
    indexPenalty (base .count) (s.arr .data (BitVec.ofNat 8 m)).toNat)) + 3) (s.var .n).toNat + (8 + 3)) = _
  rw [total_congr (w' := fun m => (63 + branchPenalty (p + 4)) + (indexPenalty (base .data) m +
    indexPenalty (base .count) (s.arr .data (BitVec.ofNat 8 m)).toNat)) fun m _ => by omega,
    total_add (fun _ => 63 + branchPenalty (p + 4)), total_add (indexPenalty (base .data)), total_const, Nat.mul_add]
  omega

theorem fill_takes (p : Nat) (s : State Var Arr) (L : Nat) (hi : s.var .i = BitVec.ofNat 8 L) :
    ∃ s', SortTakes loc base p
        (.loop (.neK .c 0) (block [.write .data .i .v, .base (.add .i 1), .base (.add .c 255)])) s
        (10 + (s.var .c).toNat * (42 + branchPenalty p)) s' ∧
      s'.var .i = BitVec.ofNat 8 (L + (s.var .c).toNat) ∧ s'.var .v = s.var .v ∧ s'.var .n = s.var .n ∧
      s'.arr .count = s.arr .count := by
  have hC := (s.var .c).isLt
  obtain ⟨s₂, h3, h4, h5⟩ := takes_loop (D := arrays Var Arr) (T := mosArrays loc base) (k := mosArrayTimes Var base)
    (g := .neK .c 0) (c := block [.write .data .i .v, .base (.add .i 1), .base (.add .c 255)]) (p := p) (s := s)
    (fun j t => t.var .c = BitVec.ofNat 8 ((s.var .c).toNat - j) ∧ t.var .i = BitVec.ofNat 8 (L + j) ∧
      t.var .v = s.var .v ∧ t.var .n = s.var .n ∧ t.arr .count = s.arr .count) (fun _ => 31) (s.var .c).toNat (by
      rintro m t hm ⟨hc, hi, hv, hn, ha⟩
      refine ⟨fun h0 => ?_, _, .seq .act (.seq .act (.seq .act .skip)), ?_, ?_, hv, hn, ?_⟩
      · change t.var .c = 0 at h0
        rw [hc] at h0
        have := congrArg BitVec.toNat h0
        rw [BitVec.toNat_ofNat] at this
        change ((s.var .c).toNat - m) % 256 = 0 at this
        omega
      · show BitVec.ofNat 8 ((t.var .c).toNat + 255) = _
        rw [hc, BitVec.toNat_ofNat]
        apply BitVec.eq_of_toNat_eq
        rw [BitVec.toNat_ofNat, BitVec.toNat_ofNat]
        omega
      · show BitVec.ofNat 8 ((t.var .i).toNat + 1) = _
        rw [hi, BitVec.toNat_ofNat]
        apply BitVec.eq_of_toNat_eq
        rw [BitVec.toNat_ofNat, BitVec.toNat_ofNat]
        omega
      · rw [← ha]
        funext j
        rfl) (by
      rintro t ⟨hc, -⟩ hg
      rw [Nat.sub_self] at hc
      exact hg hc) ⟨by rw [Nat.sub_zero, BitVec.ofNat_toNat, BitVec.setWidth_eq], hi, rfl, rfl, rfl⟩
  refine ⟨s₂, takes_cast h3 ?_, h5⟩
  rw [total_const]
  show (s.var .c).toNat * (7 + 1 + branchPenalty p + 31 + 3) + (7 + 3) = _
  rw [show 7 + 1 + branchPenalty p + 31 + 3 = 42 + branchPenalty p by omega]
  omega

theorem emit_takes (p : Nat) (s : State Var Arr) {l : List (BitVec 8)} (hl : l.length = (s.var .n).toNat)
    (hc : ∀ u, (s.arr .count u).toNat = l.count u) :
    ∃ s', SortTakes loc base p emit s (21 + 42 * rounds l + 42 * l.length + rounds l * branchPenalty (p + 8) +
      l.length * branchPenalty (p + 24) + total (indexPenalty (base .count)) (rounds l)) s' := by
  have hN := (s.var .n).isLt
  let f : BitVec 8 → Nat := fun u => l.count u
  obtain ⟨hR, hend, hlt⟩ : rounds l ≤ 256 ∧ (emitted f (rounds l)).length = l.length ∧
      ∀ V, V < rounds l → (emitted f V).length < l.length := emitted_rounds l
  obtain ⟨s₁, h1, h2⟩ : ∃ s₁, SortTakes loc base p (block [.base (.set .i 0), .base (.set .v 0)]) s 10 s₁ ∧
      (s₁.var .v = BitVec.ofNat 8 0 ∧ s₁.var .i = BitVec.ofNat 8 (emitted f 0).length ∧ s₁.var .n = s.var .n ∧
        s₁.arr .count = s.arr .count) :=
    ⟨_, .seq .act (.seq .act .skip), rfl, rfl, rfl, rfl⟩
  obtain ⟨s₂, h3, -⟩ := takes_loop (D := arrays Var Arr) (T := mosArrays loc base) (k := mosArrayTimes Var base)
    (g := .ne .i .n) (c := .seq (block [.read .c .count .v])
      (.seq (.loop (.neK .c 0) (block [.write .data .i .v, .base (.add .i 1), .base (.add .c 255)]))
        (block [.base (.add .v 1)]))) (p := p + 8)
    (fun V t => t.var .v = BitVec.ofNat 8 V ∧ t.var .i = BitVec.ofNat 8 (emitted f V).length ∧ t.var .n = s.var .n ∧
      t.arr .count = s.arr .count)
    (fun V => 30 + indexPenalty (base .count) V + f (BitVec.ofNat 8 V) * (42 + branchPenalty (p + 24)))
    (rounds l) (by
      rintro V t hV ⟨hv, hi, hn, ha⟩
      have eV : (BitVec.ofNat 8 V).toNat = V := by rw [BitVec.toNat_ofNat]; omega
      obtain ⟨t₁, d₁, c₁, i₁, v₁, n₁, a₁⟩ : ∃ t₁, SortTakes loc base (p + 17) (block [.read .c .count .v]) t
          (10 + indexPenalty (base .count) V) t₁ ∧
          t₁.var .c = t.arr .count (t.var .v) ∧ t₁.var .i = t.var .i ∧ t₁.var .v = t.var .v ∧ t₁.var .n = t.var .n ∧
          t₁.arr = t.arr := by
        refine ⟨_, takes_cast (.seq .act .skip) ?_, rfl, rfl, rfl, rfl, rfl⟩
        show 3 + (4 + indexPenalty (base .count) (t.var .v).toNat) + 3 + 0 = _
        rw [hv, eV]
        omega
      have ec : (t₁.var .c).toNat = f (BitVec.ofNat 8 V) := by rw [c₁, ha, hc, hv]
      obtain ⟨t₂, d₂, i₂, v₂, n₂, q₂⟩ := fill_takes (loc := loc) (base := base) (p + 24) t₁ _ (i₁.trans hi)
      rw [ec] at d₂ i₂
      refine ⟨fun h0 => ?_, _, takes_cast (.seq d₁ (.seq d₂ (.seq .act .skip))) ?_, ?_, ?_, ?_, ?_⟩
      · change t.var .i = t.var .n at h0
        rw [hi, hn] at h0
        have := congrArg BitVec.toNat h0
        rw [BitVec.toNat_ofNat] at this
        have := hlt V hV
        omega
      · show 10 + indexPenalty (base .count) V + (10 + f (BitVec.ofNat 8 V) * (42 + branchPenalty (p + 24)) + (10 + 0)) = _
        omega
      · show BitVec.ofNat 8 ((t₂.var .v).toNat + 1) = _
        rw [v₂, v₁, hv, eV]
      · show t₂.var .i = _
        rw [i₂, emitted, List.length_append, List.length_replicate]
      · show t₂.var .n = _
        rw [n₂, n₁, hn]
      · show t₂.arr .count = _
        rw [q₂, a₁, ha]) (by
      rintro t ⟨hv, hi, hn, ha⟩ hg
      refine hg ?_
      show t.var .i = t.var .n
      rw [hi, hn, hend, hl, BitVec.ofNat_toNat, BitVec.setWidth_eq]) h2
  refine ⟨s₂, takes_cast (.seq h1 h3) ?_⟩
  show 10 + (total (fun V => 8 + 1 + branchPenalty (p + 8) + (30 + indexPenalty (base .count) V +
    f (BitVec.ofNat 8 V) * (42 + branchPenalty (p + 24))) + 3) (rounds l) + (8 + 3)) = _
  rw [total_congr (w' := fun V => ((42 + branchPenalty (p + 8)) + indexPenalty (base .count) V) +
    (42 + branchPenalty (p + 24)) * f (BitVec.ofNat 8 V)) fun V _ => by rw [Nat.mul_comm (f _)]; omega,
    total_add, total_add, total_const, total_mul, ← length_emitted, hend, Nat.add_mul, Nat.mul_add]
  rw [Nat.mul_comm (branchPenalty (p + 24)), Nat.mul_comm (rounds l) 42]
  omega

/-- How long the sort takes. -/
theorem sort_takes (p : Nat) (s : State Var Arr) :
    ∃ s', SortTakes loc base p sort s
      (sortCycles p (base .data) (base .count) (first (s.arr .data) (s.var .n).toNat)) s' := by
  have same : ∀ {q : Nat} {c : Program Var Arr} {s s₁ s₂ : State Var Arr} {t : Nat}, SortTakes loc base q c s t s₁ →
      Does (arrays Var Arr) (mosArrayCosts Var Arr) c s s₂ → s₁ = s₂ := by
    rintro q c s s₁ s₂ t h ⟨m, h'⟩
    obtain ⟨n, h''⟩ := takes_exec (K := mosArrayCosts Var Arr) h
    exact (exec_unique h'' h').2
  obtain ⟨s₁, d₁, a₁, n₁, z₁⟩ := clear_does (k := mosArrayCosts Var Arr) s
  obtain ⟨s₂, d₂, a₂, n₂, c₂⟩ := tally_does (k := mosArrayCosts Var Arr) s₁ z₁
  obtain ⟨t₁, h1⟩ := clear_takes (loc := loc) (base := base) p s
  obtain rfl := same h1 d₁
  obtain ⟨t₂, h2⟩ := tally_takes (loc := loc) (base := base) (p + 48) t₁
  obtain rfl := same h2 d₂
  obtain ⟨t₃, h3⟩ := emit_takes (loc := loc) (base := base) (p + 48 + 51) t₂ (by rw [length_first, n₂]) c₂
  refine ⟨t₃, takes_cast (.seq h1 (.seq h2 h3)) ?_⟩
  unfold sortCycles
  rw [a₁, n₁, length_first, show p + 48 + 4 = p + 52 by omega, show p + 48 + 51 + 8 = p + 107 by omega,
    show p + 48 + 51 + 24 = p + 123 by omega]
  omega

variable {B : Type} [Addressable B] {b : Build} {I : B → Mem → Prop} {mem : Mem} {p : Nat} {c : Mos6502 B}

/-- C143, the counting sort: `run` with exactly the cycles of the formula ends exactly behind the code,
with the values sorted. With fewer cycles the emulator is still inside the code. -/
theorem C143_sort (hI : Coherent b I) (hacc : AcceptsAt b I (Written base)) (hP : Placed base 256 65536)
    (hl : ∀ x y, loc x = loc y → x = y) (hm : I c.address_map mem) (hpc : c.pc = word p)
    (hcode : ProgramIn base mem p ((mosArrays loc base).compile p sort))
    (hp : p + (mosArrays loc base).size sort ≤ 65532) {l : List Byte}
    (hv : l = first (fun j => mem (word (base .data + j.toNat))) (mem (zp (loc .n))).toNat) :
    (∃ d m, run b c (sortCycles p (base .data) (base .count) l) = .ok (.ready d) ∧
      d.pc = word (p + (mosArrays loc base).size sort) ∧ I d.address_map m ∧
      Sorted (mem (zp (loc .n))).toNat (fun j => mem (word (base .data + j.toNat)))
        (fun j => m (word (base .data + j.toNat))) ∧
      ∀ a : Word, (∀ x, a ≠ zp (loc x)) → ¬ InArray base a.toNat → m a = mem a) ∧
    ∀ {ls : List Operations} {d : Mos6502 B}, Instructions b c ls d →
      totalCycles ls < sortCycles p (base .data) (base .count) l →
      ∃ q, d.pc = word q ∧ p ≤ q ∧ q < p + (mosArrays loc base).size sort := by
  subst hv
  obtain ⟨s', h⟩ := sort_takes (loc := loc) (base := base) p (stateOf loc base mem)
  obtain ⟨s, ⟨n, hd⟩, -, hs⟩ := sort_does (k := mosArrayCosts Var Arr) (stateOf loc base mem)
  obtain ⟨m, h'⟩ := takes_exec (K := mosArrayCosts Var Arr) h
  obtain rfl := (exec_unique h' hd).2
  refine ⟨?_, fun hi ht => C143_not_before hI hacc hP hl hm hpc hcode hp h hi ht⟩
  obtain ⟨ls, d, -, -, f1, f2, -, m, f3, f4⟩ := C143_time hI hacc hP hl hm hpc hcode hp h
  refine ⟨d, m, f1, f2, f3, ?_, f4.other⟩
  rw [show (fun j : Byte => m (word (base .data + j.toNat))) = s'.arr .data from funext (f4.arr .data)]
  exact hs

/-- Arrays at the beginning of a page and no test at the end of one: 8238 cycles, 105 for each value and
42 for each round. -/
theorem C143_aligned {p data count : Nat} (hd : data % 256 = 0) (hc : count % 256 = 0)
    (hb : branchPenalty (p + 22) = 0 ∧ branchPenalty (p + 52) = 0 ∧ branchPenalty (p + 107) = 0 ∧
      branchPenalty (p + 123) = 0) {l : List Byte} (hl : l.length ≤ 256) :
    sortCycles p data count l = 8238 + 105 * l.length + 42 * rounds l := by
  have hz : ∀ b n, b % 256 = 0 → n ≤ 256 → total (indexPenalty b) n = 0 := by
    intro b n hb hn
    rw [total_congr (w' := fun _ => 0) fun k hk => by
      unfold indexPenalty
      exact if_pos (by omega), total_const, Nat.mul_zero]
  have hR : rounds l ≤ 256 := by
    by_cases h : rounds l = 0
    · omega
    · obtain ⟨v, -, hv⟩ := rounds_mem h
      have := v.isLt
      omega
  have hm : (l.map fun v => indexPenalty count v.toNat).sum = 0 := by
    clear hl hR
    induction l with
    | nil => rfl
    | cons v l ih =>
      have := v.isLt
      rw [List.map_cons, List.sum_cons, ih, show indexPenalty count v.toNat = 0 from if_pos (by omega)]
  obtain ⟨b1, b2, b3, b4⟩ := hb
  unfold sortCycles
  rw [b1, b2, b3, b4, hz _ _ hd hl, hz _ _ hc hR, hm]
  omega

theorem total_le {w : Nat → Nat} (hw : ∀ k, w k ≤ 1) (n : Nat) : total w n ≤ n := by
  induction n with
  | zero => exact Nat.le_refl _
  | succ n ih => have := hw n; rw [total]; omega

/-- Wherever it lies, the sort takes at least that long, and at most 255 cycles, 4 for each value and 2 for
each round longer. -/
theorem C143_bounds (p data count : Nat) (l : List Byte) :
    8238 + 105 * l.length + 42 * rounds l ≤ sortCycles p data count l ∧
      sortCycles p data count l ≤ 8493 + 109 * l.length + 44 * rounds l := by
  have hb : ∀ q, branchPenalty q ≤ 1 := fun q => by unfold branchPenalty; split <;> omega
  have hi : ∀ b j, indexPenalty b j ≤ 1 := fun b j => by unfold indexPenalty; split <;> omega
  have hm : ∀ l : List (BitVec 8), (l.map fun v => indexPenalty count v.toNat).sum ≤ l.length := by
    intro l
    induction l with
    | nil => exact Nat.le_refl _
    | cons v l ih => have := hi count v.toNat; rw [List.map_cons, List.sum_cons, List.length_cons]; omega
  have h1 := total_le (hi data) l.length
  have h2 := total_le (hi count) (rounds l)
  have h3 := Nat.mul_le_mul_left l.length (hb (p + 52))
  have h4 := Nat.mul_le_mul_left l.length (hb (p + 123))
  have h5 := Nat.mul_le_mul_left (rounds l) (hb (p + 107))
  have h6 := hb (p + 22)
  have h7 := hm l
  unfold sortCycles
  omega

/-! ### Concrete cases -/

/-- Sorting 9, 3, 200, 3, 0 takes 8238 + 5 · 105 + 201 · 42 = 17205 cycles. -/
example : ∃ d, run .debug sortMos 17205 = .ok (.ready d) ∧ d.pc = 0x4a6 ∧
    first (fun j => d.address_map.mem (word (0x200 + j.toNat))) 5 = [0, 3, 3, 9, 200] := by
  have h := (C143_sort (b := .debug) (c := sortMos) (p := 0x400) (flatRam_coherent _) (flatRam_acceptsAt _ _) mosBase_placed
    locOf_inj rfl rfl sortMos_code (by decide +kernel) (l := unsorted) (by decide +kernel)).1
  have e : sortCycles 0x400 (mosBase .data) (mosBase .count) unsorted = 17205 :=
    C143_aligned (by decide) (by decide) (by decide) (by decide)
  rw [e] at h
  obtain ⟨d, m, h1, h2, rfl, h3, -⟩ := h
  exact ⟨d, h1, h2, sorted_eq h3 (l' := unsorted) (by decide +kernel) (by decide +kernel) (by decide +kernel)⟩

/-- With one cycle less the emulator is not behind the code. -/
example (ls : List Operations) (d : Mos6502 FlatRam) (h : Instructions .release sortMos ls d)
    (ht : totalCycles ls ≤ 17204) : d.pc ≠ 0x4a6 := by
  have e : sortCycles 0x400 (mosBase .data) (mosBase .count) unsorted = 17205 :=
    C143_aligned (by decide) (by decide) (by decide) (by decide)
  obtain ⟨q, h1, h2, h3⟩ := (C143_sort (b := .release) (c := sortMos) (p := 0x400) (flatRam_coherent _)
    (flatRam_acceptsAt _ _) mosBase_placed locOf_inj rfl rfl sortMos_code (by decide +kernel) (l := unsorted)
    (by decide +kernel)).2 h (by rw [e]; omega)
  have h3 : q < 0x400 + 166 := h3
  rw [h1]
  intro e
  have e := congrArg BitVec.toNat e
  rw [toNat_word_lt _ (by omega)] at e
  change q = 0x4a6 at e
  omega

/-- With the arrays at 0x2fe and 0x3fe and the second test at the end of a page it takes 206 cycles for
elements in the next page and 5 for branches longer. -/
example : sortCycles 0x4c6 0x2fe 0x3fe unsorted = 17205 + (3 + 4 + 199) + 5 := by decide +kernel

/-- The sort of nothing: one round of clearing, two tests. -/
example : sortCycles 0x400 0x200 0x300 [] = 8238 := by decide

/-- Every program that ends has its time: `x := data[i]` one of 10 or 11 cycles. -/
example (s : State Var Arr) (t : Nat) (s' : State Var Arr)
    (h : Takes (arrays Var Arr) (mosArrays locOf fun _ => 0x2f0) (mosArrayTimes Var fun _ => 0x2f0) 0x400
      (.act (.read .c .data .i)) s t s') : t = if (s.var .i).toNat < 16 then 10 else 11 := by
  obtain ⟨t₀, h0, hu⟩ := C143_unique (loc := locOf) (base := fun _ => 0x2f0) (.act (a := .read .c .data .i) (s := s)) 0x400
  rw [(hu _ _ h).1, ← (hu _ _ .act).1]
  show 3 + (4 + if 0xf0 + (s.var .i).toNat < 256 then 0 else 1) + 3 = _
  split <;> split <;> omega

end

end Verif.Props
