import Verif.Proofs.ChartTimed
import Verif.Props.Charts
import Verif.Props.Mos.ArraysTimed

/-!
# C147: how long flow charts take on the 6502
-/

namespace Verif.Props

open Verif Verif.Mos Verif.Spec.Mos Verif.Spec.Flow Verif.Flow
open Verif.Spec.Structured (Act Guard Store put)

section
variable {ι κ : Type} [DecidableEq ι] [DecidableEq κ] {B : Type} [Addressable B] {b : Build} {I : B → Mem → Prop}
  {mem : Mem} {loc : ι → Byte} {base : κ → Nat} {c : Mos6502 B} {p : Nat} {ch : Chart (Action ι κ) (Guard ι)}

/-- C147: if a chart gets to a block, or to its end, in the time `t` that its actions, tests and jumps take,
`run(t)` ends exactly at the beginning of the code of that block, with the chart's variables and arrays. -/
theorem C147_time (hI : Coherent b I) (hacc : AcceptsAt b I (Written base)) (hP : Placed base 256 65536)
    (hl : ∀ x y, loc x = loc y → x = y) (hm : I c.address_map mem) (hpc : c.pc = word p)
    (hcode : ProgramIn base mem p ((mosArrays loc base).assemble p ch))
    (hp : p + (mosArrays loc base).chartSize ch ≤ 65532) {t l : Nat} {s' : State ι κ}
    (h : ChartTakes (arrays ι κ) (mosArrays loc base) (mosArrayTimes ι base) p ch 0 (stateOf loc base mem) t l s') :
    ∃ ops d, Instructions b c ops d ∧ totalCycles ops = t ∧ run b c t = .ok (.ready d) ∧
      d.pc = word ((mosArrays loc base).entry p ch l) ∧ KeptButX (regs c) (regs d) ∧
      ∃ mem', I d.address_map mem' ∧ Holds loc base mem s' mem' := by
  obtain ⟨n, -, hn⟩ := chartTakes_counted (K := mosArrayCosts ι κ) h
  obtain ⟨d, ⟨ops, h1, rfl, -⟩, h2, h3, h4⟩ := chart_reaches (mosArrays_tworks hI hacc hP hl) hcode hp hn
    (arraysAt_self hm hpc)
  exact ⟨ops, d, h1, rfl, C12_run_eq h1 (Nat.le_refl _) (.inl rfl), h2, h3, h4⟩

/-- C147: a chart that ends has exactly one such time. -/
theorem C147_unique {n l : Nat} {s s' : State ι κ} (h : Follows (arrays ι κ) (mosArrayCosts ι κ) ch 0 s n l s')
    (he : ch.length ≤ l) (p : Nat) :
    ∃ t, ChartTakes (arrays ι κ) (mosArrays loc base) (mosArrayTimes ι base) p ch 0 s t l s' ∧
      ∀ t' l' s'', ChartTakes (arrays ι κ) (mosArrays loc base) (mosArrayTimes ι base) p ch 0 s t' l' s'' →
        ch.length ≤ l' → t' = t ∧ l' = l ∧ s'' = s' := by
  obtain ⟨t, ht⟩ := follows_takes (T := mosArrays loc base) (k := mosArrayTimes ι base) (p := p) h
  exact ⟨t, ht, fun _ _ _ h' he' => chartTakes_unique h' ht he' he⟩

/-- C147: as long as the executed instructions take less than that time, the emulator is inside the code. -/
theorem C147_not_before (hI : Coherent b I) (hacc : AcceptsAt b I (Written base)) (hP : Placed base 256 65536)
    (hl : ∀ x y, loc x = loc y → x = y) (hm : I c.address_map mem) (hpc : c.pc = word p)
    (hcode : ProgramIn base mem p ((mosArrays loc base).assemble p ch))
    (hp : p + (mosArrays loc base).chartSize ch ≤ 65532) {t l : Nat} {s' : State ι κ}
    (h : ChartTakes (arrays ι κ) (mosArrays loc base) (mosArrayTimes ι base) p ch 0 (stateOf loc base mem) t l s')
    {ops : List Operations} {d : Mos6502 B} (hi : Instructions b c ops d) (ht : totalCycles ops < t) :
    ∃ q, d.pc = word q ∧ p ≤ q ∧ q < p + (mosArrays loc base).chartSize ch := by
  obtain ⟨n, he, hn⟩ := chartTakes_counted (K := mosArrayCosts ι κ) h
  obtain ⟨d₁, ⟨ops', h1, h2, h3⟩, -⟩ := chart_reaches (mosArrays_tworks hI hacc hP hl) hcode hp hn
    (arraysAt_self hm hpc)
  obtain ⟨d₂, hw, -⟩ := chart_path (mosArrays_works hI hacc hP hl) hcode hp he (arraysAt_self hm hpc)
  by_cases hlen : ops.length < n
  · obtain ⟨u, hu⟩ := hw.take (m := ops.length + 1) (by omega)
    obtain ⟨v, q, hv, hr, hq⟩ := hu.last
    obtain ⟨ops₄, h6, h7⟩ := flow_instructions hv
    obtain ⟨-, rfl⟩ := instructions_same hi h6 h7.symm
    exact ⟨q, hr.pc, hq⟩
  · have := prefix_cycles h1 hi (by change ops'.length = n at h3; omega)
    change totalCycles ops' = t at h2
    omega

end

/-! ### Copying a text -/

section
open Verif.Spec.CopyText Verif.CopyText
open Verif.Spec.Sort (total indexPenalty branchPenalty)

variable {loc : Var → Byte} {base : Arr → Nat}

/-- The times of the text copy. -/
abbrev CopyTakes (loc : Var → Byte) (base : Arr → Nat) (p : Nat) :=
  ChartTakes (arrays Var Arr) (mosArrays loc base) (mosArrayTimes Var base) p copyText

/-- From the block 2, `k` bytes having been copied. -/
theorem copy_rounds_take (p r k : Nat) (hk : r + k = 255) (s : State Var Arr)
    (hi : s.var .i = BitVec.ofNat 8 k) (hne : ∀ i : BitVec 8, i.toNat < k → s.arr .src i ≠ 0) :
    ∃ t s', CopyTakes loc base p 2 s t 3 s' ∧
      (∀ z, EndsAt (s.arr .src) z → total (indexPenalty (base .src)) k + t =
        32 + 51 * (z.toNat - k) + total (indexPenalty (base .src)) (z.toNat + 1) + branchPenalty (p + 40)) ∧
      ((∀ i, s.arr .src i ≠ 0) → total (indexPenalty (base .src)) k + t =
        1 + 51 * (r + 1) + total (indexPenalty (base .src)) 256 + branchPenalty (p + 14)) := by
  have ek : (BitVec.ofNat 8 k).toNat = k := by rw [BitVec.toNat_ofNat]; omega
  obtain ⟨s₂, es₂⟩ : ∃ s₂, (arrays Var Arr).after copyText[2].acts s = s₂ := ⟨_, rfl⟩
  have v2 : s₂.var .v = s.arr .src (BitVec.ofNat 8 k) := by subst es₂; rw [← hi]; rfl
  have i2 : s₂.var .i = BitVec.ofNat 8 k := by subst es₂; rw [← hi]; rfl
  have src2 : s₂.arr .src = s.arr .src := by subst es₂; rfl
  have t2 : (mosArrayTimes Var base).acts (arrays Var Arr) copyText[2].acts s = 21 + indexPenalty (base .src) k := by
    show 3 + (4 + indexPenalty (base .src) (s.var .i).toNat) + 3 + (3 + 3 + 5 + 0) = _
    rw [hi, ek]
    omega
  by_cases hz : s.arr .src (BitVec.ofNat 8 k) = 0
  · refine ⟨_, s₂, .block (b := copyText[2]) (l' := 3) rfl (by rw [es₂]; exact .yes (v2.trans hz))
      (by rw [es₂]; exact .here), fun z hzz => ?_, fun h => absurd hz (h _)⟩
    have h1 : ¬ z.toNat < k := fun h => hne z h hzz.1
    have h2 : ¬ k < z.toNat := fun h => hzz.2 (BitVec.ofNat 8 k) (by omega) hz
    have : z.toNat = k := by omega
    rw [this, Nat.sub_self, t2]
    show _ + (_ + (3 + 2 + 2 + 1 + branchPenalty (p + 26 + 14) + 3) + 0) = _ + (total _ k + indexPenalty _ k) + _
    rw [show p + 26 + 14 = p + 40 by omega]
    omega
  · obtain ⟨s₁, es₁⟩ : ∃ s₁, (arrays Var Arr).after copyText[1].acts s₂ = s₁ := ⟨_, rfl⟩
    have i1 : s₁.var .i = BitVec.ofNat 8 (k + 1) := by
      have : s₁.var .i = BitVec.ofNat 8 ((s₂.var .i).toNat + 1) := by subst es₁; rfl
      rw [this, i2, ek]
    have src1 : s₁.arr .src = s.arr .src := by subst es₁; exact src2
    have hne1 : ∀ i : BitVec 8, i.toNat < k + 1 → s.arr .src i ≠ 0 := by
      intro i hi' h
      by_cases hlt : i.toNat < k
      · exact hne i hlt h
      · have : i = BitVec.ofNat 8 k := BitVec.eq_of_toNat_eq (by omega)
        exact hz (this ▸ h)
    have first : ∀ {n e l s'}, ExitTakes (arrays Var Arr) (mosArrayTimes Var base)
          ((mosArrays loc base).entry p copyText 1 +
            (mosArrays loc base).bytes (copyText[1].acts.flatMap (mosArrays loc base).act)) copyText[1].exit s₁ e l →
        CopyTakes loc base p l s₁ n 3 s' →
        CopyTakes loc base p 2 s (21 + indexPenalty (base .src) k + 10 + (10 + e + n)) 3 s' := by
      intro n e l s' hg hf
      have := ChartTakes.block (D := arrays Var Arr) (T := mosArrays loc base) (k := mosArrayTimes Var base) (p := p)
        (ch := copyText) (l := 2) (s := s) (b := copyText[2]) (l' := 1) rfl
        (by rw [es₂]; exact .no fun h => hz (v2.symm.trans h))
        (by
          rw [es₂]
          exact ChartTakes.block (D := arrays Var Arr) (T := mosArrays loc base) (k := mosArrayTimes Var base) (p := p)
            (ch := copyText) (l := 1) (b := copyText[1]) rfl (by rw [es₁]; exact hg) (by rw [es₁]; exact hf))
      rw [t2] at this
      exact this
    cases r with
    | zero =>
      have hk' : k = 255 := by omega
      subst hk'
      refine ⟨_, s₁, first (l := 3) (.yes (by exact i1)) .here, fun z hzz => absurd hzz.1 (hne1 z (by omega)), fun _ => ?_⟩
      show _ + (_ + (10 + (3 + 2 + 2 + 1 + branchPenalty (p + 7 + 7) + 3) + 0)) = _ + (total _ 255 + indexPenalty _ 255) + _
      rw [show p + 7 + 7 = p + 14 by omega]
      omega
    | succ r =>
      obtain ⟨n, s', h1, h4, h5⟩ := copy_rounds_take p r (k + 1) (by omega) s₁ i1 (by rw [src1]; exact hne1)
      rw [src1] at h4 h5
      refine ⟨_, s', first (l := 2) (.no fun h => ?_) h1, fun z hzz => ?_, fun h => ?_⟩
      · have h : s₁.var .i = 0 := h
        rw [i1] at h
        have := congrArg BitVec.toNat h
        rw [BitVec.toNat_ofNat] at this
        have : (k + 1) % 256 = 0 := this
        omega
      · have e := h4 z hzz
        have hle : k < z.toNat := Nat.lt_of_not_le fun h => hne1 z (by omega) hzz.1
        change total _ k + indexPenalty _ k + n = _ at e
        show _ + (_ + (10 + (3 + 2 + 2 + 3) + n)) = _
        omega
      · have e := h5 h
        change total _ k + indexPenalty _ k + n = _ at e
        show _ + (_ + (10 + (3 + 2 + 2 + 3) + n)) = _
        omega

theorem copy_takes (p : Nat) (s : State Var Arr) : ∃ t s', CopyTakes loc base p 0 s t 3 s' ∧
    (∀ z, EndsAt (s.arr .src) z → t = copyCycles p (base .src) z.toNat) ∧
    ((∀ i, s.arr .src i ≠ 0) → t = copyAllCycles p (base .src)) := by
  obtain ⟨t, s', h1, h2, h3⟩ := copy_rounds_take (loc := loc) (base := base) p 255 0 rfl
    ((arrays Var Arr).after copyText[0].acts s) rfl (fun i h => absurd h (Nat.not_lt_zero _))
  refine ⟨5 + 0 + 3 + t, s', .block (b := copyText[0]) rfl .goto h1, fun z hz => ?_, fun h => ?_⟩
  · have := h2 z hz
    change 0 + t = _ at this
    unfold copyCycles
    omega
  · have := h3 h
    change 0 + t = _ at this
    unfold copyAllCycles
    omega

variable {B : Type} [Addressable B] {b : Build} {I : B → Mem → Prop} {mem : Mem} {c : Mos6502 B} {p : Nat}

/-- C147, the text copy: `run` with exactly the cycles of the formula ends exactly behind the code, with the
text copied. With fewer cycles the emulator is still inside the code. -/
theorem C147_text (hI : Coherent b I) (hacc : AcceptsAt b I (Written base)) (hP : Placed base 256 65536)
    (hl : ∀ x y, loc x = loc y → x = y) (hm : I c.address_map mem) (hpc : c.pc = word p)
    (hcode : ProgramIn base mem p ((mosArrays loc base).assemble p copyText))
    (hp : p + (mosArrays loc base).chartSize copyText ≤ 65532) :
    ∃ t d m, run b c t = .ok (.ready d) ∧ d.pc = word (p + (mosArrays loc base).chartSize copyText) ∧
      I d.address_map m ∧
      Copied (fun j => mem (word (base .src + j.toNat))) (fun j => mem (word (base .dst + j.toNat)))
        (fun j => m (word (base .dst + j.toNat))) ∧
      (∀ z, EndsAt (fun j => mem (word (base .src + j.toNat))) z → t = copyCycles p (base .src) z.toNat) ∧
      ((∀ j : Byte, mem (word (base .src + j.toNat)) ≠ 0) → t = copyAllCycles p (base .src)) ∧
      ∀ {ops : List Operations} {d' : Mos6502 B}, Instructions b c ops d' → totalCycles ops < t →
        ∃ q, d'.pc = word q ∧ p ≤ q ∧ q < p + (mosArrays loc base).chartSize copyText := by
  obtain ⟨t, s', h, hz, hall⟩ := copy_takes (loc := loc) (base := base) p (stateOf loc base mem)
  obtain ⟨n, hf, -⟩ := chartTakes_counted (K := mosArrayCosts Var Arr) h
  obtain ⟨n', s, hd, -, hs, -⟩ := copies (K := mosArrayCosts Var Arr) (stateOf loc base mem)
  obtain ⟨-, -, rfl⟩ := follows_unique hf hd (by decide) (by decide)
  obtain ⟨ops, d, -, -, f1, f2, -, m, f3, f4⟩ := C147_time hI hacc hP hl hm hpc hcode hp h
  rw [entry_out (by decide)] at f2
  refine ⟨t, d, m, f1, f2, f3, ?_, hz, hall, fun hi ht => C147_not_before hI hacc hP hl hm hpc hcode hp h hi ht⟩
  rw [show (fun j : Byte => m (word (base .dst + j.toNat))) = s'.arr .dst from funext (f4.arr .dst)]
  exact hs

theorem total_zero {w : Nat → Nat} {n : Nat} (h : ∀ j, j < n → w j = 0) : total w n = 0 := by
  induction n with
  | zero => rfl
  | succ n ih =>
    show total w n + w n = 0
    rw [ih fun j hj => h j (by omega), h n (by omega)]

/-- C147: for a text that does not get into the next page, and no branch at the end of a page, it is 51
cycles for each byte before the zero, and 40. -/
theorem C147_aligned {src z : Nat} (hs : src % 256 + z < 256) (hp : (p + 49) / 256 = (p + 44) / 256) :
    copyCycles p src z = 51 * z + 40 := by
  unfold copyCycles
  rw [show total (indexPenalty src) (z + 1) = 0 from total_zero fun j hj => if_pos (by omega), show branchPenalty (p + 40) = 0 from if_pos hp]
  omega

end

/-! ### Concrete cases -/

section
open Verif.Spec.CopyText Verif.CopyText

/-- Copying three characters and the zero takes 3 · 51 + 40 = 193 cycles. -/
example : ∃ d, run .release copyMos 193 = .ok (.ready d) ∧ d.address_map.mem 0x302 = 33 ∧
    d.address_map.mem 0x303 = 0 ∧ d.address_map.mem 0x304 = 7 := by
  obtain ⟨t, d, m, h1, -, rfl, h2, h3, -⟩ := C147_text (b := .release) (c := copyMos) (flatRam_coherent _)
    (flatRam_acceptsAt _ _) copyMosBase_placed copyLoc_inj rfl rfl copyMos_code (by decide +kernel)
  have e : t = 193 := (h3 3 ⟨by decide +kernel, by decide +kernel⟩).trans (C147_aligned (by decide) (by decide))
  subst e
  exact ⟨d, h1, (h2.text 2 (by decide +kernel)).trans (by decide +kernel),
    (h2.text 3 (by decide +kernel)).trans (by decide +kernel),
    (h2.rest 3 4 (by decide) (by decide +kernel)).trans (by decide +kernel)⟩

/-- With the source at 0x2fe, two of the four bytes are in the next page. -/
example : copyCycles 0x400 0x2fe 3 = 195 := by decide

/-- Without a zero all 256 bytes are copied. -/
example : copyAllCycles 0x400 0x200 = 13065 := by decide +kernel

end

end Verif.Props
