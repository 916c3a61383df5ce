import Verif.Spec.CopyText

/-!
# The chart copies the text
-/

namespace Verif.CopyText

open Verif.Spec.Flow Verif.Spec.Structured Verif.Spec.CopyText

variable {K : Costs (Action Var Arr) (Guard Var)}

/-- One round through the blocks 2 and 1. -/
def round (K : Costs (Action Var Arr) (Guard Var)) : Nat := K.block copyText[2] + K.block copyText[1]

/-- From the block 2, `k` bytes having been copied. -/
theorem rounds (r k : Nat) (hk : r + k = 255) (s : State Var Arr) (dst₀ : BitVec 8 → BitVec 8)
    (hi : s.var .i = BitVec.ofNat 8 k) (hne : ∀ i : BitVec 8, i.toNat < k → s.arr .src i ≠ 0)
    (hd : ∀ j : BitVec 8, s.arr .dst j = if j.toNat < k then s.arr .src j else dst₀ j) :
    ∃ n s', Follows (arrays Var Arr) K copyText 2 s n 3 s' ∧ s'.arr .src = s.arr .src ∧
      Copied (s.arr .src) dst₀ (s'.arr .dst) ∧
      (∀ z, EndsAt (s.arr .src) z → n = (z.toNat - k) * round K + K.block copyText[2] ∧ k ≤ z.toNat) ∧
      ((∀ i, s.arr .src i ≠ 0) → n = (r + 1) * round K) := by
  have ek : (BitVec.ofNat 8 k).toNat = k := by rw [BitVec.toNat_ofNat]; omega
  obtain ⟨s₂, es₂⟩ : ∃ s₂, (arrays Var Arr).after copyText[2].acts s = s₂ := ⟨_, rfl⟩
  have v2 : s₂.var .v = s.arr .src (BitVec.ofNat 8 k) := by subst es₂; rw [← hi]; rfl
  have i2 : s₂.var .i = BitVec.ofNat 8 k := by subst es₂; rw [← hi]; rfl
  have src2 : s₂.arr .src = s.arr .src := by subst es₂; rfl
  have dst2 : ∀ j : BitVec 8, s₂.arr .dst j = if j.toNat < k + 1 then s.arr .src j else dst₀ j := by
    intro j
    have e : s₂.arr .dst j = if j = s.var .i then s.arr .src (s.var .i) else s.arr .dst j := by
      subst es₂
      show (if Arr.dst = Arr.dst ∧ j = s.var .i then s.arr .src (s.var .i) else s.arr .dst j) = _
      by_cases hj : j = s.var .i
      · rw [if_pos ⟨rfl, hj⟩, if_pos hj]
      · rw [if_neg (fun h => hj h.2), if_neg hj]
    rw [e, hi]
    by_cases hj : j = BitVec.ofNat 8 k
    · subst hj
      rw [if_pos rfl, if_pos (by omega)]
    · have : j.toNat ≠ k := fun h => hj (BitVec.eq_of_toNat_eq (h.trans ek.symm))
      rw [if_neg hj, hd]
      by_cases hlt : j.toNat < k
      · rw [if_pos hlt, if_pos (by omega)]
      · rw [if_neg hlt, if_neg (by omega)]
  by_cases hz : s.arr .src (BitVec.ofNat 8 k) = 0
  · refine ⟨K.block copyText[2] + 0, s₂, .block (b := copyText[2]) rfl (l' := 3)
      (by rw [es₂]; exact .yes (v2.trans hz)) (by rw [es₂]; exact .here), src2, ⟨fun j hj => ?_, fun i j hij h0 => ?_⟩, fun z hzz => ?_, fun h => absurd hz (h _)⟩
    · rw [dst2, if_pos]
      refine Nat.lt_of_not_le fun hle => hj (BitVec.ofNat 8 k) (by omega) hz
    · rw [dst2, if_neg]
      intro hlt
      exact hne i (by omega) h0
    · have h1 : ¬ z.toNat < k := fun h => hne z h hzz.1
      have h2 : ¬ k < z.toNat := fun h => hzz.2 (BitVec.ofNat 8 k) (by omega) hz
      have : z.toNat = k := by omega
      rw [this, Nat.sub_self, Nat.zero_mul]
      omega
  · obtain ⟨s₁, es₁⟩ : ∃ s₁, (arrays Var Arr).after copyText[1].acts s₂ = s₁ := ⟨_, rfl⟩
    have i1 : s₁.var .i = BitVec.ofNat 8 (k + 1) := by
      have : s₁.var .i = BitVec.ofNat 8 ((s₂.var .i).toNat + 1) := by subst es₁; rfl
      rw [this, i2, ek]
    have src1 : s₁.arr .src = s.arr .src := by subst es₁; exact src2
    have dst1 : ∀ j : BitVec 8, s₁.arr .dst j = if j.toNat < k + 1 then s.arr .src j else dst₀ j := by
      subst es₁; exact dst2
    have hne1 : ∀ i : BitVec 8, i.toNat < k + 1 → s.arr .src i ≠ 0 := by
      intro i hi' h
      by_cases hlt : i.toNat < k
      · exact hne i hlt h
      · have : i = BitVec.ofNat 8 k := BitVec.eq_of_toNat_eq (by omega)
        exact hz (this ▸ h)
    have first : ∀ {n l s'}, Goes (arrays Var Arr) copyText[1].exit s₁ l →
        Follows (arrays Var Arr) K copyText l s₁ n 3 s' →
        Follows (arrays Var Arr) K copyText 2 s (K.block copyText[2] + (K.block copyText[1] + n)) 3 s' := by
      intro n l s' hg hf
      refine .block (b := copyText[2]) rfl (by rw [es₂]; exact .no fun h => hz (v2.symm.trans h)) ?_
      rw [es₂]
      refine .block (b := copyText[1]) (l' := l) rfl ?_ ?_
      · rw [es₁]; exact hg
      · rw [es₁]; exact hf
    cases r with
    | zero =>
      have hk' : k = 255 := by omega
      subst hk'
      refine ⟨_, s₁, first (l := 3) (.yes (by exact i1)) .here, src1,
        ⟨fun j _ => by rw [dst1, if_pos (by omega)], fun i j _ h0 => absurd h0 (hne1 i (by omega))⟩,
        fun z hzz => absurd hzz.1 (hne1 z (by omega)), fun _ => ?_⟩
      unfold round
      omega
    | succ r =>
      obtain ⟨n, s', h1, h2, h3, h4, h5⟩ := rounds r (k + 1) (by omega) s₁ dst₀ i1 (by rw [src1]; exact hne1)
        (by rw [src1]; exact dst1)
      rw [src1] at h2 h3 h4 h5
      refine ⟨_, s', first (l := 2) (.no fun h => ?_) h1, h2, h3, fun z hzz => ?_, fun h => ?_⟩
      · have h : s₁.var .i = 0 := h
        rw [i1] at h
        have := congrArg BitVec.toNat h
        rw [BitVec.toNat_ofNat] at this
        have : (k + 1) % 256 = 0 := this
        omega
      · obtain ⟨e, hle⟩ := h4 z hzz
        refine ⟨?_, by omega⟩
        rw [e, show z.toNat - k = (z.toNat - (k + 1)) + 1 by omega, Nat.succ_mul]
        simp only [round]
        omega
      · rw [h5 h, Nat.succ_mul (r + 1)]
        simp only [round]
        omega

/-- The chart ends, having copied the text. -/
theorem copies (s : State Var Arr) : ∃ n s', Follows (arrays Var Arr) K copyText 0 s n 3 s' ∧
    s'.arr .src = s.arr .src ∧ Copied (s.arr .src) (s.arr .dst) (s'.arr .dst) ∧
    (∀ z, EndsAt (s.arr .src) z → n = K.block copyText[0] + (z.toNat * round K + K.block copyText[2])) ∧
    ((∀ i, s.arr .src i ≠ 0) → n = K.block copyText[0] + 256 * round K) := by
  obtain ⟨n, s', h1, h2, h3, h4, h5⟩ := rounds (K := K) 255 0 rfl ((arrays Var Arr).after copyText[0].acts s)
    (s.arr .dst) rfl (fun i h => absurd h (Nat.not_lt_zero _)) (fun j => by rw [if_neg (Nat.not_lt_zero _)]; rfl)
  refine ⟨_, s', .block (b := copyText[0]) rfl .goto h1, h2, h3, fun z hz => ?_, fun h => ?_⟩
  · rw [(h4 z hz).1]
    rfl
  · rw [h5 h]

end Verif.CopyText
