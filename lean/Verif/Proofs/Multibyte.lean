/-!
# Arithmetic of base-256 numbers
-/

namespace Verif.Multibyte

/-- The number with the digits `A 0, …, A (n - 1)`, low digit first. -/
def val (A : Nat → Nat) : Nat → Nat
  | 0 => 0
  | n + 1 => val A n + 256 ^ n * A n

theorem val_lt {A : Nat → Nat} (hA : ∀ j, A j < 256) (n : Nat) : val A n < 256 ^ n := by
  induction n with
  | zero => simp [val]
  | succ n ih =>
    have : 256 ^ n * A n ≤ 256 ^ n * 255 := Nat.mul_le_mul_left _ (by have := hA n; omega)
    rw [val, Nat.pow_succ]; omega

/-- Digits are unique. -/
theorem val_inj {A C : Nat → Nat} (hA : ∀ j, A j < 256) (hC : ∀ j, C j < 256) (n : Nat) :
    val A n = val C n ↔ ∀ j, j < n → A j = C j := by
  induction n with
  | zero => exact ⟨fun _ j hj => absurd hj (by omega), fun _ => rfl⟩
  | succ n ih =>
    have h1 := val_lt hA n
    have h2 := val_lt hC n
    have hp : 0 < 256 ^ n := Nat.pow_pos (by omega)
    simp only [val]
    constructor
    · intro h
      have hm : val A n = val C n := by
        have := congrArg (· % 256 ^ n) h
        simpa [Nat.add_mul_mod_self_left, Nat.mod_eq_of_lt h1, Nat.mod_eq_of_lt h2] using this
      have hd : A n = C n := by
        rw [hm] at h
        exact Nat.eq_of_mul_eq_mul_left hp (Nat.add_left_cancel h)
      intro j hj
      rcases Nat.lt_succ_iff_lt_or_eq.1 hj with h' | rfl
      · exact ih.1 hm j h'
      · exact hd
    · intro h
      rw [ih.2 (fun j hj => h j (by omega)), h n (by omega)]

/-! ## Addition -/

/-- The carry into digit `j`. -/
def carry (A C : Nat → Nat) (j : Nat) : Nat := (val A j + val C j) / 256 ^ j

theorem carry_le {A C : Nat → Nat} (hA : ∀ j, A j < 256) (hC : ∀ j, C j < 256) (j : Nat) :
    carry A C j ≤ 1 := by
  have h1 := val_lt hA j
  have h2 := val_lt hC j
  unfold carry
  rw [← Nat.lt_succ_iff, Nat.div_lt_iff_lt_mul (Nat.pow_pos (by omega))]
  omega

/-- The digits of the sum. -/
theorem sum_digits (A C : Nat → Nat) (n : Nat) :
    val (fun j => (A j + C j + carry A C j) % 256) n = (val A n + val C n) % 256 ^ n ∧
    carry A C (n + 1) = (A n + C n + carry A C n) / 256 := by
  have key : ∀ n, carry A C (n + 1) = (A n + C n + carry A C n) / 256 := by
    intro n
    have hp : 0 < 256 ^ n := Nat.pow_pos (by omega)
    unfold carry
    simp only [val]
    rw [Nat.pow_succ, ← Nat.div_div_eq_div_mul]
    congr 1
    rw [show val A n + 256 ^ n * A n + (val C n + 256 ^ n * C n) =
      val A n + val C n + 256 ^ n * (A n + C n) by rw [Nat.mul_add]; omega,
      Nat.add_mul_div_left _ _ hp]
    omega
  refine ⟨?_, key n⟩
  induction n with
  | zero => simp [val]
  | succ n ih =>
    have hp : 0 < 256 ^ n := Nat.pow_pos (by omega)
    have h1 := Nat.div_add_mod (val A n + val C n) (256 ^ n)
    change 256 ^ n * carry A C n + _ = _ at h1
    simp only [val]
    rw [ih, show val A n + 256 ^ n * A n + (val C n + 256 ^ n * C n) =
      (val A n + val C n) % 256 ^ n + 256 ^ n * (A n + C n + carry A C n) by
        simp only [Nat.mul_add]; omega]
    have hlt := Nat.mod_lt (val A n + val C n) hp
    generalize (val A n + val C n) % 256 ^ n = x at *
    generalize A n + C n + carry A C n = y
    rw [Nat.pow_succ, Nat.mod_mul]
    rw [Nat.add_mul_mod_self_left, Nat.mod_eq_of_lt hlt, Nat.add_mul_div_left _ _ hp,
      Nat.div_eq_of_lt hlt, Nat.zero_add]

/-- Adding digit by digit without carries is right iff no digit but the last produces a carry. -/
theorem no_carry_iff {A C : Nat → Nat} (hA : ∀ j, A j < 256) (hC : ∀ j, C j < 256) (n : Nat) :
    val (fun j => (A j + C j) % 256) n = (val A n + val C n) % 256 ^ n ↔
      ∀ j, j + 1 < n → A j + C j < 256 := by
  rw [← (sum_digits A C n).1, val_inj (fun j => Nat.mod_lt _ (by omega)) (fun j => Nat.mod_lt _ (by omega))]
  constructor
  · intro h j hj
    have h1 := h (j + 1) hj
    have h2 := (sum_digits A C j).2
    have h3 := carry_le hA hC (j + 1)
    have h4 := hA (j + 1)
    have h5 := hC (j + 1)
    omega
  · intro h
    have hc : ∀ j, j < n → carry A C j = 0 := by
      intro j
      induction j with
      | zero => intro _; simp [carry, val]
      | succ j ih =>
        intro hj
        rw [(sum_digits A C j).2, ih (by omega)]
        have := h j hj
        omega
    intro j hj
    rw [hc j hj, Nat.add_zero]

/-! ## Subtraction -/

/-- The borrow out of the digits below `j`. -/
def borrow (A C : Nat → Nat) (j : Nat) : Nat := if val A j < val C j then 1 else 0

theorem borrow_succ {A C : Nat → Nat} (hA : ∀ j, A j < 256) (hC : ∀ j, C j < 256) (n : Nat) :
    borrow A C (n + 1) = if A n < C n + borrow A C n then 1 else 0 := by
  have h1 := val_lt hA n
  have h2 := val_lt hC n
  have key : val A (n + 1) < val C (n + 1) ↔ A n < C n + borrow A C n := by
    unfold borrow
    rw [val, val]
    by_cases h : A n < C n
    · have : 256 ^ n * (A n + 1) ≤ 256 ^ n * C n := Nat.mul_le_mul_left _ h
      rw [Nat.mul_add, Nat.mul_one] at this
      split <;> omega
    · by_cases h' : A n = C n
      · rw [h']
        split <;> omega
      · have : 256 ^ n * (C n + 1) ≤ 256 ^ n * A n := Nat.mul_le_mul_left _ (by omega)
        rw [Nat.mul_add, Nat.mul_one] at this
        split <;> omega
  conv => lhs; unfold borrow
  by_cases h : A n < C n + borrow A C n
  · rw [if_pos h, if_pos (key.2 h)]
  · rw [if_neg h, if_neg (fun h' => h (key.1 h'))]

/-- The digits of the difference. -/
theorem diff_digits {A C : Nat → Nat} (hA : ∀ j, A j < 256) (hC : ∀ j, C j < 256) (n : Nat) :
    val (fun j => (A j + 256 - C j - borrow A C j) % 256) n = (val A n + 256 ^ n - val C n) % 256 ^ n := by
  have key : ∀ n, val (fun j => (A j + 256 - C j - borrow A C j) % 256) n + val C n =
      val A n + 256 ^ n * borrow A C n := by
    intro n
    induction n with
    | zero => simp [val, borrow]
    | succ n ih =>
      have hb := borrow_succ hA hC n
      have hb1 : borrow A C n ≤ 1 := by unfold borrow; split <;> omega
      have h4 := hA n
      have h5 := hC n
      have hd : (A n + 256 - C n - borrow A C n) % 256 + C n + borrow A C n =
          A n + 256 * borrow A C (n + 1) := by
        rw [hb]; split <;> omega
      have hd' := congrArg (256 ^ n * ·) hd
      simp only [Nat.mul_add] at hd'
      simp only [val]
      rw [Nat.pow_succ, Nat.mul_assoc]
      omega
  have hk := key n
  have h1 := val_lt hA n
  have h2 := val_lt hC n
  have h3 := val_lt (A := fun j => (A j + 256 - C j - borrow A C j) % 256) (fun j => Nat.mod_lt _ (by omega)) n
  unfold borrow at hk
  split at hk
  · rw [Nat.mod_eq_of_lt (by omega)]; unfold borrow; omega
  · rw [show val A n + 256 ^ n - val C n = val A n - val C n + 256 ^ n by omega,
      Nat.add_mod_right, Nat.mod_eq_of_lt (by omega)]; unfold borrow; omega

/-- Subtracting digit by digit with a carry (1: no borrow) that gets lost where the subtrahend digit is
0 and no borrow comes in: right iff this happens at no digit but the last. -/
theorem lost_carry_iff {A C K : Nat → Nat} (hA : ∀ j, A j < 256) (hC : ∀ j, C j < 256)
    (h0 : K 0 = 1)
    (hK : ∀ j, K (j + 1) = if C j = 0 ∧ K j = 1 then 0 else if C j + 1 ≤ A j + K j then 1 else 0)
    (n : Nat) :
    val (fun j => (A j + 255 - C j + K j) % 256) n = (val A n + 256 ^ n - val C n) % 256 ^ n ↔
      ∀ j, j + 1 < n → ¬(C j = 0 ∧ val C j ≤ val A j) := by
  have hK1 : ∀ j, K j ≤ 1 := by
    intro j
    cases j with
    | zero => omega
    | succ j => rw [hK]; split <;> (try split) <;> omega
  have hb1 : ∀ j, borrow A C j ≤ 1 := by intro j; unfold borrow; split <;> omega
  rw [← diff_digits hA hC n,
    val_inj (fun j => Nat.mod_lt _ (by omega)) (fun j => Nat.mod_lt _ (by omega))]
  have hdig : ∀ j, (A j + 255 - C j + K j) % 256 = (A j + 256 - C j - borrow A C j) % 256 ↔
      K j + borrow A C j = 1 := by
    intro j
    have := hA j
    have := hC j
    have := hK1 j
    have := hb1 j
    omega
  have hbv : ∀ j, val C j ≤ val A j ↔ borrow A C j = 0 := by
    intro j; unfold borrow; split <;> omega
  constructor
  · intro h j hj ⟨h1, h2⟩
    have q1 := (hdig j).1 (h j (by omega))
    have q2 := (hdig (j + 1)).1 (h (j + 1) hj)
    rw [(hbv j).1 h2] at q1
    rw [hK, if_pos ⟨h1, by omega⟩, borrow_succ hA hC, (hbv j).1 h2, h1] at q2
    simp at q2
  · intro h
    have : ∀ j, j < n → K j + borrow A C j = 1 := by
      intro j
      induction j with
      | zero => intro _; simp [h0, borrow, val]
      | succ j ih =>
        intro hj
        have q := ih (by omega)
        have hn := h j hj
        rw [hbv] at hn
        rw [hK, borrow_succ hA hC]
        by_cases hz : C j = 0 ∧ K j = 1
        · exact absurd ⟨hz.1, by omega⟩ hn
        · rw [if_neg hz]
          split <;> split <;> omega
    intro j hj
    exact (hdig j).2 (this j hj)

end Verif.Multibyte
