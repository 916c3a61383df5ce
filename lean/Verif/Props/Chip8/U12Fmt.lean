import Verif.Model.Chip8.U12Fmt
import Verif.Spec.Numeral
import Verif.Props.Chip8.U12

/-!
# CHIP-8: 12-bit integers as text and as wider integers (C79)
-/

namespace Verif.Chip8

open Verif Verif.Spec

/-- A function that writes the digits of a base as `numeral` reads them. -/
def Writes (base : Nat) (digit : Nat → Char) : Prop := ∀ d < base, digitValue base (digit d) = some d

theorem writes_lower16 : Writes 16 lowerDigit := by unfold Writes; decide +kernel
theorem writes_upper16 : Writes 16 upperDigit := by unfold Writes; decide +kernel
theorem writes_lower8 : Writes 8 lowerDigit := by unfold Writes; decide +kernel
theorem writes_lower2 : Writes 2 lowerDigit := by unfold Writes; decide +kernel
theorem writes_lower10 : Writes 10 lowerDigit := by unfold Writes; decide +kernel

/-- Reading back what the loop wrote. -/
theorem digitLoop_reads {base : Nat} {digit : Nat → Char} (hb : 2 ≤ base) (hw : Writes base digit) :
    ∀ (room x : Nat) (buf : List Char), x < base ^ room → 0 < room →
      numeralFrom base 0 (digitLoop base digit room x buf) = numeralFrom base x buf := by
  intro room
  induction room with
  | zero => intro x buf _ h; omega
  | succ room ih =>
    intro x buf hx _
    unfold digitLoop
    simp only
    have hm : x % base < base := Nat.mod_lt _ (by omega)
    have hdm := Nat.div_add_mod x base
    split
    · rename_i h0
      rw [numeralFrom, hw _ hm]
      simp only
      rw [h0, Nat.mul_zero] at hdm
      congr 1; omega
    · rename_i h0
      have hlt : x / base < base ^ room := by
        rw [Nat.pow_succ, Nat.mul_comm] at hx
        exact Nat.div_lt_of_lt_mul hx
      have hr : 0 < room := by
        rcases Nat.eq_zero_or_pos room with rfl | h
        · rw [Nat.pow_zero] at hlt; exact absurd (Nat.lt_one_iff.1 hlt) h0
        · exact h
      rw [ih _ _ hlt hr, numeralFrom, hw _ hm]
      simp only
      congr 1
      rw [Nat.mul_comm]; exact hdm

/-- Zeros in front do not matter. -/
theorem numeralFrom_zeros {base : Nat} (hb : 2 ≤ base) (k : Nat) (s : List Char) :
    numeralFrom base 0 (List.replicate k '0' ++ s) = numeralFrom base 0 s := by
  have h0 : digitValue base '0' = some 0 := by
    unfold digitValue
    have : digitChars.idxOf? '0'.toLower = some 0 := by decide +kernel
    rw [this]
    simp only
    rw [if_pos (by omega)]
  induction k with
  | zero => rfl
  | succ k ih =>
    rw [List.replicate_succ, List.cons_append, numeralFrom, h0]
    simp only
    rw [Nat.zero_mul]; exact ih

/-- How many digits the loop writes. -/
theorem digitLoop_length {base : Nat} {digit : Nat → Char} :
    ∀ (room x n : Nat) (buf : List Char), x < base ^ (n + 1) →
      (digitLoop base digit room x buf).length ≤ n + 1 + buf.length := by
  intro room
  induction room with
  | zero => intro x n buf _; unfold digitLoop; omega
  | succ room ih =>
    intro x n buf hx
    unfold digitLoop
    simp only
    split
    · simp only [List.length_cons]; omega
    · rename_i h0
      have hlt : x / base < base ^ n := by
        rw [Nat.pow_succ, Nat.mul_comm] at hx
        exact Nat.div_lt_of_lt_mul hx
      cases n with
      | zero => rw [Nat.pow_zero] at hlt; exact absurd (Nat.lt_one_iff.1 hlt) h0
      | succ n =>
        have := ih (x / base) n (digit (x % base) :: buf) hlt
        simp only [List.length_cons] at this
        omega

/-- The loop writes something. -/
theorem digitLoop_ne_nil (base : Nat) (digit : Nat → Char) (room x : Nat) (buf : List Char) :
    digitLoop base digit (room + 1) x buf ≠ [] := by
  have key : ∀ (room x : Nat) (buf : List Char), buf ≠ [] → digitLoop base digit room x buf ≠ [] := by
    intro room
    induction room with
    | zero => intro x buf h; exact h
    | succ room ih =>
      intro x buf h
      unfold digitLoop
      simp only
      split
      · simp
      · exact ih _ _ (by simp)
  unfold digitLoop
  simp only
  split
  · simp
  · exact key _ _ _ (by simp)

/-- No zero in front, unless the number is 0. -/
theorem digitLoop_head {base : Nat} {digit : Nat → Char} (hb : 2 ≤ base) (hw : Writes base digit) :
    ∀ (room x : Nat) (buf : List Char), x < base ^ room → 0 < room → x ≠ 0 →
      (digitLoop base digit room x buf).head? ≠ some '0' := by
  intro room
  induction room with
  | zero => intro x buf _ h; omega
  | succ room ih =>
    intro x buf hx _ hne
    unfold digitLoop
    simp only
    have hm : x % base < base := Nat.mod_lt _ (by omega)
    have hdm := Nat.div_add_mod x base
    split
    · rename_i h0
      simp only [List.head?_cons, ne_eq, Option.some.injEq]
      intro h
      have h1 := hw _ hm
      rw [h] at h1
      have h2 : digitValue base '0' = some 0 := by
        unfold digitValue
        have : digitChars.idxOf? '0'.toLower = some 0 := by decide +kernel
        rw [this]
        simp only
        rw [if_pos (by omega)]
      rw [h2] at h1
      simp only [Option.some.injEq] at h1
      rw [h0, Nat.mul_zero] at hdm
      omega
    · rename_i h0
      have hlt : x / base < base ^ room := by
        rw [Nat.pow_succ, Nat.mul_comm] at hx
        exact Nat.div_lt_of_lt_mul hx
      have hr : 0 < room := by
        rcases Nat.eq_zero_or_pos room with rfl | h
        · rw [Nat.pow_zero] at hlt; exact absurd (Nat.lt_one_iff.1 hlt) h0
        · exact h
      exact ih _ _ hlt hr h0

namespace U12

/-- What C79 says of one way of writing: without flags, the text is a numeral of the number, of at
most `n` digits, without zeros in front (0 itself is one digit); with `0w`, zeros are put in front
up to the width; with `#`, the prefix is put in front of it all and counts for the width. -/
def Faithful (fmt : FmtFlags → U12 → List Char) (base n : Nat) (pre : List Char) : Prop :=
  ∀ x : U12, x.Fits →
    (numeral base (fmt ⟨false, 0⟩ x) = some x.num ∧
    (fmt ⟨false, 0⟩ x).length ≤ n ∧
    (x.num ≠ 0 → (fmt ⟨false, 0⟩ x).head? ≠ some '0')) ∧
    ∀ w, (numeral base (fmt ⟨false, w⟩ x) = some x.num ∧
      (fmt ⟨false, w⟩ x).length = max w (fmt ⟨false, 0⟩ x).length) ∧
      fmt ⟨true, w⟩ x = pre ++ fmt ⟨false, w - pre.length⟩ x

theorem faithful {base n : Nat} {digit : Nat → Char} {pre : List Char} (hb : 2 ≤ base)
    (hw : Writes base digit) (hn : 4096 ≤ base ^ (n + 1))
    (h128 : 4096 ≤ base ^ 128) :
    Faithful (fun f x => padIntegral f pre (digitLoop base digit 128 x.val.toNat [])) base (n + 1)
      pre := by
  intro x hx
  have hx' : x.val.toNat < 4096 := hx
  have hne := digitLoop_ne_nil base digit 127 x.val.toNat []
  have hpad : ∀ w, padIntegral ⟨false, w⟩ pre (digitLoop base digit 128 x.val.toNat []) =
      List.replicate (w - (digitLoop base digit 128 x.val.toNat []).length) '0' ++
        digitLoop base digit 128 x.val.toNat [] := by
    intro w
    simp [padIntegral]
  have hnum : ∀ w, numeral base (padIntegral ⟨false, w⟩ pre
      (digitLoop base digit 128 x.val.toNat [])) = some x.num := by
    intro w
    rw [hpad]
    unfold numeral
    rw [if_neg (by simp [hne]), numeralFrom_zeros hb,
      digitLoop_reads hb hw _ _ _ (by omega) (by omega)]
    rfl
  have h0 := hpad 0
  rw [Nat.zero_sub, List.replicate_zero, List.nil_append] at h0
  refine ⟨⟨hnum 0, ?_, ?_⟩, fun w => ⟨⟨hnum w, ?_⟩, ?_⟩⟩
  · show (padIntegral ⟨false, 0⟩ pre _).length ≤ _
    rw [h0]
    have := digitLoop_length (base := base) (digit := digit) 128 x.val.toNat n [] (by omega)
    simpa using this
  · intro hx0
    show (padIntegral ⟨false, 0⟩ pre _).head? ≠ _
    rw [h0]
    exact digitLoop_head hb hw _ _ _ (by omega) (by omega) hx0
  · show (padIntegral ⟨false, w⟩ pre _).length = max w (padIntegral ⟨false, 0⟩ pre _).length
    rw [h0, hpad, List.length_append, List.length_replicate]
    omega
  · show padIntegral ⟨true, w⟩ pre _ = pre ++ padIntegral ⟨false, w - pre.length⟩ pre _
    rw [hpad]
    simp only [padIntegral, if_true]
    rw [Nat.sub_sub]

/-- C79: the texts of a 12-bit value, in every base, mean its number; they have at most 3
hexadecimal, 4 octal, 12 binary, 4 decimal digits and no zeros in front, and padding to a width and
the prefix change nothing else. -/
theorem C79_text : Faithful lowerHex 16 3 ['0', 'x'] ∧ Faithful upperHex 16 3 ['0', 'x'] ∧
    Faithful octal 8 4 ['0', 'o'] ∧ Faithful binary 2 12 ['0', 'b'] ∧ Faithful display 10 4 [] ∧
    Faithful debug 10 4 [] :=
  ⟨faithful (by decide) writes_lower16 (by decide) (by decide),
    faithful (by decide) writes_upper16 (by decide) (by decide),
    faithful (by decide) writes_lower8 (by decide) (by decide),
    faithful (by decide) writes_lower2 (by decide) (by decide),
    faithful (by decide) writes_lower10 (by decide) (by decide),
    faithful (by decide) writes_lower10 (by decide) (by decide)⟩

/-- C79: the texts tell the values apart. -/
theorem C79_text_injective {x y : U12} (hx : x.Fits) (hy : y.Fits) (w v : Nat)
    (h : lowerHex ⟨false, w⟩ x = lowerHex ⟨false, v⟩ y ∨ upperHex ⟨false, w⟩ x = upperHex ⟨false, v⟩ y ∨
      octal ⟨false, w⟩ x = octal ⟨false, v⟩ y ∨ binary ⟨false, w⟩ x = binary ⟨false, v⟩ y ∨
      display ⟨false, w⟩ x = display ⟨false, v⟩ y) : x = y := by
  obtain ⟨h1, h2, h3, h4, h5, -⟩ := C79_text
  have key : ∀ {fmt base n pre}, Faithful fmt base n pre → fmt ⟨false, w⟩ x = fmt ⟨false, v⟩ y → x = y := by
    intro fmt base n pre hf he
    have a := ((hf x hx).2 w).1.1
    have b := ((hf y hy).2 v).1.1
    rw [he, b] at a
    exact (ext_num (Option.some.inj a)).symm
  rcases h with h | h | h | h | h
  · exact key h1 h
  · exact key h2 h
  · exact key h3 h
  · exact key h4 h
  · exact key h5 h

/-- C79: the lower-case hexadecimal form has no capital letters, and the upper-case form is that form
with its letters capitalised. -/
theorem C79_case (w : Nat) (x : U12) :
    (∀ c ∈ lowerHex ⟨false, w⟩ x, c.toLower = c) ∧
    upperHex ⟨false, w⟩ x = (lowerHex ⟨false, w⟩ x).map Char.toUpper := by
  have hlow : ∀ d, d < 16 → (lowerDigit d).toLower = lowerDigit d := by decide +kernel
  have hd : ∀ d, d < 16 → upperDigit d = (lowerDigit d).toUpper := by decide +kernel
  have hll : ∀ (room x : Nat) (buf : List Char), (∀ c ∈ buf, c.toLower = c) →
      ∀ c ∈ digitLoop 16 lowerDigit room x buf, c.toLower = c := by
    intro room
    induction room with
    | zero => intro x buf h; exact h
    | succ room ih =>
      intro x buf h
      have h' : ∀ c ∈ lowerDigit (x % 16) :: buf, c.toLower = c := by
        intro c hc
        rcases List.mem_cons.1 hc with rfl | hc
        · exact hlow _ (Nat.mod_lt _ (by decide))
        · exact h c hc
      unfold digitLoop
      simp only
      split
      · exact h'
      · exact ih _ _ h'
  have hl : ∀ (room x : Nat) (buf : List Char),
      digitLoop 16 upperDigit room x (buf.map Char.toUpper) =
        (digitLoop 16 lowerDigit room x buf).map Char.toUpper := by
    intro room
    induction room with
    | zero => intro x buf; rfl
    | succ room ih =>
      intro x buf
      unfold digitLoop
      simp only
      rw [hd _ (Nat.mod_lt _ (by decide)), ← List.map_cons]
      split
      · rfl
      · exact ih _ _
  constructor
  · intro c hc
    unfold lowerHex at hc
    simp only [padIntegral, Bool.false_eq_true, if_false, List.nil_append, List.mem_append] at hc
    rcases hc with hc | hc
    · rw [List.eq_of_mem_replicate hc]; rfl
    · exact hll _ _ _ (fun _ h => by cases h) c hc
  · have := hl 128 x.val.toNat []
    rw [List.map_nil] at this
    unfold upperHex lowerHex
    rw [this]
    simp only [padIntegral, Bool.false_eq_true, if_false, List.nil_append, List.map_append,
      List.map_replicate, List.length_map]
    rfl

/-- C79: the conversions to wider integers keep the number. -/
theorem C79_widen (x : U12) : x.toU16.toNat = x.num ∧ x.toU32.toNat = x.num ∧
    x.toU64.toNat = x.num ∧ x.toU128.toNat = x.num := by
  have := x.val.isLt
  refine ⟨rfl, ?_, ?_, ?_⟩ <;>
    (simp only [toU32, toU64, toU128, BitVec.toNat_setWidth]; exact Nat.mod_eq_of_lt (by omega))

/-- C79: digits mean numbers below the base, and there are sixteen of them; so in no base can a text that means
a number contain anything else. -/
theorem C79_digits (base : Nat) (c : Char) (d : Nat) (h : digitValue base c = some d) : d < base ∧ d < 16 := by
  unfold digitValue at h
  cases h1 : digitChars.idxOf? c.toLower with
  | none => rw [h1] at h; cases h
  | some k =>
    simp only [h1] at h
    have hk : k < digitChars.length := by
      rw [List.idxOf?, List.findIdx?_eq_some_iff_getElem] at h1
      exact h1.1
    have hl : digitChars.length = 16 := by decide
    by_cases hb : k < base
    · rw [if_pos hb] at h
      cases h
      omega
    · rw [if_neg hb] at h
      cases h

/-- The hypothesis of `C79_digits`: a `7` in octal; and there is no `8`. -/
example : digitValue 8 '7' = some 7 ∧ digitValue 8 '8' = none ∧ digitValue 16 'g' = none := by decide +kernel

/-- `{:x}`, `{:03X}`, `{:#06x}`, `{:o}`, `{:b}`, `{}` of 0x02f. -/
example : (new 0x2f).map (fun x => [lowerHex ⟨false, 0⟩ x, upperHex ⟨false, 3⟩ x, lowerHex ⟨true, 6⟩ x,
      octal ⟨false, 0⟩ x, binary ⟨false, 0⟩ x, display ⟨false, 0⟩ x].map String.ofList) =
    .ok ["2f", "02F", "0x002f", "57", "101111", "47"] := by decide +kernel

example : ∃ x : U12, x.Fits ∧ x.num = 0x2f := ⟨⟨0x2f⟩, by decide, rfl⟩

end U12

end Verif.Chip8
