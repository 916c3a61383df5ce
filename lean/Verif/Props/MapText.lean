import Verif.Spec.GenericMap

/-!
# Property C94: the debug text of an address map
-/

namespace Verif.Props

open Verif Verif.Spec Verif.Generic Verif.Spec.Generic

theorem digitChar_reads : ∀ d < 10, digitValue 10 (Nat.digitChar d) = some d := by decide +kernel

theorem toDigitsCore_reads (fuel : Nat) : ∀ (x : Nat) (buf : List Char), x < fuel →
    numeralFrom 10 0 (Nat.toDigitsCore 10 fuel x buf) = numeralFrom 10 x buf := by
  induction fuel with
  | zero => intro x _ h; omega
  | succ fuel ih =>
    intro x buf hx
    unfold Nat.toDigitsCore
    simp only
    have hm : x % 10 < 10 := Nat.mod_lt _ (by omega)
    split
    · rename_i h0
      rw [numeralFrom, digitChar_reads _ hm]
      simp only
      congr 1; omega
    · rename_i h0
      rw [ih _ _ (by omega), numeralFrom, digitChar_reads _ hm]
      simp only
      congr 1; omega

theorem toDigitsCore_ne_nil (fuel : Nat) : ∀ (x : Nat) (buf : List Char), 0 < fuel ∨ buf ≠ [] →
    Nat.toDigitsCore 10 fuel x buf ≠ [] := by
  induction fuel with
  | zero => intro x buf h; simpa [Nat.toDigitsCore] using h
  | succ fuel ih =>
    intro x buf _
    unfold Nat.toDigitsCore
    simp only
    split
    · simp
    · exact ih _ _ (.inr (by simp))

/-- A decimal numeral as printed means its number. -/
theorem decimal_reads (n : Nat) : numeral 10 (toString n).toList = some n := by
  have : (toString n).toList = Nat.toDigitsCore 10 (n + 1) n [] := by
    show (String.ofList (Nat.toDigits 10 n)).toList = _
    rw [String.toList_ofList]; rfl
  rw [this]
  unfold numeral
  rw [if_neg (toDigitsCore_ne_nil _ _ _ (.inl (by omega))), toDigitsCore_reads _ _ _ (by omega)]
  rfl

theorem numeralFrom_digits {s : List Char} : ∀ {n k : Nat}, numeralFrom 10 n s = some k →
    ∀ c ∈ s, digitValue 10 c ≠ none := by
  induction s with
  | nil => intro _ _ _ c h; cases h
  | cons x xs ih =>
    intro n k h c hc
    unfold numeralFrom at h
    cases hx : digitValue 10 x with
    | none => rw [hx] at h; cases h
    | some d =>
      rw [hx] at h
      rcases List.mem_cons.1 hc with rfl | hc
      · rw [hx]; simp
      · exact ih h c hc

theorem decimal_digits (n : Nat) (c : Char) (hc : digitValue 10 c = none) : c ∉ (toString n).toList := by
  intro h
  have := decimal_reads n
  unfold numeral at this
  split at this
  · cases this
  · exact numeralFrom_digits this c h hc

theorem pieces_none {c : Char} {s : List Char} (h : c ∉ s) : pieces c s = [s] := by
  induction s with
  | nil => rfl
  | cons x xs ih =>
    unfold pieces
    rw [if_neg (by rintro rfl; exact h (by simp)), ih (fun hx => h (by simp [hx]))]

theorem pieces_at {c : Char} {s t : List Char} (h : c ∉ s) : pieces c (s ++ c :: t) = s :: pieces c t := by
  induction s with
  | nil => simp [pieces]
  | cons x xs ih =>
    rw [List.cons_append, pieces, if_neg (by rintro rfl; exact h (by simp)),
      ih (fun hx => h (by simp [hx]))]

/-- A range as printed. -/
def rangeText (n k : Nat) : List Char := (toString n).toList ++ '.' :: '.' :: '=' :: (toString k).toList

theorem rangeText_reads (n k : Nat) : readRange (rangeText n k) = some (n, k) := by
  have hd : ∀ n : Nat, '.' ∉ (toString n).toList := fun n => decimal_digits n _ (by decide +kernel)
  unfold readRange rangeText
  rw [pieces_at (hd n)]
  have : pieces '.' ('.' :: '=' :: (toString k).toList) = [] :: ['=' :: (toString k).toList] := by
    rw [show pieces '.' ('.' :: '=' :: (toString k).toList) = [] :: pieces '.' ('=' :: (toString k).toList) from rfl,
      pieces_none]
    simp only [List.mem_cons, not_or]
    exact ⟨by decide, hd k⟩
  rw [this]
  simp only [decimal_reads]

theorem rangeText_no_comma (n k : Nat) : ',' ∉ rangeText n k := by
  have hd : ∀ n : Nat, ',' ∉ (toString n).toList := fun n => decimal_digits n _ (by decide +kernel)
  unfold rangeText
  simp only [List.mem_append, List.mem_cons, not_or]
  exact ⟨hd n, by decide, by decide, by decide, hd k⟩

theorem rangeText_head (n k : Nat) : (rangeText n k).head? ≠ some ' ' ∧ rangeText n k ≠ [] := by
  have hne : (toString n).toList ≠ [] := by
    intro h
    have := decimal_reads n
    rw [h] at this
    cases this
  have hd : ' ' ∉ (toString n).toList := decimal_digits n _ (by decide +kernel)
  unfold rangeText
  cases h : (toString n).toList with
  | nil => exact absurd h hne
  | cons x xs =>
    rw [h] at hd
    refine ⟨?_, by simp⟩
    simp only [List.cons_append, List.head?_cons, ne_eq, Option.some.injEq]
    rintro rfl
    exact hd (by simp)

/-- The ranges as printed in the body of the text. -/
def bodyText : List (Nat × Nat) → List Char
  | [] => []
  | [(n, k)] => rangeText n k
  | (n, k) :: rs => rangeText n k ++ ',' :: ' ' :: bodyText rs

theorem body_reads (lead : Bool) : ∀ (n k : Nat) (rs : List (Nat × Nat)),
    readEach readRange ((pieces ',' ((if lead then [' '] else []) ++ bodyText ((n, k) :: rs))).map
      fun p => if p.head? = some ' ' then p.tail else p) = some ((n, k) :: rs) := by
  intro n k rs
  induction rs generalizing n k lead with
  | nil =>
    have hc : ',' ∉ (if lead = true then [' '] else []) ++ bodyText [(n, k)] := by
      cases lead
      · exact rangeText_no_comma n k
      · simp only [if_true, List.cons_append, List.nil_append, List.mem_cons, not_or]
        exact ⟨by decide, rangeText_no_comma n k⟩
    rw [pieces_none hc]
    cases lead
    · simp only [List.map_cons, List.map_nil]
      show readEach readRange [if (rangeText n k).head? = some ' ' then _ else rangeText n k] = _
      rw [if_neg (rangeText_head n k).1]
      simp [readEach, rangeText_reads]
    · show readEach readRange [rangeText n k] = _
      simp [readEach, rangeText_reads]
  | cons r rs ih =>
    obtain ⟨n', k'⟩ := r
    have e : (if lead = true then [' '] else []) ++ bodyText ((n, k) :: (n', k') :: rs) =
        ((if lead = true then [' '] else []) ++ rangeText n k) ++ ',' :: ([' '] ++ bodyText ((n', k') :: rs)) := by
      simp [bodyText]
    have hc : ',' ∉ (if lead = true then [' '] else []) ++ rangeText n k := by
      cases lead
      · exact rangeText_no_comma n k
      · simp only [if_true, List.cons_append, List.nil_append, List.mem_cons, not_or]
        exact ⟨by decide, rangeText_no_comma n k⟩
    have hi := ih true n' k'
    rw [if_pos rfl] at hi
    rw [e, pieces_at hc, List.map_cons, readEach, hi]
    have : readRange (if ((if lead = true then [' '] else []) ++ rangeText n k).head? = some ' '
        then ((if lead = true then [' '] else []) ++ rangeText n k).tail
        else (if lead = true then [' '] else []) ++ rangeText n k) = some (n, k) := by
      cases lead
      · show readRange (if (rangeText n k).head? = some ' ' then _ else rangeText n k) = _
        rw [if_neg (rangeText_head n k).1, rangeText_reads]
      · exact rangeText_reads n k
    rw [this]

theorem intercalate_text (rs : List (Nat × Nat)) :
    (", ".intercalate (rs.map fun x => s!"{x.1}..={x.2}")).toList = bodyText rs := by
  induction rs with
  | nil => rfl
  | cons x rs ih =>
    obtain ⟨n, k⟩ := x
    have hr : (s!"{n}..={k}").toList = rangeText n k := by
      show (toString n ++ "..=" ++ toString k).toList = _
      rw [String.toList_append, String.toList_append, List.append_assoc]
      rfl
    cases rs with
    | nil =>
      rw [List.map_cons, List.map_nil, String.intercalate_singleton]
      exact hr
    | cons y rs =>
      rw [List.map_cons, List.map_cons, String.intercalate_cons_cons, ← List.map_cons (f := fun x : Nat × Nat => s!"{x.1}..={x.2}"), String.toList_append,
        String.toList_append, ih]
      show (s!"{n}..={k}").toList ++ _ ++ _ = _
      rw [hr]
      simp [bodyText]

theorem listing_reads (rs : List (Nat × Nat)) (s : String)
    (hs : s.toList = "AddressMap [".toList ++ bodyText rs ++ [']']) : readListing s.toList = some rs := by
  unfold readListing
  rw [hs]
  simp only
  rw [if_pos ⟨by rw [List.append_assoc, List.take_left], List.getLast?_concat ..⟩, List.append_assoc, List.drop_left,
    List.dropLast_concat]
  cases rs with
  | nil => rfl
  | cons x rs =>
    obtain ⟨n, k⟩ := x
    have hne : bodyText ((n, k) :: rs) ≠ [] := by
      cases rs with
      | nil => exact (rangeText_head n k).2
      | cons y rs => simp [bodyText]
    rw [if_neg hne]
    exact body_reads false n k rs

/-- C94: the debug text of an address map lists its ranges, in iteration order and nothing else: read
back, it gives the first and the last address of each. -/
theorem C94_reads {D : Type} (m : Map Word D) :
    readListing m.debugText.toList = some (m.inner.map fun e => (e.1.start.toNat, e.1.stop.toNat)) := by
  apply listing_reads
  rw [← intercalate_text, List.map_map]
  show ("AddressMap [" ++ _ ++ "]").toList = _
  rw [String.toList_append, String.toList_append]
  rfl

/-- C94: the same for addresses of type `usize`. -/
theorem C94_reads_usize {D : Type} (m : Map Nat D) :
    readListing m.debugText.toList = some (m.inner.map fun e => (e.1.start, e.1.stop)) := by
  apply listing_reads
  rw [← intercalate_text, List.map_map]
  show ("AddressMap [" ++ _ ++ "]").toList = _
  rw [String.toList_append, String.toList_append]
  rfl

/-- C94: two maps print the same exactly if they have the same ranges in the same order, whatever their
devices. -/
theorem C94_same {D E : Type} (m : Map Word D) (m' : Map Word E) :
    m.debugText = m'.debugText ↔ m.inner.map Prod.fst = m'.inner.map Prod.fst := by
  constructor
  · intro h
    have h1 := C94_reads m
    rw [h, C94_reads m'] at h1
    have h2 := Option.some.inj h1
    have key : ∀ {F : Type} (n : Map Word F), n.inner.map Prod.fst =
        (n.inner.map fun e => (e.1.start.toNat, e.1.stop.toNat)).map
          fun x => (⟨BitVec.ofNat 16 x.1, BitVec.ofNat 16 x.2⟩ : Range Word) := by
      intro F n
      rw [List.map_map]
      apply List.map_congr_left
      intro e _
      simp
    rw [key m, key m', h2]
  · intro h
    unfold Map.debugText
    have key : ∀ {F : Type} (n : Map Word F), (n.inner.map fun e => Map.debugRange e.1) =
        (n.inner.map Prod.fst).map Map.debugRange := by
      intro F n
      rw [List.map_map]
      rfl
    rw [key m, key m', h]

/-- C94: likewise with addresses of type `usize`. -/
theorem C94_same_usize {D E : Type} (m : Map Nat D) (m' : Map Nat E) :
    m.debugText = m'.debugText ↔ m.inner.map Prod.fst = m'.inner.map Prod.fst := by
  constructor
  · intro h
    have h1 := C94_reads_usize m
    rw [h, C94_reads_usize m'] at h1
    have h2 := Option.some.inj h1
    have key : ∀ {F : Type} (n : Map Nat F), n.inner.map Prod.fst =
        (n.inner.map fun e => (e.1.start, e.1.stop)).map
          fun x => (⟨x.1, x.2⟩ : Range Nat) := by
      intro F n
      rw [List.map_map]
      rfl
    rw [key m, key m', h2]
  · intro h
    unfold Map.debugText
    have key : ∀ {F : Type} (n : Map Nat F), (n.inner.map fun e => Map.debugRange e.1) =
        (n.inner.map Prod.fst).map Map.debugRange := by
      intro F n
      rw [List.map_map]
      rfl
    rw [key m, key m', h]

/-- Two ranges. -/
example : (⟨[(⟨0x10, 0x1f⟩, ()), (⟨0x6000, 0xffff⟩, ())]⟩ : Map Word Unit).debugText =
    "AddressMap [16..=31, 24576..=65535]" ∧
    readListing "AddressMap [16..=31, 24576..=65535]".toList = some [(16, 31), (24576, 65535)] ∧
    readListing "AddressMap []".toList = some [] ∧
    readListing "AddressMap [16..31]".toList = none := by
  refine ⟨by decide +kernel, by decide +kernel, by decide +kernel, by decide +kernel⟩

end Verif.Props
