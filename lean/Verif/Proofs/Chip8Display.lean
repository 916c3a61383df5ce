import Verif.Proofs.Chip8Effect
import Verif.Spec.Chip8Font
import Mathlib.Data.List.Induction

/-!
# Proofs: the CHIP-8 display
-/

namespace Verif.Chip8

open Verif Verif.Spec.Chip8

namespace Display

theorem get_eq (d : Display) {x y : Nat} (h : x < 64 ∧ y < 32) : d.get x y = some (lit d x y) := by
  unfold get lit
  rw [dif_pos h, Vector.getElem?_eq_getElem h.2]
  simp only [Option.bind_some]
  rw [Vector.getElem?_eq_getElem h.1]

theorem within_iff (x y : Nat) : isWithinDisplayBoundary x y = true ↔ x < 64 ∧ y < 32 := by
  unfold isWithinDisplayBoundary
  rw [Bool.and_eq_true, decide_eq_true_iff, decide_eq_true_iff]
  exact Iff.rfl

theorem pixel_eq (d : Display) (x y : Nat) :
    d.pixel x y = if x < 64 ∧ y < 32 then some (lit d x y) else none := by
  unfold pixel
  by_cases h : x < 64 ∧ y < 32
  · rw [if_pos ((within_iff x y).2 h), if_pos h, get_eq d h]
  · rw [if_neg (fun h' => h ((within_iff x y).1 h')), if_neg h]

/-- Inside the guard the array access of `pixel` is in bounds. -/
theorem pixel_isSome (d : Display) (x y : Nat) (h : isWithinDisplayBoundary x y = true) :
    (d.get x y).isSome := by
  rw [get_eq d ((within_iff x y).1 h)]
  rfl

theorem lit_eq_get (d : Display) (x y : Nat) : lit d x y = (d.get x y).getD false := by
  by_cases h : x < 64 ∧ y < 32
  · rw [get_eq d h]
    rfl
  · unfold lit get
    rw [dif_neg h]
    by_cases hy : y < 32
    · rw [Vector.getElem?_eq_getElem hy]
      simp only [Option.bind_some]
      rw [Vector.getElem?_eq_none (by omega)]
      rfl
    · rw [Vector.getElem?_eq_none (by omega)]
      rfl

theorem lit_put (d : Display) {x y : Nat} (h : x < 64 ∧ y < 32) (v : Bool) (px py : Nat) :
    lit (d.put x y v) px py = if px = x ∧ py = y then v else lit d px py := by
  rw [lit_eq_get, lit_eq_get]
  unfold put get
  rw [Vector.getElem?_eq_getElem h.2]
  simp only [Vector.getElem?_setIfInBounds]
  by_cases hy : y = py
  · subst hy
    rw [if_pos rfl, if_pos h.2, Vector.getElem?_eq_getElem h.2]
    simp only [Option.bind_some, Vector.getElem?_setIfInBounds, and_true]
    by_cases hx : x = px
    · subst hx
      rw [if_pos rfl, if_pos h.1, if_pos rfl]
      rfl
    · rw [if_neg hx, if_neg (Ne.symm hx)]
  · rw [if_neg hy, if_neg (fun h => hy h.2.symm)]

theorem lit_writePixel (d : Display) (x y : Nat) (v : Bool) (px py : Nat) :
    lit (d.writePixel x y v).1 px py =
      if px = x ∧ py = y ∧ x < 64 ∧ y < 32 then v else lit d px py := by
  unfold writePixel
  rw [pixel_eq]
  by_cases h : x < 64 ∧ y < 32
  · rw [if_pos h]
    simp only [lit_put d h, h.1, h.2, and_true]
  · rw [if_neg h]
    rw [if_neg (fun h' => h h'.2.2)]

theorem writePixel_none (d : Display) {x y : Nat} (h : ¬(x < 64 ∧ y < 32)) (v : Bool) :
    d.writePixel x y v = (d, none) := by
  unfold writePixel
  rw [pixel_eq, if_neg h]

theorem writePixel_snd (d : Display) (x y : Nat) (v : Bool) :
    (d.writePixel x y v).2 = if x < 64 ∧ y < 32 then some (lit d x y) else none := by
  unfold writePixel
  rw [pixel_eq]
  split <;> simp_all

theorem mem_offsets (n : Nat) (o : Nat × Nat) : o ∈ offsets n ↔ o.1 < 8 ∧ o.2 < n := by
  unfold offsets
  simp only [List.mem_flatMap, List.mem_range, List.mem_map]
  constructor
  · rintro ⟨x, hx, y, hy, rfl⟩
    exact ⟨hx, hy⟩
  · rintro ⟨h1, h2⟩
    exact ⟨o.1, h1, o.2, h2, rfl⟩

/-- Drawing bits `f` at the offsets `l` from `(x, y)`, one after the other. -/
def draw (f : Nat × Nat → Bool) (x y : Nat) (d : Display) (l : List (Nat × Nat)) : Display :=
  l.foldl (fun d o => (d.writePixel (x + o.1) (y + o.2) (f o)).1) d

theorem lit_draw (f : Nat × Nat → Bool) (x y : Nat) (d : Display) (l : List (Nat × Nat))
    (px py : Nat) :
    lit (draw f x y d l) px py =
      if x ≤ px ∧ y ≤ py ∧ (px - x, py - y) ∈ l ∧ px < 64 ∧ py < 32 then f (px - x, py - y)
      else lit d px py := by
  induction l generalizing d with
  | nil => simp [draw]
  | cons o l ih =>
    show lit (draw f x y (d.writePixel (x + o.1) (y + o.2) (f o)).1 l) px py = _
    rw [ih, lit_writePixel]
    by_cases h1 : x ≤ px ∧ y ≤ py ∧ (px - x, py - y) ∈ l ∧ px < 64 ∧ py < 32
    · rw [if_pos h1, if_pos ⟨h1.1, h1.2.1, List.mem_cons_of_mem _ h1.2.2.1, h1.2.2.2⟩]
    · rw [if_neg h1]
      by_cases h2 : px = x + o.1 ∧ py = y + o.2 ∧ x + o.1 < 64 ∧ y + o.2 < 32
      · obtain ⟨rfl, rfl, h3, h4⟩ := h2
        have e : (x + o.1 - x, y + o.2 - y) = o := by
          ext <;> simp
        rw [e, if_pos ⟨rfl, rfl, h3, h4⟩, if_pos ⟨by omega, by omega, List.mem_cons_self, h3, h4⟩]
      · rw [if_neg h2, if_neg]
        rintro ⟨h3, h4, h5, h6, h7⟩
        rcases List.mem_cons.1 h5 with h5 | h5
        · apply h2
          rw [← h5]
          refine ⟨?_, ?_, ?_, ?_⟩ <;> simp only <;> omega
        · exact h1 ⟨h3, h4, h5, h6, h7⟩

/-- The bits of a glyph as the code reads them. -/
def fontBit (sprite : Font) (o : Nat × Nat) : Bool := spriteBit (sprite.bytes[o.2]?.getD 0) o.1

theorem sprite_fold_fst (sprite : Font) (x y : Nat) (l : List (Nat × Nat)) (s : Display × Bool) :
    (l.foldl (spriteStep sprite x y) s).1 = draw (fontBit sprite) x y s.1 l := by
  induction l generalizing s with
  | nil => rfl
  | cons o l ih =>
    rw [List.foldl_cons, ih]
    rfl

theorem spriteStep_snd (sprite : Font) (x y : Nat) (s : Display × Bool) (o : Nat × Nat) :
    (spriteStep sprite x y s o).2 =
      (if x + o.1 < 64 ∧ y + o.2 < 32 then some (lit s.1 (x + o.1) (y + o.2)) else none).getD s.2 := by
  unfold spriteStep
  simp only [writePixel_snd]

theorem sprite_fold_snd (sprite : Font) (x y : Nat) (d : Display) (c : Bool) (l : List (Nat × Nat))
    (hl : l.Nodup) :
    (l.foldl (spriteStep sprite x y) (d, c)).2 =
      (((l.filter fun o => decide (x + o.1 < 64 ∧ y + o.2 < 32)).getLast?).map
        fun o => lit d (x + o.1) (y + o.2)).getD c := by
  induction l using List.reverseRecOn with
  | nil => rfl
  | append_singleton l o ih =>
    obtain ⟨h1, -, h2⟩ := List.nodup_append.1 hl
    have ho : o ∉ l := fun h => h2 o h o (by simp) rfl
    rw [List.foldl_append]
    show ((spriteStep sprite x y _ o).2) = _
    rw [spriteStep_snd, sprite_fold_fst, lit_draw, ih h1, List.filter_append]
    by_cases h : x + o.1 < 64 ∧ y + o.2 < 32
    · have e : (x + o.1 - x, y + o.2 - y) = o := by
        ext <;> simp
      rw [if_pos h, e, if_neg (fun h => ho h.2.2.1)]
      simp [h]
    · rw [if_neg h]
      simp [h]

theorem offsets_nodup : (offsets 5).Nodup := by decide

theorem offsets_last : ∀ a < 8, ∀ c < 5,
    ((offsets 5).filter fun o => decide (o.1 ≤ a ∧ o.2 ≤ c)).getLast? = some (a, c) := by
  decide

theorem offsets_last_within {x y : Nat} (hx : x < 64) (hy : y < 32) :
    ((offsets 5).filter fun o => decide (x + o.1 < 64 ∧ y + o.2 < 32)).getLast? =
      some (min 7 (63 - x), min 4 (31 - y)) := by
  rw [← offsets_last (min 7 (63 - x)) (by omega) (min 4 (31 - y)) (by omega)]
  congr 1
  apply List.filter_congr
  intro o ho
  obtain ⟨h1, h2⟩ := (mem_offsets 5 o).1 ho
  simp only [decide_eq_decide]
  omega

theorem fontBit_eq (sprite : Font) : ∀ i < 8, ∀ j < 5, fontBit sprite (i, j) = glyphPixel sprite i j := by
  cases sprite <;> decide +kernel

theorem spriteBit_eq (row : Byte) (i : Nat) (h : i < 8) : spriteBit row i = rowPixel row i := by
  unfold spriteBit rowPixel
  rw [BitVec.getMsbD_eq_getLsbD]
  have key : ∀ k < 8, ∀ row : Byte, (((row >>> k) &&& 0x1) != 0) = row.getLsbD k := by
    intro k hk row
    rw [Bool.eq_iff_iff, bne_iff_ne, ne_eq]
    constructor
    · intro h
      refine Classical.byContradiction fun hc => h ?_
      apply BitVec.eq_of_getLsbD_eq
      intro j hj
      rcases j with _ | j
      · simpa using hc
      · simp [BitVec.getLsbD_one]
    · intro h h'
      have := congrArg (fun v : Byte => v.getLsbD 0) h'
      simp [h] at this
  rw [key _ (by omega)]
  simp only [h, decide_true, Bool.true_and]

end Display

variable {B R : Type} [Addressable B] {b : Build} {cpu : Chip8 B R}

/-- The microcode of a list of pixels, executed. -/
theorem exec_draw (t : Instant) (f : Nat × Nat → Bool) (x y : Nat) (l : List (Nat × Nat))
    (c : Chip8 B R) :
    executeAll b t c (l.map fun o => .SetDisplayPixel (x + o.1, y + o.2) (f o)) =
      .ok { c with display := Display.draw f x y c.display l } := by
  induction l generalizing c with
  | nil => rfl
  | cons o l ih =>
    rw [List.map_cons, executeAll]
    show (executeMut b t c _ >>= _) = _
    simp only [executeMut, Res.ok_bind]
    rw [ih]
    rfl

theorem drw_fold (d : Display) (sprite : List Byte) (x y : Nat) (l : List (Nat × Nat))
    (hl : ∀ o ∈ l, o.2 < sprite.length) (s : Bool × List Microcode) :
    l.foldlM (drwStep d sprite x y) s = .ok
      (s.1 || l.any (fun o => Display.spriteBit (sprite[o.2]?.getD 0) o.1 && lit d (x + o.1) (y + o.2)),
        s.2 ++ l.map fun o => .SetDisplayPixel (x + o.1, y + o.2)
          (Display.spriteBit (sprite[o.2]?.getD 0) o.1)) := by
  induction l generalizing s with
  | nil => simp [List.foldlM, pure, Except.pure]
  | cons o l ih =>
    have ho := hl o (by simp)
    rw [List.foldlM_cons]
    have : drwStep d sprite x y s o = .ok
        (s.1 || (Display.spriteBit (sprite[o.2]?.getD 0) o.1 && lit d (x + o.1) (y + o.2)),
          s.2 ++ [.SetDisplayPixel (x + o.1, y + o.2)
            (Display.spriteBit (sprite[o.2]?.getD 0) o.1)]) := by
      unfold drwStep index
      rw [List.getElem?_eq_getElem ho]
      simp only [Res.ok_bind, Option.getD_some, Display.pixel_eq]
      congr 2
      by_cases h : x + o.1 < 64 ∧ y + o.2 < 32
      · rw [if_pos h]
        cases lit d (x + o.1) (y + o.2) <;> cases Display.spriteBit sprite[o.2] o.1 <;> simp
      · have : lit d (x + o.1) (y + o.2) = false := by
          unfold lit
          rw [dif_neg h]
        rw [if_neg h, this]
        simp
    rw [this, Res.ok_bind, ih fun o h => hl o (by simp [h])]
    simp [Bool.or_assoc]

end Verif.Chip8
