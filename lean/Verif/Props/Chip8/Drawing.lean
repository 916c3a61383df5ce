import Verif.Props.Chip8.Display

/-!
# C130: the display shows at every pixel what was drawn there last

`DRW` itself always panics (C54), so this is about the display as the crate offers it: any sequence of
`write_pixel` and `write_sprite`.
-/

namespace Verif.Props.Chip8

open Verif Verif.Chip8 Verif.Spec.Chip8

/-- A call of `write_pixel` (`src/cpu/chip8/display.rs:77-94`) or `write_sprite` (lines 99-126). -/
inductive Drawing where
  | pixel (x y : Nat) (on : Bool)
  | sprite (x y : Nat) (f : Font)

/-- What a drawing puts at a pixel; `none` where it leaves the pixel alone. A sprite is an opaque box of 8 by 5
pixels; nothing is drawn if its upper left corner is off the screen. -/
def Drawing.puts : Drawing → Nat → Nat → Option Bool
  | .pixel x y v, px, py => if px = x ∧ py = y then some v else none
  | .sprite x y f, px, py =>
    if (x ≤ px ∧ px < x + 8) ∧ (y ≤ py ∧ py < y + 5) ∧ x < 64 ∧ y < 32 then some (glyphPixel f (px - x) (py - y))
    else none

/-- The display after the call. -/
def Drawing.on (d : Display) : Drawing → Display
  | .pixel x y v => (d.writePixel x y v).1
  | .sprite x y f => (d.writeSprite x y f).1

/-- The display after the calls, in order. -/
def paint (d : Display) (l : List Drawing) : Display := l.foldl Drawing.on d

theorem lit_on (d : Display) (w : Drawing) {px py : Nat} (h : px < 64 ∧ py < 32) :
    lit (w.on d) px py = (w.puts px py).getD (lit d px py) := by
  cases w with
  | pixel x y v =>
    simp only [Drawing.on, Drawing.puts]
    by_cases hw : x < 64 ∧ y < 32
    · rw [(C51_write d hw v).2]
      split <;> rfl
    · rw [C51_write_outside d hw, if_neg (by rintro ⟨rfl, rfl⟩; exact hw h)]
      rfl
  | sprite x y f =>
    simp only [Drawing.on, Drawing.puts]
    by_cases hw : x < 64 ∧ y < 32
    · rw [(C51_sprite d hw f).2]
      simp only [h.1, h.2, hw.1, hw.2, and_true]
      split <;> rfl
    · rw [C51_sprite_outside d hw, if_neg (fun h' => hw h'.2.2)]
      rfl

/-- C130: a pixel that none of the drawings covers is as before. -/
theorem C130_untouched (d : Display) (l : List Drawing) {px py : Nat} (h : px < 64 ∧ py < 32)
    (hl : ∀ w ∈ l, w.puts px py = none) : lit (paint d l) px py = lit d px py := by
  induction l generalizing d with
  | nil => rfl
  | cons w l ih =>
    show lit (paint (w.on d) l) px py = _
    rw [ih _ fun w' hw' => hl w' (List.mem_cons_of_mem _ hw'), lit_on d w h, hl w List.mem_cons_self]
    rfl

/-- C130: otherwise it shows what the last drawing that covers it puts there. -/
theorem C130_last (d : Display) (l l' : List Drawing) (w : Drawing) {px py : Nat} {v : Bool}
    (h : px < 64 ∧ py < 32) (hw : w.puts px py = some v) (hl : ∀ w' ∈ l', w'.puts px py = none) :
    lit (paint d (l ++ w :: l')) px py = v := by
  have : paint d (l ++ w :: l') = paint (w.on (paint d l)) l' := by simp [paint]
  rw [this, C130_untouched _ _ h hl, lit_on _ w h, hw]
  rfl

/-- Either no drawing covers the pixel, or there is a last one that does. -/
theorem last_or_none (l : List Drawing) (px py : Nat) :
    (∀ w ∈ l, w.puts px py = none) ∨
      ∃ l1 w l2 v, l = l1 ++ w :: l2 ∧ w.puts px py = some v ∧ ∀ w' ∈ l2, w'.puts px py = none := by
  induction l with
  | nil => exact .inl (by simp)
  | cons w l ih =>
    rcases ih with ih | ⟨l1, w', l2, v, rfl, h1, h2⟩
    · cases hw : w.puts px py with
      | none =>
        exact .inl fun w' hw' => by
          rcases List.mem_cons.1 hw' with rfl | h
          · exact hw
          · exact ih _ h
      | some v => exact .inr ⟨[], w, l, v, rfl, hw, ih⟩
    · exact .inr ⟨w :: l1, w', l2, v, rfl, h1, h2⟩

/-- C130: drawings that put the same wherever two of them meet – in particular, drawings that do not meet – can be
made in any order. -/
theorem C130_order (d : Display) {l l' : List Drawing} (hp : l.Perm l')
    (hl : ∀ w ∈ l, ∀ w' ∈ l, ∀ px py v v', px < 64 → py < 32 → w.puts px py = some v → w'.puts px py = some v' →
      v = v') :
    paint d l = paint d l' := by
  refine C51_ext _ _ fun px py hx hy => ?_
  rcases last_or_none l px py with h | ⟨l1, w, l2, v, rfl, h1, h2⟩
  · rw [C130_untouched d l ⟨hx, hy⟩ h, C130_untouched d l' ⟨hx, hy⟩ fun w hw => h w (hp.mem_iff.2 hw)]
  · rw [C130_last d l1 l2 w ⟨hx, hy⟩ h1 h2]
    rcases last_or_none l' px py with h | ⟨m1, w', m2, v', rfl, h3, h4⟩
    · rw [h w (hp.mem_iff.1 (by simp))] at h1
      cases h1
    · rw [C130_last d m1 m2 w' ⟨hx, hy⟩ h3 h4]
      exact hl _ (by simp) _ (hp.mem_iff.2 (by simp)) _ _ _ _ hx hy h1 h3

/-- C130: making the same drawings once more changes nothing. -/
theorem C130_again (d : Display) (l : List Drawing) : paint (paint d l) l = paint d l := by
  refine C51_ext _ _ fun px py hx hy => ?_
  rcases last_or_none l px py with h | ⟨l1, w, l2, v, rfl, h1, h2⟩
  · rw [C130_untouched _ l ⟨hx, hy⟩ h]
  · rw [C130_last d l1 l2 w ⟨hx, hy⟩ h1 h2, C130_last _ l1 l2 w ⟨hx, hy⟩ h1 h2]

/-! ## Lines of digits -/

/-- A line of digits, each `s` pixels to the right of the one before, drawn from the left to the right. -/
def line (x y s : Nat) : List Font → List Drawing
  | [] => []
  | f :: fs => .sprite x y f :: line (x + s) y s fs

theorem line_puts (x y s : Nat) (fs : List Font) {px py : Nat} (h : px < x) :
    ∀ w ∈ line x y s fs, w.puts px py = none := by
  induction fs generalizing x with
  | nil => simp [line]
  | cons f fs ih =>
    intro w hw
    rcases List.mem_cons.1 hw with rfl | hw
    · exact if_neg fun h' => by omega
    · exact ih (x + s) (by omega) w hw

/-- C130: digits drawn from the left to the right, four pixels or more apart, are all to be seen, although each
sprite is eight pixels wide: each shows its picture, four by five pixels, as far as it is on the screen. -/
theorem C130_line (d : Display) {x y s : Nat} (hs : 4 ≤ s) (fs : List Font) {k i j : Nat} (hk : k < fs.length)
    (hi : i < 4) (hj : j < 5) (hx : x + s * k + i < 64) (hy : y + j < 32) :
    lit (paint d (line x y s fs)) (x + s * k + i) (y + j) = glyphPixel fs[k] i j := by
  induction fs generalizing d x k with
  | nil => cases hk
  | cons f fs ih =>
    cases k with
    | zero =>
      have := C130_last d [] (line (x + s) y s fs) (.sprite x y f) (px := x + i) (py := y + j)
        (v := glyphPixel f i j) ⟨by omega, by omega⟩
        (by
          show (if _ then _ else _) = _
          rw [if_pos ⟨⟨by omega, by omega⟩, ⟨by omega, by omega⟩, by omega, by omega⟩]
          congr 2 <;> omega)
        (line_puts _ _ _ _ (by omega))
      simpa [line] using this
    | succ k =>
      have e : x + s * (k + 1) + i = x + s + s * k + i := by rw [Nat.mul_succ]; omega
      have := ih ((Drawing.sprite x y f).on d) (x := x + s) (k := k) (by simpa using hk) (by omega)
      rw [e]
      exact this

/-- The pictures of the sixteen digits are different. -/
theorem glyph_injective (f g : Font) (h : ∀ i < 4, ∀ j < 5, glyphPixel f i j = glyphPixel g i j) : f = g := by
  revert f g
  have : ∀ f g : Font, (∀ i : Fin 4, ∀ j : Fin 5, glyphPixel f i j = glyphPixel g i j) → f = g := by
    intro f g
    cases f <;> cases g <;> decide +kernel
  exact fun f g h => this f g fun i j => h i i.2 j j.2

/-- C130: so a line of digits that is on the screen can be read: different lines of the same length look different,
whatever was on the two screens before. -/
theorem C130_read (d d' : Display) {x y s : Nat} (hs : 4 ≤ s) {fs gs : List Font} (hlen : fs.length = gs.length)
    (hx : x + s * fs.length < 64 + s - 3) (hy : y + 4 < 32)
    (h : paint d (line x y s fs) = paint d' (line x y s gs)) : fs = gs := by
  refine List.ext_getElem hlen fun k h1 h2 => glyph_injective _ _ fun i hi j hj => ?_
  have hk : s * k + s ≤ s * fs.length := by
    rw [← Nat.mul_succ]; exact Nat.mul_le_mul_left s h1
  rw [← C130_line d hs fs h1 hi hj (x := x) (y := y) (by omega) (by omega), h,
    C130_line d' hs gs h2 hi hj (by omega) (by omega)]

/-! ### Concrete cases -/

/-- "C0DE" in the middle of the screen, five pixels apart: the right stroke of the 0. -/
example : lit (paint Display.default (line 20 10 5 [.C, .Zero, .D, .E])) 28 12 = true := by
  have := C130_line Display.default (x := 20) (y := 10) (s := 5) (by decide) [.C, .Zero, .D, .E] (k := 1) (i := 3)
    (j := 2) (by decide) (by decide) (by decide) (by decide) (by decide)
  exact this.trans (by decide)

/-- Twelve digits fit on the screen. -/
example (fs gs : List Font) (hf : fs.length = 12) (hg : gs.length = 12)
    (h : paint Display.default (line 2 0 5 fs) = paint oneLit (line 2 0 5 gs)) : fs = gs :=
  C130_read _ _ (by decide) (hf.trans hg.symm) (by rw [hf]; decide) (by decide) h

/-- From the right to the left the digits spoil each other: 0 drawn at column 0 after 0 at column 5 wipes out the
upper left pixel of the second. -/
example : lit (paint Display.default [.sprite 5 0 .Zero, .sprite 0 0 .Zero]) 5 0 = false ∧
    lit (paint Display.default [.sprite 0 0 .Zero, .sprite 5 0 .Zero]) 5 0 = true :=
  ⟨C130_last _ [.sprite 5 0 .Zero] [] (.sprite 0 0 .Zero) (by decide) (by decide) (by simp),
    C130_last _ [.sprite 0 0 .Zero] [] (.sprite 5 0 .Zero) (by decide) (by decide) (by simp)⟩

/-- Two digits eight columns apart do not meet, so they can be drawn in either order. -/
example (d : Display) : paint d [.sprite 0 0 .Zero, .sprite 8 0 .One] = paint d [.sprite 8 0 .One, .sprite 0 0 .Zero] :=
  C130_order d (List.Perm.swap _ _ _) (by
    intro w hw w' hw' px py v v' _ _ h h'
    simp only [List.mem_cons, List.not_mem_nil, or_false] at hw hw'
    rcases hw with rfl | rfl <;> rcases hw' with rfl | rfl
    · exact Option.some.inj (h.symm.trans h')
    · simp only [Drawing.puts] at h h'
      split at h <;> split at h' <;> first | omega | simp_all
    · simp only [Drawing.puts] at h h'
      split at h <;> split at h' <;> first | omega | simp_all
    · exact Option.some.inj (h.symm.trans h'))

/-- A drawing repeated: a pixel set and a 7 over it. -/
example (d : Display) : paint (paint d [.pixel 3 3 true, .sprite 0 0 .Seven]) [.pixel 3 3 true, .sprite 0 0 .Seven] =
    paint d [.pixel 3 3 true, .sprite 0 0 .Seven] := C130_again d _

end Verif.Props.Chip8
