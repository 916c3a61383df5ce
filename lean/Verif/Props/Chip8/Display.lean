import Verif.Proofs.Chip8Display
import Verif.Proofs.Chip8Sample

/-!
# CHIP-8: the display (C51, C52, C54)

C52 and C54 are false of the code: each full statement is refuted by a concrete case, and a
`_partial` theorem says exactly what the code does.
-/

namespace Verif.Props.Chip8

open Verif Verif.Chip8 Verif.Spec.Chip8
open Verif.Mos (FlatRam)
open Verif.Spec.Mos (Mem BusView writeAll)

variable {B R : Type} [Addressable B] {b : Build} {e : Env} {cpu : Chip8 B R} {mem : Mem}
  {x y : GpRegisters}

/-! ## C51 Pixels and sprites -/

/-- `pixel` tells the pixel on the screen and nothing elsewhere. -/
theorem C51_pixel (d : Display) (x y : Nat) :
    d.pixel x y = if x < 64 ∧ y < 32 then some (lit d x y) else none := Display.pixel_eq d x y

/-- A write on the screen returns the old value and changes this pixel only. -/
theorem C51_write (d : Display) {x y : Nat} (h : x < 64 ∧ y < 32) (v : Bool) :
    (d.writePixel x y v).2 = some (lit d x y) ∧
    ∀ px py, lit (d.writePixel x y v).1 px py = if px = x ∧ py = y then v else lit d px py := by
  refine ⟨by rw [Display.writePixel_snd, if_pos h], fun px py => ?_⟩
  rw [Display.lit_writePixel]
  simp only [h.1, h.2, and_true]

/-- A write off the screen returns nothing and changes nothing. -/
theorem C51_write_outside (d : Display) {x y : Nat} (h : ¬(x < 64 ∧ y < 32)) (v : Bool) :
    d.writePixel x y v = (d, none) := Display.writePixel_none d h v

/-- The array given out by `unwrap` has the pixel `(x, y)` in column `x` of row `y`; `with_inner` and
`with_inner_mut` hand this array to the closure and take the closure's array back, pixel by pixel. -/
theorem C51_inner {X : Type} (d : Display) (f : Vector (Vector Bool 64) 32 → Vector (Vector Bool 64) 32)
    (g : Vector (Vector Bool 64) 32 → Vector (Vector Bool 64) 32 × X) {x y : Nat} (h : x < 64 ∧ y < 32) :
    d.pixel x y = some ((d.unwrap[y]'h.2)[x]'h.1) ∧
    (d.withInner f).pixel x y = some (((f d.unwrap)[y]'h.2)[x]'h.1) ∧
    (d.withInnerMut g).1.pixel x y = some (((g d.unwrap).1[y]'h.2)[x]'h.1) ∧
    (d.withInnerMut g).2 = (g d.unwrap).2 := by
  have key : ∀ d : Display, d.pixel x y = some ((d.unwrap[y]'h.2)[x]'h.1) := by
    intro d
    rw [C51_pixel, if_pos h, lit, dif_pos h]
    rfl
  exact ⟨key d, key _, key _, rfl⟩

/-- Turning the picture upside down through `with_inner` moves a pixel to the mirrored row. -/
example : ((Display.default.writePixel 5 2 true).1.withInner Vector.reverse).pixel 5 29 = some true ∧
    ((Display.default.writePixel 5 2 true).1.withInner Vector.reverse).pixel 5 2 = some false := by
  decide +kernel

/-- The pixels determine the display: there is no other state. -/
theorem C51_ext (d d' : Display) (h : ∀ x y, x < 64 → y < 32 → lit d x y = lit d' x y) : d = d' := by
  obtain ⟨d⟩ := d
  obtain ⟨d'⟩ := d'
  congr 1
  apply Vector.ext
  intro y hy
  apply Vector.ext
  intro x hx
  have := h x y hx hy
  unfold lit at this
  rw [dif_pos ⟨hx, hy⟩, dif_pos ⟨hx, hy⟩] at this
  exact this

/-- A sprite with its origin on the screen: every glyph pixel, lit or not, is drawn at its offset
if it is on the screen; the rest of the screen is left alone. -/
theorem C51_sprite (d : Display) {x y : Nat} (h : x < 64 ∧ y < 32) (f : Font) :
    (d.writeSprite x y f).2.isSome ∧
    ∀ px py, lit (d.writeSprite x y f).1 px py =
      if (x ≤ px ∧ px < x + 8) ∧ (y ≤ py ∧ py < y + 5) ∧ px < 64 ∧ py < 32 then
        glyphPixel f (px - x) (py - y)
      else lit d px py := by
  unfold Display.writeSprite
  rw [if_pos ((Display.within_iff x y).2 h)]
  refine ⟨rfl, fun px py => ?_⟩
  simp only
  rw [Display.sprite_fold_fst, Display.lit_draw]
  by_cases hc : (x ≤ px ∧ px < x + 8) ∧ (y ≤ py ∧ py < y + 5) ∧ px < 64 ∧ py < 32
  · obtain ⟨⟨h1, h2⟩, ⟨h3, h4⟩, h5, h6⟩ := hc
    rw [if_pos ⟨h1, h3, (Display.mem_offsets _ _).2 ⟨by simp only; omega, by simp only; omega⟩, h5, h6⟩,
      if_pos ⟨⟨h1, h2⟩, ⟨h3, h4⟩, h5, h6⟩, Display.fontBit_eq f _ (by omega) _ (by omega)]
  · rw [if_neg hc, if_neg]
    rintro ⟨h1, h3, h2, h5, h6⟩
    obtain ⟨h2, h4⟩ := (Display.mem_offsets _ _).1 h2
    simp only at h2 h4
    exact hc ⟨⟨h1, by omega⟩, ⟨h3, by omega⟩, h5, h6⟩

/-- A sprite with its origin off the screen returns nothing and changes nothing. -/
theorem C51_sprite_outside (d : Display) {x y : Nat} (h : ¬(x < 64 ∧ y < 32)) (f : Font) :
    d.writeSprite x y f = (d, none) := by
  unfold Display.writeSprite
  rw [if_neg (fun h' => h ((Display.within_iff x y).1 h'))]

/-- The digit 7 in the lower right corner: pixel (63, 30) is its pixel (3, 0), which is lit. -/
example : lit (Display.default.writeSprite 60 30 .Seven).1 63 30 = true := by
  rw [(C51_sprite _ (by decide) _).2, if_pos (by decide)]
  decide

example : ¬(64 < 64 ∧ 0 < 32) := by decide

/-! ## C52 Collisions of `write_sprite` -/

/-- C52 in full: the result tells whether some pixel that the sprite covers was lit. -/
def C52_statement : Prop :=
  ∀ (d : Display) (x y : Nat) (f : Font), x < 64 ∧ y < 32 →
    ((d.writeSprite x y f).2 = some true ↔
      ∃ px py, (x ≤ px ∧ px < x + 8) ∧ (y ≤ py ∧ py < y + 5) ∧ lit d px py = true)

/-- What the code does: the result is the old value of the last covered pixel, the lower right one
on the screen. Missing for C52: all the other pixels. -/
theorem C52_partial (d : Display) {x y : Nat} (h : x < 64 ∧ y < 32) (f : Font) :
    (d.writeSprite x y f).2 = some (lit d (min (x + 7) 63) (min (y + 4) 31)) := by
  unfold Display.writeSprite
  rw [if_pos ((Display.within_iff x y).2 h)]
  simp only
  rw [Display.sprite_fold_snd _ _ _ _ _ _ Display.offsets_nodup,
    Display.offsets_last_within h.1 h.2]
  simp only [Option.map_some, Option.getD_some]
  congr 2 <;> omega

/-- One direction of C52 holds: a reported collision is real. -/
theorem C52_no_false_alarm_partial (d : Display) {x y : Nat} (h : x < 64 ∧ y < 32) (f : Font)
    (hc : (d.writeSprite x y f).2 = some true) :
    ∃ px py, (x ≤ px ∧ px < x + 8) ∧ (y ≤ py ∧ py < y + 5) ∧ lit d px py = true := by
  rw [C52_partial d h f, Option.some.injEq] at hc
  exact ⟨_, _, ⟨by omega, by omega⟩, ⟨by omega, by omega⟩, hc⟩

/-- The blank screen with pixel (0, 0) lit. -/
def oneLit : Display := (Display.default.writePixel 0 0 true).1

theorem lit_oneLit (x y : Nat) : lit oneLit x y = true ↔ x = 0 ∧ y = 0 := by
  unfold oneLit
  rw [(C51_write _ (by decide) _).2]
  split
  · simp_all
  · rename_i h
    simp only [h, iff_false, Bool.not_eq_true]
    unfold lit Display.default
    split <;> simp

/-- C52 is false: a sprite drawn over the single lit pixel (0, 0) reports no collision. -/
theorem C52_missed : ¬ C52_statement := by
  intro h
  have := (h oneLit 0 0 .Zero (by decide)).2
    ⟨0, 0, by decide, by decide, (lit_oneLit 0 0).2 ⟨rfl, rfl⟩⟩
  rw [C52_partial _ (by decide)] at this
  have := (lit_oneLit 7 4).1 (by simpa using this)
  omega

/-- A reported collision. -/
example : (((Display.default.writePixel 7 4 true).1).writeSprite 0 0 .A).2 = some true := by
  rw [C52_partial _ (by decide), (C51_write _ (by decide) _).2]
  rfl

/-! ## C54 DRW -/

/-- The sprite pixel that falls on `(px, py)` when the rows `rows` are drawn at `(x, y)`. -/
def spriteOn (rows : Nat → Byte) (n x y px py : Nat) : Bool :=
  decide ((x ≤ px ∧ px < x + 8) ∧ (y ≤ py ∧ py < y + n)) && rowPixel (rows (py - y)) (px - x)

/-- The rows of a sprite: the bytes of memory from I. -/
def rowsAt (mem : Mem) (i : Word) (j : Nat) : Byte := mem (BitVec.ofNat 16 (i.toNat + j))

/-- The sprite meets a lit pixel. -/
def Collides (d : Display) (rows : Nat → Byte) (n x y : Nat) : Prop :=
  ∃ px py, spriteOn rows n x y px py = true ∧ lit d px py = true

/-- C54 in full. -/
def C54_statement : Prop :=
  ∀ (B R : Type) [Addressable B] (b : Build) (e : Env) (cpu : Chip8 B R) (mem : Mem)
    (x y : GpRegisters) (n : Byte), At b cpu (.Drw x y n) → BusView b cpu.address_space mem →
    x ≠ .Vf → y ≠ .Vf → cpu.i.toNat + n.toNat < 65536 →
    ∃ c, StepsTo b e cpu c ∧
      (V c .Vf = 1 ↔
        Collides cpu.display (rowsAt mem cpu.i) n.toNat (V cpu x).toNat (V cpu y).toNat) ∧
      ∀ px py, px < 64 → py < 32 → lit c.display px py =
        (lit cpu.display px py ^^
          spriteOn (rowsAt mem cpu.i) n.toNat (V cpu x).toNat (V cpu y).toNat px py)

/-- Every DRW panics: the emulator has no register VF. -/
theorem C54_always_panics_partial {n : Byte} (hat : At b cpu (.Drw x y n))
    (hv : BusView b cpu.address_space mem) : StepPanics b e cpu :=
  step_panics hat hv fun hr => hr.1 trivial

/-- C54 is false: `D125` panics. -/
theorem C54_panics : ¬ C54_statement := by
  intro h
  have hat := at_place .debug sample (op := .Drw .V1 .V2 5)
    (show (5 : Byte).toNat < 16 by decide) (by decide)
  obtain ⟨c, hs, -⟩ := h _ _ .debug ⟨0, 0, 0, 0⟩ _ _ _ _ _ hat (view _ _) (by decide) (by decide)
    (by decide)
  obtain ⟨p, hp⟩ := C54_always_panics_partial (e := ⟨0, 0, 0, 0⟩) hat (view _ _)
  unfold StepsTo at hs
  rw [hs] at hp
  cases hp

/-- What the code does: the flag handed to the executor is the documented one, and the pixel writes
that come before it set the covered pixels to the sprite's bits. Missing for C54: the writes replace
the pixels instead of XORing them (so a lit pixel is never turned off by a lit sprite bit), and the
write of VF panics. -/
theorem C54_partial {n : Byte} (hv : BusView b cpu.address_space mem)
    (hx : x ≠ .Vf) (hy : y ≠ .Vf) (hi : cpu.i.toNat + n.toNat < 65536) :
    ∃ ms f, generate b e cpu (.Drw x y n) = .ok (ms ++ [writeGp .Vf f]) ∧ (f = 0 ∨ f = 1) ∧
      (f = 1 ↔
        Collides cpu.display (rowsAt mem cpu.i) n.toNat (V cpu x).toNat (V cpu y).toNat) ∧
      ∀ t, ∃ d, executeAll b t cpu ms = .ok { cpu with display := d } ∧
        ∀ px py, lit d px py =
          if ((V cpu x).toNat ≤ px ∧ px < (V cpu x).toNat + 8) ∧
              ((V cpu y).toNat ≤ py ∧ py < (V cpu y).toNat + n.toNat) ∧ px < 64 ∧ py < 32 then
            spriteOn (rowsAt mem cpu.i) n.toNat (V cpu x).toNat (V cpu y).toNat px py
          else lit cpu.display px py := by
  have hn : (u16OfU8 n).toNat = n.toNat := by
    unfold u16OfU8
    rw [BitVec.toNat_setWidth]
    have := n.isLt
    omega
  have hsp : drwSprite b cpu n = .ok ((List.range' cpu.i.toNat n.toNat).map
      fun a => mem (BitVec.ofNat 16 a)) := by
    unfold drwSprite
    simp only
    rw [addU16_ok (x := cpu.i) (.inr (by rw [hn]; exact hi)), Res.ok_bind, BitVec.toNat_add, hn,
      Nat.mod_eq_of_lt (by omega), Nat.add_sub_cancel_left]
    exact mapM_ok _ _ _ fun a _ => hv _
  have hrow : ∀ j < n.toNat, (((List.range' cpu.i.toNat n.toNat).map
      fun a => mem (BitVec.ofNat 16 a))[j]?.getD 0) = rowsAt mem cpu.i j := by
    intro j hj
    simp [hj, rowsAt]
  have hbit : ∀ o ∈ Display.offsets n.toNat,
      Display.spriteBit ((((List.range' cpu.i.toNat n.toNat).map
        fun a => mem (BitVec.ofNat 16 a)))[o.2]?.getD 0) o.1 = rowPixel (rowsAt mem cpu.i o.2) o.1 := by
    intro o ho
    obtain ⟨h1, h2⟩ := (Display.mem_offsets _ _).1 ho
    rw [hrow _ h2, Display.spriteBit_eq _ _ h1]
  have hg := drw_fold cpu.display ((List.range' cpu.i.toNat n.toNat).map
    fun a => mem (BitVec.ofNat 16 a)) (V cpu x).toNat (V cpu y).toNat (Display.offsets n.toNat)
    (fun o ho => by simpa using ((Display.mem_offsets _ _).1 ho).2) (false, [])
  refine ⟨_, _, by
    simp only [generate, genDrw, hsp, read_gp hx, read_gp hy, Res.ok_bind]
    rw [hg]
    simp only [Res.ok_bind]
    rfl, ?_, ?_, ?_⟩
  · split <;> simp
  · rw [Bool.false_or]
    constructor
    · intro h
      obtain ⟨o, ho, hp⟩ := List.any_eq_true.1 (Classical.byContradiction fun hc => by
        rw [if_neg hc] at h
        revert h
        decide)
      rw [hbit o ho, Bool.and_eq_true] at hp
      obtain ⟨h1, h2⟩ := (Display.mem_offsets _ _).1 ho
      refine ⟨_, _, ?_, hp.2⟩
      unfold spriteOn
      rw [Bool.and_eq_true, decide_eq_true_iff]
      refine ⟨by omega, ?_⟩
      rw [Nat.add_sub_cancel_left, Nat.add_sub_cancel_left]
      exact hp.1
    · rintro ⟨px, py, h1, h2⟩
      unfold spriteOn at h1
      rw [Bool.and_eq_true, decide_eq_true_iff] at h1
      obtain ⟨⟨⟨h3, h4⟩, h5, h6⟩, h7⟩ := h1
      rw [if_pos]
      refine List.any_eq_true.2 ⟨(px - (V cpu x).toNat, py - (V cpu y).toNat),
        (Display.mem_offsets _ _).2 ⟨by simp only; omega, by simp only; omega⟩, ?_⟩
      rw [hbit _ ((Display.mem_offsets _ _).2 ⟨by simp only; omega, by simp only; omega⟩)]
      simp only
      rw [Nat.add_sub_cancel' h3, Nat.add_sub_cancel' h5, h7, h2]
      rfl
  · intro t
    simp only [List.nil_append]
    refine ⟨_, exec_draw (b := b) t (fun o => Display.spriteBit ((((List.range' cpu.i.toNat n.toNat).map
        fun a => mem (BitVec.ofNat 16 a)))[o.2]?.getD 0) o.1) _ _ _ cpu, fun px py => ?_⟩
    rw [Display.lit_draw]
    by_cases hc : ((V cpu x).toNat ≤ px ∧ px < (V cpu x).toNat + 8) ∧
              ((V cpu y).toNat ≤ py ∧ py < (V cpu y).toNat + n.toNat) ∧ px < 64 ∧ py < 32
    · rw [if_pos hc]
      obtain ⟨⟨h1, h2⟩, ⟨h3, h4⟩, h5, h6⟩ := hc
      have hm : (px - (V cpu x).toNat, py - (V cpu y).toNat) ∈ Display.offsets n.toNat :=
        (Display.mem_offsets _ _).2 ⟨by simp only; omega, by simp only; omega⟩
      rw [if_pos ⟨h1, h3, hm, h5, h6⟩, hbit _ hm]
      unfold spriteOn
      rw [decide_eq_true ⟨⟨h1, h2⟩, h3, h4⟩]
      rfl
    · rw [if_neg hc, if_neg]
      rintro ⟨h1, h3, h2, h5, h6⟩
      obtain ⟨h2, h4⟩ := (Display.mem_offsets _ _).1 h2
      simp only at h2 h4
      exact hc ⟨⟨h1, by omega⟩, ⟨h3, by omega⟩, h5, h6⟩

/-- `sample` draws 5 rows at I = 0x300 with its registers V1 and V2. -/
example : BusView .debug sample.address_space (fun a => sample.address_space.mem a) ∧
    sample.i.toNat + (5 : Byte).toNat < 65536 := ⟨view _ _, by decide⟩

end Verif.Props.Chip8
