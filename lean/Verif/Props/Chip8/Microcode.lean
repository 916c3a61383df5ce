import Verif.Spec.Chip8Microcode
import Verif.Proofs.Chip8Effect
import Verif.Proofs.Chip8Display
import Verif.Proofs.Chip8Sample

/-!
# Property C90: what the microcode operations of the CHIP-8 do
-/

namespace Verif.Props

open Verif Verif.Chip8 Verif.Spec.Chip8
open Verif.Mos (FlatRam)
open Verif.Spec.Mos (writeAll)

/-- C90 for the operations that satisfy `P`: each has its documented effect. The property is
`C90_statement fun _ => True`. -/
def C90_statement (P : Microcode → Prop) : Prop :=
  ∀ (B R : Type) [Addressable B] (b : Build) (now : Instant) (cpu : Chip8 B R) (mc : Microcode),
    P mc → WellFormed cpu → Possible b cpu mc →
    ∃ cpu', executeMut b now cpu mc = .ok cpu' ∧ Documented b now cpu cpu' mc

variable {B R : Type} [Addressable B] {b : Build} {now : Instant} {cpu : Chip8 B R}

private theorem shows_new (now : Instant) (v : Byte) :
    Shows (ClockDecrementing.withValue now v) now v.toNat := by
  intro d
  have := v.isLt
  have h : now + d - now = d := Nat.add_sub_cancel_left (n := now) (m := d)
  unfold timerAt ClockDecrementing.withValue
  rw [BitVec.toNat_ofNat]
  simp only [h]
  omega

/-- The number of a pixel: row by row, from the top left. -/
def pixelNo (p : Nat × Nat) : Nat := 64 * p.2 + p.1

omit [Addressable B] in
private theorem lit_fill (d : Display) (s n : Nat) (v : Bool) {x y : Nat} (hx : x < 64) (hy : y < 32) :
    lit (d.fillRange s n v) x y =
      if s ≤ pixelNo (x, y) ∧ pixelNo (x, y) < s + n then v else lit d x y := by
  unfold lit
  rw [dif_pos ⟨hx, hy⟩, dif_pos ⟨hx, hy⟩]
  simp only [Display.fillRange, Vector.getElem_mapFinIdx, pixelNo]
  rfl

private theorem usize_ok {b : Build} {n : Nat} (h : n < usizeCount) : usizeResult b true n = .ok n := by
  unfold usizeResult
  simp [Nat.mod_eq_of_lt h]

private theorem usize_wraps {b : Build} {f : Bool} {n : Nat} (h : b.overflowChecks = false) :
    usizeResult b f n = .ok (n % usizeCount) := by
  unfold usizeResult
  simp [h]

private theorem start_ok (b : Build) {p : Nat × Nat} (h₁ : p.1 < 64) (h₂ : p.2 < 32) :
    (do let rows ← mulUsize b p.2 Display.xMax; addUsize b rows p.1) = .ok (pixelNo p) := by
  have h : p.2 * Display.xMax + p.1 = pixelNo p := by unfold pixelNo Display.xMax; omega
  have hlt : pixelNo p < 2048 := by unfold pixelNo; omega
  have hx : Display.xMax = 64 := rfl
  unfold mulUsize addUsize
  have hc : usizeCount = 18446744073709551616 := rfl
  rw [decide_eq_true (by omega), usize_ok (by omega), Res.ok_bind, decide_eq_true (by omega),
    usize_ok (by omega), h]

/-- The two numbers of a range in order. -/
private theorem counts_ok (b : Build) {p q : Nat × Nat} (h₁ : p.1 ≤ q.1) (h₂ : q.1 < 64)
    (h₃ : p.2 ≤ q.2) (h₄ : q.2 < 32) :
    rangeCounts b p q = .ok (pixelNo p, pixelNo q - pixelNo p + 1) := by
  have hs := start_ok b (p := p) (by omega) (by omega)
  have hx : Display.xMax = 64 := rfl
  have hc : usizeCount = 18446744073709551616 := rfl
  unfold rangeCounts
  cases hm : mulUsize b p.2 Display.xMax with
  | error e => rw [hm] at hs; cases hs
  | ok n =>
    rw [hm, Res.ok_bind] at hs
    rw [Res.ok_bind, hs, Res.ok_bind]
    have e₁ : subUsize b q.2 p.2 = .ok (q.2 - p.2) := by
      unfold subUsize usizeResult
      rw [decide_eq_true h₃, if_neg (by simp)]
      congr 1
      simp only [hc]
      omega
    have e₂ : subUsize b q.1 p.1 = .ok (q.1 - p.1) := by
      unfold subUsize usizeResult
      rw [decide_eq_true h₁, if_neg (by simp)]
      congr 1
      simp only [hc]
      omega
    have e₃ : mulUsize b (q.2 - p.2) Display.xMax = .ok ((q.2 - p.2) * 64) := by
      unfold mulUsize
      rw [hx, decide_eq_true (by omega), usize_ok (by omega)]
    have e₄ : addUsize b ((q.2 - p.2) * 64) (q.1 - p.1) = .ok ((q.2 - p.2) * 64 + (q.1 - p.1)) := by
      unfold addUsize
      rw [decide_eq_true (by omega), usize_ok (by omega)]
    have e₅ : addUsize b ((q.2 - p.2) * 64 + (q.1 - p.1)) 1 =
        .ok ((q.2 - p.2) * 64 + (q.1 - p.1) + 1) := by
      unfold addUsize
      rw [decide_eq_true (by omega), usize_ok (by omega)]
    rw [e₁, Res.ok_bind, e₃, Res.ok_bind, e₂, Res.ok_bind, e₄, Res.ok_bind, e₅, Res.ok_bind]
    have : (q.2 - p.2) * 64 + (q.1 - p.1) = pixelNo q - pixelNo p := by unfold pixelNo; omega
    rw [this]

/-- What a range in order sets: all pixels from the start to the end, row by row. -/
theorem C90_range_run_partial {p q : Nat × Nat} {v : Bool} (h : Possible b cpu (.SetDisplayRange p q v)) :
    ∃ cpu', executeMut b now cpu (.SetDisplayRange p q v) = .ok cpu' ∧
      PixelEffect cpu cpu' (fun x y => pixelNo p ≤ pixelNo (x, y) ∧ pixelNo (x, y) ≤ pixelNo q) v := by
  obtain ⟨h₁, h₂, h₃, h₄⟩ := h
  refine ⟨_, by simp only [executeMut]; rw [setDisplayRange_eq, counts_ok b h₁ h₂ h₃ h₄]; rfl, _, rfl, ?_⟩
  intro x hx y hy
  have hle : pixelNo p ≤ pixelNo q := by unfold pixelNo; omega
  constructor
  · intro hp
    rw [lit_fill _ _ _ _ hx hy, if_pos (by omega)]
  · intro hp
    rw [lit_fill _ _ _ _ hx hy, if_neg (by omega)]

/-- So a range is as documented, whatever the display shows, exactly when it lies in one row or
spans the full width. -/
theorem C90_range_exact_partial (p q : Nat × Nat) (v : Bool) (c₀ : Chip8 B R)
    (h : Possible b c₀ (.SetDisplayRange p q v)) :
    (∀ d, ∃ cpu', executeMut b now { c₀ with display := d } (.SetDisplayRange p q v) = .ok cpu' ∧
      Documented b now { c₀ with display := d } cpu' (.SetDisplayRange p q v)) ↔
    p.2 = q.2 ∨ (p.1 = 0 ∧ q.1 = 63) := by
  have h' := h
  obtain ⟨h₁, h₂, h₃, h₄⟩ := h'
  constructor
  · intro hall
    by_cases hd : p.2 = q.2 ∨ (p.1 = 0 ∧ q.1 = 63)
    · exact hd
    · exfalso
      -- a pixel in the run and not in the rectangle
      have hw : ∃ x y, x < 64 ∧ y < 32 ∧ pixelNo p ≤ pixelNo (x, y) ∧ pixelNo (x, y) ≤ pixelNo q ∧
          ¬ (p.1 ≤ x ∧ x ≤ q.1 ∧ p.2 ≤ y ∧ y ≤ q.2) := by
        by_cases hq : q.1 = 63
        · exact ⟨p.1 - 1, q.2, by omega, by omega, by unfold pixelNo; simp only; omega,
            by unfold pixelNo; simp only; omega, by omega⟩
        · exact ⟨q.1 + 1, p.2, by omega, by omega, by unfold pixelNo; simp only; omega,
            by unfold pixelNo; simp only; omega, by omega⟩
      obtain ⟨x, y, hx, hy, ha, hb, hn⟩ := hw
      obtain ⟨d, hdark⟩ : ∃ d, ∀ x < 64, ∀ y < 32, lit d x y = !v :=
        ⟨Display.default.fillRange 0 2048 (!v), fun x hx y hy => by
          rw [lit_fill _ _ _ _ hx hy, if_pos ⟨Nat.zero_le _, by unfold pixelNo; simp only; omega⟩]⟩
      obtain ⟨c₁, e₁, d₁, rfl, f₁⟩ := hall d
      obtain ⟨c₂, e₂, d₂, rfl, f₂⟩ := C90_range_run_partial (now := now) (b := b)
        (cpu := { c₀ with display := d }) (v := v) (p := p) (q := q) h
      have hdd : d₁ = d₂ := by
        have := Except.ok.inj (e₁.symm.trans e₂)
        exact congrArg Chip8.display this
      subst hdd
      have k₁ := (f₁ x hx y hy).2 hn
      have k₂ := (f₂ x hx y hy).1 ⟨ha, hb⟩
      rw [k₂] at k₁
      have k₄ : v = lit d x y := k₁
      rw [hdark x hx y hy] at k₄
      cases v <;> cases k₄
  · intro hd dd
    obtain ⟨c₂, e₂, d₂, rfl, f₂⟩ := C90_range_run_partial (now := now) (b := b)
      (cpu := { c₀ with display := dd }) (v := v) (p := p) (q := q) h
    refine ⟨_, e₂, d₂, rfl, fun x hx y hy => ?_⟩
    have key : (p.1 ≤ x ∧ x ≤ q.1 ∧ p.2 ≤ y ∧ y ≤ q.2) ↔
        (pixelNo p ≤ pixelNo (x, y) ∧ pixelNo (x, y) ≤ pixelNo q) := by
      unfold pixelNo
      simp only
      omega
    exact ⟨fun hp => (f₂ x hx y hy).1 (key.1 hp), fun hp => (f₂ x hx y hy).2 (fun hk => hp (key.2 hk))⟩

/-- The operations that do what their comments say. -/
def AsDocumented : Microcode → Prop
  | .Dec8bitRegister _ _ | .Dec16bitRegister _ _ | .PushStack _ | .PopStack _ => False
  | .SetDisplayRange p q _ => p.2 = q.2 ∨ (p.1 = 0 ∧ q.1 = 63)
  | _ => True

/-- C90, partial: writes, increments, keys, pixels and ranges of whole rows are as documented.
Missing: decrements, the stack and the other ranges, which are not. -/
theorem C90_partial : C90_statement AsDocumented := by
  intro B R _ b now cpu mc hp hw hposs
  have hof : ∀ v : Byte, BitVec.ofNat 8 v.toNat = v := fun v => by simp
  have hof16 : ∀ v : Word, BitVec.ofNat 16 v.toNat = v := fun v => by simp
  cases mc with
  | WriteMemory a v =>
    obtain ⟨bus, hbus⟩ := hposs
    refine ⟨{ cpu with address_space := bus }, ?_, bus, hbus, rfl⟩
    simp only [executeMut, writeMemory]
    simp only [writeAll] at hbus
    cases hx : Addressable.write b cpu.address_space a v with
    | error p => rw [hx] at hbus; cases hbus
    | ok x =>
      obtain ⟨r, bus'⟩ := x
      rw [hx] at hbus
      cases r with
      | error e => cases hbus
      | ok u => cases hbus; rfl
  | Write8bitRegister r v =>
    cases r with
    | GpRegisters g =>
      have hg : g ≠ .Vf := fun h => hposs (by rw [h])
      refine ⟨_, by simp only [executeMut, write8, set_gp hg, Res.ok_bind]; rfl, ?_⟩
      show _ = setV cpu g _
      rw [hof]
      rfl
    | TimerRegisters t => cases t <;> exact ⟨_, rfl, _, rfl, shows_new now v⟩
  | Inc8bitRegister r v =>
    have hmod : ∀ a : Byte, (a.toNat + v.toNat) % 256 = (a + v).toNat := fun a =>
      (BitVec.toNat_add a v).symm
    cases r with
    | GpRegisters g =>
      have hg : g ≠ .Vf := fun h => hposs (by rw [h])
      refine ⟨_, by simp only [executeMut, inc8, read_gp hg, set_gp hg, Res.ok_bind]; rfl, ?_⟩
      show _ = setV cpu g _
      simp only [hmod, hof]
      rfl
    | TimerRegisters t =>
      cases t
      all_goals
        refine ⟨_, by simp only [executeMut, inc8, timer_read, Res.ok_bind]; rfl, _, rfl, ?_⟩
        simp only [hmod]
        exact shows_new now _
  | Dec8bitRegister r v => exact hp.elim
  | Write16bitRegister r v =>
    cases r <;> refine ⟨_, rfl, ?_⟩ <;> simp only [Documented, WordEffect, hof16]
  | Inc16bitRegister r v =>
    have hmod : ∀ a : Word, (a.toNat + v.toNat) % 65536 = (a + v).toNat := fun a =>
      (BitVec.toNat_add a v).symm
    cases r <;> refine ⟨_, rfl, ?_⟩ <;> simp only [Documented, WordEffect, hmod, hof16]
  | Dec16bitRegister r v => exact hp.elim
  | PushStack v => exact hp.elim
  | PopStack v => exact hp.elim
  | KeyPress k => exact ⟨_, rfl, rfl⟩
  | KeyRelease => exact ⟨_, rfl, rfl⟩
  | SetDisplayPixel p v =>
    obtain ⟨px, py⟩ := p
    refine ⟨_, rfl, _, rfl, fun x hx y hy => ?_⟩
    rw [Display.lit_writePixel]
    constructor
    · intro h
      cases h
      simp [hx, hy]
    · intro h
      rw [if_neg]
      rintro ⟨rfl, rfl, -, -⟩
      exact h rfl
  | SetDisplayRange p q v => exact (C90_range_exact_partial p q v cpu hposs).2 hp cpu.display

/-- Decrements do nothing. -/
theorem C90_dec_partial (r : ByteRegisters) (v : Byte) (r' : WordRegisters) (v' : Word) :
    executeMut b now cpu (.Dec8bitRegister r v) = .ok cpu ∧
    executeMut b now cpu (.Dec16bitRegister r' v') = .ok cpu := ⟨rfl, rfl⟩

/-- A push overwrites the cell of the stack pointer and leaves the pointer; a pop does nothing. -/
theorem C90_stack_partial (hw : WellFormed cpu) (v w : Word) :
    executeMut b now cpu (.PushStack v) = .ok { cpu with stack :=
      { cpu.stack with inner := cpu.stack.inner.set (cpu.sp.inner.toNat % 16) v } } ∧
    executeMut b now cpu (.PopStack w) = .ok cpu := by
  refine ⟨?_, rfl⟩
  simp only [executeMut, pushStack, stack_write hw, Res.ok_bind]
  rfl

/-- A range with its ends on the screen but out of order: builds with overflow checks panic. Builds
without set the run when its last pixel is not before its first, nothing when the ends just miss
each other, and else everything from the start on. -/
theorem C90_range_reversed_partial {p q : Nat × Nat} {v : Bool} (hp : p.1 < 64 ∧ p.2 < 32)
    (hq : q.1 < 64 ∧ q.2 < 32) (hr : q.1 < p.1 ∨ q.2 < p.2) :
    (b.overflowChecks = true → executeMut b now cpu (.SetDisplayRange p q v) = .error .overflow) ∧
    (b.overflowChecks = false → ∃ cpu', executeMut b now cpu (.SetDisplayRange p q v) = .ok cpu' ∧
      PixelEffect cpu cpu' (fun x y => pixelNo p ≤ pixelNo (x, y) ∧
        (pixelNo (x, y) ≤ pixelNo q ∨ pixelNo q + 1 < pixelNo p)) v) := by
  have hs := start_ok b (p := p) hp.1 hp.2
  have hx : Display.xMax = 64 := rfl
  have hc : usizeCount = 18446744073709551616 := rfl
  obtain ⟨n, hm, hn⟩ : ∃ n, mulUsize b p.2 Display.xMax = .ok n ∧ addUsize b n p.1 = .ok (pixelNo p) := by
    cases hm : mulUsize b p.2 Display.xMax with
    | error e => rw [hm] at hs; cases hs
    | ok n => rw [hm] at hs; exact ⟨n, rfl, hs⟩
  constructor
  · intro hb
    have key : rangeCounts b p q = .error .overflow := by
      unfold rangeCounts
      rw [hm, Res.ok_bind, hn, Res.ok_bind]
      by_cases h₂ : q.2 < p.2
      · have : subUsize b q.2 p.2 = .error .overflow := by
          unfold subUsize usizeResult
          rw [decide_eq_false (by omega), if_pos ⟨hb, rfl⟩]
        rw [this]
        rfl
      · have e₁ : subUsize b q.2 p.2 = .ok (q.2 - p.2) := by
          unfold subUsize usizeResult
          rw [decide_eq_true (by omega), if_neg (by simp)]
          congr 1
          simp only [hc]
          omega
        have e₃ : mulUsize b (q.2 - p.2) Display.xMax = .ok ((q.2 - p.2) * 64) := by
          unfold mulUsize
          rw [hx, decide_eq_true (by omega), usize_ok (by omega)]
        have e₂ : subUsize b q.1 p.1 = .error .overflow := by
          unfold subUsize usizeResult
          rw [decide_eq_false (by omega), if_pos ⟨hb, rfl⟩]
        rw [e₁, Res.ok_bind, e₃, Res.ok_bind, e₂]
        rfl
    simp only [executeMut]
    rw [setDisplayRange_eq, key]
    rfl
  · intro hb
    have key : ∃ k, rangeCounts b p q = .ok (pixelNo p, k) ∧
        (pixelNo p ≤ pixelNo q + 1 → pixelNo p + k = pixelNo q + 1) ∧
        (pixelNo q + 1 < pixelNo p → 2048 ≤ k) := by
      unfold rangeCounts
      rw [hm, Res.ok_bind, hn, Res.ok_bind]
      simp only [subUsize, mulUsize, addUsize, usize_wraps hb, Res.ok_bind]
      refine ⟨_, rfl, ?_⟩
      simp only [hc, hx]
      unfold pixelNo
      omega
    obtain ⟨k, hk, k₁, k₂⟩ := key
    refine ⟨_, by simp only [executeMut]; rw [setDisplayRange_eq, hk]; rfl, _, rfl, ?_⟩
    intro x hx' y hy'
    have hlt : pixelNo (x, y) < 2048 := by unfold pixelNo; simp only; omega
    rw [lit_fill _ _ _ _ hx' hy']
    constructor
    · intro h
      rw [if_pos (by omega)]
    · intro h
      rw [if_neg (by omega)]

/-- The numbers computed for a range all fit into 64 bits. -/
def FitsRange (p q : Nat × Nat) : Prop :=
  p.1 ≤ q.1 ∧ p.2 ≤ q.2 ∧ pixelNo p < 2 ^ 64 ∧ pixelNo q + 1 < pixelNo p + 2 ^ 64

private theorem usize_panics {b : Build} {n : Nat} (h : b.overflowChecks = true) :
    usizeResult b false n = .error .overflow := by
  unfold usizeResult
  simp [h]

/-- Any two ends whatsoever: builds with overflow checks panic unless all numbers fit; otherwise the
pixels are set whose number is at least the start's modulo 2^64, and less than that plus the length of
the run modulo 2^64. -/
theorem C90_range_any_partial {p q : Nat × Nat} {v : Bool} (hp : p.1 < 2 ^ 64 ∧ p.2 < 2 ^ 64)
    (hq : q.1 < 2 ^ 64 ∧ q.2 < 2 ^ 64) :
    (b.overflowChecks = true → ¬ FitsRange p q →
      executeMut b now cpu (.SetDisplayRange p q v) = .error .overflow) ∧
    (b.overflowChecks = false ∨ FitsRange p q → ∃ cpu',
      executeMut b now cpu (.SetDisplayRange p q v) = .ok cpu' ∧
      PixelEffect cpu cpu' (fun x y => pixelNo p % 2 ^ 64 ≤ pixelNo (x, y) ∧
        (pixelNo (x, y) : Int) < pixelNo p % 2 ^ 64 + ((pixelNo q : Int) + 1 - pixelNo p) % 2 ^ 64) v) := by
  have hx : Display.xMax = 64 := rfl
  have hc : usizeCount = 18446744073709551616 := rfl
  have hpow : (2 : Nat) ^ 64 = 18446744073709551616 := rfl
  have hpow' : (2 : Int) ^ 64 = 18446744073709551616 := rfl
  obtain ⟨p1, p2⟩ := p
  obtain ⟨q1, q2⟩ := q
  simp only [hpow] at hp hq
  constructor
  · intro hb hn
    have key : rangeCounts b (p1, p2) (q1, q2) = .error .overflow := by
      unfold FitsRange pixelNo at hn
      simp only [hpow] at hn
      unfold rangeCounts
      simp only [subUsize, mulUsize, addUsize, hx]
      by_cases g₁ : p2 * 64 < usizeCount
      swap
      · rw [decide_eq_false g₁, usize_panics hb]; rfl
      rw [decide_eq_true g₁, usize_ok g₁, Res.ok_bind]
      by_cases g₂ : p2 * 64 + p1 < usizeCount
      swap
      · rw [decide_eq_false g₂, usize_panics hb]; rfl
      rw [decide_eq_true g₂, usize_ok g₂, Res.ok_bind]
      by_cases g₃ : p2 ≤ q2
      swap
      · rw [decide_eq_false g₃, usize_panics hb]; rfl
      have e₃ : usizeResult b true (q2 + (usizeCount - p2)) = .ok (q2 - p2) := by
        unfold usizeResult
        rw [if_neg (by simp)]
        congr 1
        simp only [hc]
        omega
      rw [decide_eq_true g₃, e₃, Res.ok_bind]
      by_cases g₄ : (q2 - p2) * 64 < usizeCount
      swap
      · rw [decide_eq_false g₄, usize_panics hb]; rfl
      rw [decide_eq_true g₄, usize_ok g₄, Res.ok_bind]
      by_cases g₅ : p1 ≤ q1
      swap
      · rw [decide_eq_false g₅, usize_panics hb]; rfl
      have e₅ : usizeResult b true (q1 + (usizeCount - p1)) = .ok (q1 - p1) := by
        unfold usizeResult
        rw [if_neg (by simp)]
        congr 1
        simp only [hc]
        omega
      rw [decide_eq_true g₅, e₅, Res.ok_bind]
      by_cases g₆ : (q2 - p2) * 64 + (q1 - p1) < usizeCount
      swap
      · rw [decide_eq_false g₆, usize_panics hb]; rfl
      rw [decide_eq_true g₆, usize_ok g₆, Res.ok_bind]
      by_cases g₇ : (q2 - p2) * 64 + (q1 - p1) + 1 < usizeCount
      swap
      · rw [decide_eq_false g₇, usize_panics hb]; rfl
      exfalso
      apply hn
      rw [hc] at g₂ g₇
      refine ⟨g₅, g₃, ?_, ?_⟩ <;> omega
    simp only [executeMut]
    rw [setDisplayRange_eq, key]
    rfl
  · intro hor
    have key : ∃ k, rangeCounts b (p1, p2) (q1, q2) = .ok (pixelNo (p1, p2) % 2 ^ 64, k) ∧
        (k : Int) = ((pixelNo (q1, q2) : Int) + 1 - pixelNo (p1, p2)) % 2 ^ 64 := by
      have all : ∀ {f : Bool} {n : Nat}, (FitsRange (p1, p2) (q1, q2) → f = true) →
          usizeResult b f n = .ok (n % usizeCount) := by
        intro f n hf
        rcases hor with hb | hfit
        · exact usize_wraps hb
        · rw [hf hfit]
          unfold usizeResult
          rw [if_neg (by simp)]
      have g : FitsRange (p1, p2) (q1, q2) → p1 ≤ q1 ∧ p2 ≤ q2 ∧ p2 * 64 + p1 < usizeCount ∧
          (q2 - p2) * 64 + (q1 - p1) + 1 < usizeCount := by
        rintro ⟨h₁, h₂, h₃, h₄⟩
        unfold pixelNo at h₃ h₄
        simp only [hpow, hc] at h₁ h₂ h₃ h₄ ⊢
        refine ⟨h₁, h₂, ?_, ?_⟩ <;> omega
      have m₃ : FitsRange (p1, p2) (q1, q2) → (q2 + (usizeCount - p2)) % usizeCount = q2 - p2 := by
        intro h
        obtain ⟨h₁, h₂, h₃, h₄⟩ := g h
        simp only [hc]
        omega
      have m₅ : FitsRange (p1, p2) (q1, q2) → (q1 + (usizeCount - p1)) % usizeCount = q1 - p1 := by
        intro h
        obtain ⟨h₁, h₂, h₃, h₄⟩ := g h
        simp only [hc]
        omega
      unfold rangeCounts
      simp only [subUsize, mulUsize, addUsize, hx]
      rw [all (fun h => by
          obtain ⟨h₁, h₂, h₃, h₄⟩ := g h
          exact decide_eq_true (by omega)), Res.ok_bind,
        all (fun h => by
          obtain ⟨h₁, h₂, h₃, h₄⟩ := g h
          rw [Nat.mod_eq_of_lt (show p2 * 64 < usizeCount by omega)]
          exact decide_eq_true h₃), Res.ok_bind,
        all (fun h => decide_eq_true (g h).2.1), Res.ok_bind,
        all (fun h => by
          obtain ⟨h₁, h₂, h₃, h₄⟩ := g h
          rw [m₃ h]
          exact decide_eq_true (by omega)), Res.ok_bind,
        all (fun h => decide_eq_true (g h).1), Res.ok_bind,
        all (fun h => by
          obtain ⟨h₁, h₂, h₃, h₄⟩ := g h
          rw [m₃ h, m₅ h, Nat.mod_eq_of_lt (show (q2 - p2) * 64 < usizeCount by omega)]
          exact decide_eq_true (by omega)), Res.ok_bind,
        all (fun h => by
          obtain ⟨h₁, h₂, h₃, h₄⟩ := g h
          rw [m₃ h, m₅ h, Nat.mod_eq_of_lt (show (q2 - p2) * 64 < usizeCount by omega),
            Nat.mod_eq_of_lt (show (q2 - p2) * 64 + (q1 - p1) < usizeCount by omega)]
          exact decide_eq_true (by omega)), Res.ok_bind]
      refine ⟨_, congrArg (fun n => Except.ok (n, _)) ?_, ?_⟩
      · unfold pixelNo
        simp only [hc, hpow]
        omega
      · unfold pixelNo
        simp only [hc, hpow']
        omega
    obtain ⟨k, hk, hk'⟩ := key
    refine ⟨_, by simp only [executeMut]; rw [setDisplayRange_eq, hk]; rfl, _, rfl, ?_⟩
    intro x hx' y hy'
    rw [lit_fill _ _ _ _ hx' hy', ← hk']
    constructor
    · intro h
      rw [if_pos (by omega)]
    · intro h
      rw [if_neg (by omega)]

/-! ## The refutations -/

/-- C90 is false: a decrement of V1 by 1 leaves it. -/
theorem C90_dec8_is_ignored : ¬ C90_statement (fun mc => ∃ r v, mc = .Dec8bitRegister r v) := by
  intro h
  obtain ⟨c, h₁, h₂⟩ := h FlatRam Unit .debug 0 sample (.Dec8bitRegister (.GpRegisters .V1) 1)
    ⟨_, _, rfl⟩ sample_wellFormed (by intro h; cases h)
  cases h₁
  have := congrArg (fun c => V c .V1) h₂
  revert this
  decide

/-- C90 is false: a decrement of I by 1 leaves it. -/
theorem C90_dec16_is_ignored : ¬ C90_statement (fun mc => ∃ r v, mc = .Dec16bitRegister r v) := by
  intro h
  obtain ⟨c, h₁, h₂⟩ := h FlatRam Unit .debug 0 sample (.Dec16bitRegister .I 1)
    ⟨_, _, rfl⟩ sample_wellFormed trivial
  cases h₁
  have := congrArg Chip8.i h₂
  revert this
  decide

/-- C90 is false: a push does not move the stack pointer. -/
theorem C90_push_keeps_sp : ¬ C90_statement (fun mc => ∃ v, mc = .PushStack v) := by
  intro h
  obtain ⟨c, h₁, h₂, -⟩ := h FlatRam Unit .debug 0 sample (.PushStack 0x222) ⟨_, rfl⟩
    sample_wellFormed trivial
  rw [(C90_stack_partial sample_wellFormed 0x222 0).1] at h₁
  cases h₁
  revert h₂
  decide

/-- C90 is false: a pop does not move the stack pointer. -/
theorem C90_pop_keeps_sp : ¬ C90_statement (fun mc => ∃ v, mc = .PopStack v) := by
  intro h
  obtain ⟨c, h₁, h₂, -⟩ := h FlatRam Unit .debug 0 sample (.PopStack 0x222) ⟨_, rfl⟩
    sample_wellFormed trivial
  cases h₁
  revert h₂
  decide

/-- C90 is false: the range from (0, 0) to (0, 1) is not a column of two pixels. -/
theorem C90_range_is_a_run : ¬ C90_statement (fun mc => ∃ p q v, mc = .SetDisplayRange p q v) := by
  intro h
  have hp : Possible (B := FlatRam) (R := Unit) .debug sample (.SetDisplayRange (0, 0) (0, 1) true) := by
    refine ⟨?_, ?_, ?_, ?_⟩ <;> decide
  have := (C90_range_exact_partial (now := 0) (0, 0) (0, 1) true sample hp).1 fun d =>
    h FlatRam Unit .debug 0 { sample with display := d } _ ⟨_, _, _, rfl⟩ sample_wellFormed hp
  revert this
  decide

/-- Hence C90 as it stands is false. -/
theorem C90_false : ¬ C90_statement (fun _ => True) := fun h =>
  C90_pop_keeps_sp fun B R _ b now cpu mc _ hw hp => h B R b now cpu mc trivial hw hp

/-! ## Cases that meet the hypotheses -/

/-- An increment past 255, a timer, a whole row and a pixel. -/
example : AsDocumented (.Inc8bitRegister (.GpRegisters .V1) 5) ∧
    Possible (R := Unit) .debug sample (.Inc8bitRegister (.GpRegisters .V1) 5) ∧
    AsDocumented (.Inc8bitRegister (.TimerRegisters .Delay) 5) ∧
    Possible (R := Unit) .debug sample (.WriteMemory 0x300 7) ∧
    AsDocumented (.SetDisplayRange (0, 3) (63, 9) true) ∧
    Possible (R := Unit) .debug sample (.SetDisplayRange (0, 3) (63, 9) true) :=
  ⟨trivial, (by intro h; cases h), trivial, ⟨_, rfl⟩, .inr ⟨rfl, rfl⟩,
    by refine ⟨?_, ?_, ?_, ?_⟩ <;> decide⟩

/-- Ends far outside: 64 · 2^58 does not fit, 64 · (2^58 - 1) + 63 just does. -/
example : ¬ FitsRange (0, 0) (0, 2 ^ 58) ∧ FitsRange (0, 0) (62, 2 ^ 58 - 1) ∧
    (executeMut .debug 0 sample (.SetDisplayRange (0, 2 ^ 58) (0, 2 ^ 58) true)).map
      (fun c => lit c.display 0 0) = .error .overflow ∧
    (executeMut .release 0 sample (.SetDisplayRange (3, 2 ^ 58) (3, 2 ^ 58) true)).map
      (fun c => (lit c.display 3 0, lit c.display 4 0)) = .ok (true, false) := by
  refine ⟨?_, ?_, ?_, ?_⟩
  · unfold FitsRange pixelNo; decide
  · unfold FitsRange pixelNo; decide
  · decide +kernel
  · decide +kernel

/-- V1 is 0xfe: five more is 3. -/
example : (executeMut .debug 0 sample (.Inc8bitRegister (.GpRegisters .V1) 5)).map (V · .V1) = .ok 3 := by
  decide +kernel

/-- A range out of order in the two builds: from (60, 2) to (3, 3) the run of eight pixels. -/
example : (executeMut .debug 0 sample (.SetDisplayRange (60, 2) (3, 3) true)).map
      (fun c => lit c.display 61 2) = .error .overflow ∧
    (executeMut .release 0 sample (.SetDisplayRange (60, 2) (3, 3) true)).map
      (fun c => (lit c.display 61 2, lit c.display 3 3, lit c.display 4 3)) =
      .ok (true, true, false) := by
  constructor <;> decide +kernel

end Verif.Props
