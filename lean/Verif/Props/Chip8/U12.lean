import Verif.Proofs.Chip8Decode

/-!
# CHIP-8: 12-bit integers (C39)

A 12-bit value is a `U12` whose number is below 4096 (`Fits`). `u12::new` and the other
constructors give nothing else, so every `u12` of a running program is one.
-/

namespace Verif.Chip8

open Verif

namespace U12

/-- The number of a 12-bit value. -/
abbrev num (x : U12) : Nat := x.val.toNat

/-- The number fits 12 bits. -/
def Fits (x : U12) : Prop := x.num < 4096

instance (x : U12) : Decidable x.Fits := inferInstanceAs (Decidable (_ < _))

theorem maskU16_toNat (x : Word) : (maskU16 x).toNat = x.toNat % 4096 := by
  unfold maskU16
  rw [BitVec.toNat_and]
  exact Nat.and_two_pow_sub_one_eq_mod x.toNat 12

theorem new_of_lt (x : Word) (h : x.toNat < 4096) : new x = .ok ⟨x⟩ := by
  unfold new
  rw [if_neg]
  show ¬ x.toNat > 4095
  omega

theorem new_of_ge (x : Word) (h : 4096 ≤ x.toNat) :
    new x = .error (.explicit "this value will overflow") := by
  unfold new
  rw [if_pos]
  show x.toNat > 4095
  omega

theorem new_mask (x : Word) : new (maskU16 x) = .ok ⟨maskU16 x⟩ :=
  new_of_lt _ (by rw [maskU16_toNat]; omega)

theorem ext_num {x y : U12} (h : x.num = y.num) : x = y := by
  cases x; cases y; simp only [U12.mk.injEq]; exact BitVec.eq_of_toNat_eq h

/-- C39: checked construction succeeds exactly on the 12-bit numbers, keeps the number and panics
on all others; converting back gives the number. -/
theorem C39_new (w : Word) :
    (w.toNat < 4096 → ∃ x, new w = .ok x ∧ x.Fits ∧ x.toU16 = w) ∧
    (4096 ≤ w.toNat → ∃ p, new w = .error p) := by
  refine ⟨fun h => ⟨⟨w⟩, new_of_lt w h, h, rfl⟩, fun h => ⟨_, new_of_ge w h⟩⟩

/-- C39: construction from three nibbles takes the low four bits of each, most significant first,
never panics, and round-trips. -/
theorem C39_nibbles (n0 n1 n2 : Byte) :
    ∃ x, ofNibbles n0 n1 n2 = .ok x ∧ fromBeNibbles n0 n1 n2 = .ok x ∧ x.Fits ∧
      x.num / 256 = n0.toNat % 16 ∧ x.num / 16 % 16 = n1.toNat % 16 ∧ x.num % 16 = n2.toNat % 16 := by
  obtain ⟨x, hx, hn⟩ := ofNibbles_ok n0 n1 n2
  have hb : fromBeNibbles n0 n1 n2 = ofNibbles n0 n1 n2 := by
    have key : ∀ n : Byte, (n &&& 0x0f) &&& 0x0f = n &&& 0x0f := by decide +kernel
    unfold fromBeNibbles ofNibbles
    simp only [key]
  refine ⟨x, hx, hb.trans hx, ?_, ?_, ?_, ?_⟩
  · unfold Fits num; omega
  all_goals (unfold num; omega)

/-- C39: every 12-bit value is the construction from its nibbles. -/
theorem C39_nibbles_onto (x : U12) (h : x.Fits) :
    ofNibbles (BitVec.ofNat 8 (x.num / 256)) (BitVec.ofNat 8 (x.num / 16 % 16))
      (BitVec.ofNat 8 (x.num % 16)) = .ok x := by
  obtain ⟨y, hy, hn⟩ := ofNibbles_ok (BitVec.ofNat 8 (x.num / 256))
    (BitVec.ofNat 8 (x.num / 16 % 16)) (BitVec.ofNat 8 (x.num % 16))
  rw [hy, ext_num (x := y) (y := x)]
  rw [BitVec.toNat_ofNat, BitVec.toNat_ofNat, BitVec.toNat_ofNat] at hn
  unfold Fits num at h
  unfold num at hn ⊢
  omega

/-- C39: the wrapping operators are arithmetic modulo 4096 and never panic. -/
theorem C39_wrapping (x y : U12) (hx : x.Fits) (hy : y.Fits) :
    (∃ s, x.wrappingAdd y = .ok s ∧ s.Fits ∧ s.num = (x.num + y.num) % 4096) ∧
    (∃ d, x.wrappingSub y = .ok d ∧ d.Fits ∧ (d.num + y.num) % 4096 = x.num) := by
  unfold Fits num at *
  refine ⟨⟨_, new_mask _, ?_, ?_⟩, ⟨_, new_mask _, ?_, ?_⟩⟩
  · show (maskU16 _).toNat < _; rw [maskU16_toNat]; omega
  · show (maskU16 _).toNat = _; rw [maskU16_toNat, BitVec.toNat_add]; omega
  · show (maskU16 _).toNat < _; rw [maskU16_toNat]; omega
  · show ((maskU16 _).toNat + _) % 4096 = _; rw [maskU16_toNat, BitVec.toNat_sub]; omega

/-- C39: wrapping addition and subtraction undo each other. -/
theorem C39_inverse (x y : U12) (hx : x.Fits) (hy : y.Fits) :
    (∃ s, x.wrappingAdd y = .ok s ∧ s.wrappingSub y = .ok x) ∧
    (∃ d, x.wrappingSub y = .ok d ∧ d.wrappingAdd y = .ok x) := by
  obtain ⟨⟨s, hs, hsf, hsn⟩, ⟨d, hd, hdf, hdn⟩⟩ := C39_wrapping x y hx hy
  refine ⟨⟨s, hs, ?_⟩, ⟨d, hd, ?_⟩⟩
  · obtain ⟨-, e, he, hef, hen⟩ := C39_wrapping s y hsf hy
    rw [he, ext_num (x := e) (y := x)]
    unfold Fits num at *
    omega
  · obtain ⟨⟨e, he, hef, hen⟩, -⟩ := C39_wrapping d y hdf hy
    rw [he, ext_num (x := e) (y := x)]
    unfold Fits num at *
    omega

/-- C39: `+` gives the exact sum and panics exactly when it does not fit, in every build. -/
theorem C39_add (b : Build) (x y : U12) (hx : x.Fits) (hy : y.Fits) :
    (x.num + y.num < 4096 → ∃ s, x.add b y = .ok s ∧ s.Fits ∧ s.num = x.num + y.num) ∧
    (4096 ≤ x.num + y.num → ∃ p, x.add b y = .error p) := by
  unfold Fits num at *
  have hs : (x.val + y.val).toNat = x.val.toNat + y.val.toNat := by
    rw [BitVec.toNat_add]; omega
  have ha : addU16 b x.val y.val = .ok (x.val + y.val) := by
    unfold addU16; rw [if_neg (by omega)]
  refine ⟨fun h => ⟨⟨x.val + y.val⟩, ?_, ?_, hs⟩, fun h => ?_⟩
  · unfold add
    rw [ha, Res.ok_bind, if_neg, new_of_lt _ (by omega)]
    show ¬ (x.val + y.val).toNat > 4095
    omega
  · show (x.val + y.val).toNat < _; omega
  · unfold add
    rw [ha, Res.ok_bind, if_pos]
    · exact ⟨_, rfl⟩
    · show (x.val + y.val).toNat > 4095
      omega

/-- C39: `-` gives the exact difference when there is one. Below zero a checked build panics and
an unchecked build gives the difference modulo 4096. -/
theorem C39_sub (b : Build) (x y : U12) (hx : x.Fits) (hy : y.Fits) :
    (y.num ≤ x.num → ∃ d, x.sub b y = .ok d ∧ d.Fits ∧ d.num + y.num = x.num) ∧
    (x.num < y.num → b.overflowChecks = true → ∃ p, x.sub b y = .error p) ∧
    (x.num < y.num → b.overflowChecks = false →
      ∃ d, x.sub b y = .ok d ∧ d.Fits ∧ d.num + y.num = x.num + 4096) := by
  unfold Fits num at *
  unfold sub subU16 mask
  refine ⟨fun h => ?_, fun h hb => ?_, fun h hb => ?_⟩
  · rw [if_neg (by omega)]
    refine ⟨_, new_mask _, ?_, ?_⟩
    · show (maskU16 _).toNat < _; rw [maskU16_toNat]; omega
    · show (maskU16 _).toNat + _ = _
      rw [maskU16_toNat]
      show (x.val - y.val).toNat % 4096 + _ = _
      rw [BitVec.toNat_sub]; omega
  · rw [if_pos ⟨hb, h⟩]
    exact ⟨_, rfl⟩
  · rw [if_neg (by rw [hb]; simp)]
    refine ⟨_, new_mask _, ?_, ?_⟩
    · show (maskU16 _).toNat < _; rw [maskU16_toNat]; omega
    · show (maskU16 _).toNat + _ = _
      rw [maskU16_toNat]
      show (x.val - y.val).toNat % 4096 + _ = _
      rw [BitVec.toNat_sub]; omega

/-- C39: the bit operators and shifts stay in range; a shift of 16 or more panics in a checked
build only. -/
theorem C39_bits (b : Build) (x y : U12) (hx : x.Fits) (hy : y.Fits) :
    (∃ r, x.bitAnd y = .ok r ∧ r.Fits ∧ r.num = x.num &&& y.num) ∧
    (∃ r, x.bitOr y = .ok r ∧ r.Fits ∧ r.num = x.num ||| y.num) ∧
    (y.num < 16 → ∃ r, x.shl b y = .ok r ∧ r.Fits ∧ r.num = x.num * 2 ^ y.num % 4096) ∧
    (y.num < 16 → ∃ r, x.shr b y = .ok r ∧ r.Fits ∧ r.num = x.num / 2 ^ y.num) ∧
    (16 ≤ y.num → b.overflowChecks = true →
      (∃ p, x.shl b y = .error p) ∧ ∃ p, x.shr b y = .error p) := by
  unfold Fits num at *
  refine ⟨⟨_, new_mask _, ?_, ?_⟩, ⟨_, new_mask _, ?_, ?_⟩, fun h => ?_, fun h => ?_, fun h hb => ?_⟩
  · show (maskU16 _).toNat < _; rw [maskU16_toNat]; omega
  · show (maskU16 _).toNat = _
    rw [maskU16_toNat]
    show (x.val &&& y.val).toNat % 4096 = _
    rw [BitVec.toNat_and]
    exact Nat.mod_eq_of_lt (Nat.lt_of_le_of_lt Nat.and_le_left hx)
  · show (maskU16 _).toNat < _; rw [maskU16_toNat]; omega
  · show (maskU16 _).toNat = _
    rw [maskU16_toNat]
    show (x.val ||| y.val).toNat % 4096 = _
    rw [BitVec.toNat_or]
    exact Nat.mod_eq_of_lt (Nat.or_lt_two_pow (n := 12) hx hy)
  · unfold shl shlU16 mask
    rw [if_neg (by omega)]
    refine ⟨_, new_mask _, ?_, ?_⟩
    · show (maskU16 _).toNat < _; rw [maskU16_toNat]; omega
    · show (maskU16 _).toNat = _
      rw [maskU16_toNat]
      show (x.val <<< (y.val.toNat % 16)).toNat % 4096 = _
      rw [BitVec.toNat_shiftLeft, Nat.mod_eq_of_lt h, Nat.shiftLeft_eq]
      omega
  · unfold shr shrU16 mask
    rw [if_neg (by omega)]
    refine ⟨_, new_mask _, ?_, ?_⟩
    · show (maskU16 _).toNat < _; rw [maskU16_toNat]; omega
    · show (maskU16 _).toNat = _
      rw [maskU16_toNat]
      show (x.val >>> (y.val.toNat % 16)).toNat % 4096 = _
      rw [BitVec.toNat_ushiftRight, Nat.mod_eq_of_lt h, Nat.shiftRight_eq_div_pow]
      exact Nat.mod_eq_of_lt (Nat.lt_of_le_of_lt (Nat.div_le_self _ _) hx)
  · unfold shl shlU16 shr shrU16
    rw [if_pos ⟨hb, h⟩, if_pos ⟨hb, h⟩]
    exact ⟨⟨_, rfl⟩, ⟨_, rfl⟩⟩

/-- C39: in a build without overflow checks no shift panics: a shift of 16 or more shifts by its
amount modulo 16, and the result still has 12 bits. -/
theorem C39_shift_unchecked (b : Build) (hb : b.overflowChecks = false) (x y : U12) (hx : x.Fits) :
    (∃ r, x.shl b y = .ok r ∧ r.Fits ∧ r.num = x.num * 2 ^ (y.num % 16) % 4096) ∧
    (∃ r, x.shr b y = .ok r ∧ r.Fits ∧ r.num = x.num / 2 ^ (y.num % 16)) := by
  unfold Fits num at *
  refine ⟨?_, ?_⟩
  · unfold shl shlU16 mask
    rw [if_neg (by simp [hb])]
    refine ⟨_, new_mask _, ?_, ?_⟩
    · show (maskU16 _).toNat < _; rw [maskU16_toNat]; omega
    · show (maskU16 _).toNat = _
      rw [maskU16_toNat]
      show (x.val <<< (y.val.toNat % 16)).toNat % 4096 = _
      rw [BitVec.toNat_shiftLeft, Nat.shiftLeft_eq]
      omega
  · unfold shr shrU16 mask
    rw [if_neg (by simp [hb])]
    refine ⟨_, new_mask _, ?_, ?_⟩
    · show (maskU16 _).toNat < _; rw [maskU16_toNat]; omega
    · show (maskU16 _).toNat = _
      rw [maskU16_toNat]
      show (x.val >>> (y.val.toNat % 16)).toNat % 4096 = _
      rw [BitVec.toNat_ushiftRight, Nat.shiftRight_eq_div_pow]
      exact Nat.mod_eq_of_lt (Nat.lt_of_le_of_lt (Nat.div_le_self _ _) hx)

/-- Non-vacuity: 3 << 17 is 6 in such a build. -/
example : Build.release.overflowChecks = false ∧ (⟨3⟩ : U12).Fits ∧
    ∃ r, (⟨3⟩ : U12).shl .release ⟨17⟩ = .ok r ∧ r.num = 6 := ⟨rfl, by decide, _, rfl, rfl⟩

/-- C39: equality and order are those of the numbers, and the constants are the bounds. -/
theorem C39_order (x y : U12) (hx : x.Fits) (hy : y.Fits) :
    (x.eq y = true ↔ x = y) ∧ x.cmp y = compare x.num y.num ∧
    MIN.num ≤ x.num ∧ x.num ≤ MAX.num ∧ MAX.Fits ∧ MIN.Fits ∧ default = MIN := by
  have hm : ∀ z : U12, z.Fits → (maskU16 z.val).toNat = z.num := by
    intro z hz
    rw [maskU16_toNat]
    exact Nat.mod_eq_of_lt hz
  refine ⟨?_, ?_, Nat.zero_le _, ?_, by decide, by decide, rfl⟩
  · unfold eq
    rw [beq_iff_eq]
    constructor
    · intro h
      exact ext_num (by rw [← hm x hx, ← hm y hy, h])
    · rintro rfl; rfl
  · unfold cmp; rw [hm x hx, hm y hy]
  · show x.num ≤ 4095; unfold Fits at hx; omega

/-- The hypotheses are met by the largest values, where the wrapping matters. -/
example : MAX.Fits ∧ MAX.wrappingAdd ⟨2⟩ = .ok ⟨1⟩ ∧ MIN.wrappingSub ⟨1⟩ = .ok MAX ∧
    (∃ p, MAX.add .release ⟨1⟩ = .error p) ∧ (U12.mk 0xffe).add .debug ⟨1⟩ = .ok MAX ∧
    (∃ p, new 0x1000 = .error p) := by
  refine ⟨by decide, rfl, rfl, ⟨_, rfl⟩, rfl, ⟨_, rfl⟩⟩

end U12

end Verif.Chip8
