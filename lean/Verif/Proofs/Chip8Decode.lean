import Verif.Spec.Chip8

/-!
# Decoding: lemmas
-/

namespace Verif.Chip8

open Verif Verif.Spec.Chip8

theorem asUsize_eq_num (r : GpRegisters) : r.asUsize = num r := by cases r <;> rfl

theorem num_lt (r : GpRegisters) : num r < 16 := by cases r <;> decide

theorem num_inj {r s : GpRegisters} (h : num r = num s) : r = s := by
  cases r <;> cases s <;> first | rfl | (exact absurd h (by decide))

theorem tryFrom_ok (x : Byte) (h : x.toNat < 16) :
    ∃ r, GpRegisters.tryFrom x = .ok r ∧ num r = x.toNat := by
  obtain ⟨n, hn⟩ : ∃ n, x.toNat = n := ⟨_, rfl⟩
  unfold GpRegisters.tryFrom
  rw [hn] at h ⊢
  rcases n with _|_|_|_|_|_|_|_|_|_|_|_|_|_|_|_|n
  all_goals first | exact ⟨_, rfl, rfl⟩ | omega

theorem tryFrom_num (r : GpRegisters) (x : Byte) (h : x.toNat = num r) :
    GpRegisters.tryFrom x = .ok r := by
  obtain ⟨s, hs, hn⟩ := tryFrom_ok x (h ▸ num_lt r)
  rw [hs, num_inj (hn.trans h)]

theorem upper_toNat (x : Byte) : (toUpperNibble x).toNat = x.toNat / 16 := by
  revert x; decide +kernel

theorem lower_toNat (x : Byte) : (toLowerNibble x).toNat = x.toNat % 16 := by
  revert x; decide +kernel

theorem u8FromNibbles_toNat (m l : Byte) (hm : m.toNat < 16) :
    (u8FromNibbles m l).toNat = m.toNat * 16 + l.toNat % 16 := by
  have key : ∀ m : Byte, m.toNat < 16 → ∀ l : Byte,
      (u8FromNibbles m l).toNat = m.toNat * 16 + l.toNat % 16 := by decide +kernel
  exact key m hm l

theorem ofNibbles_ok (x y z : Byte) :
    ∃ a, U12.ofNibbles x y z = .ok a ∧
      a.val.toNat = (x.toNat % 16) * 256 + (y.toNat % 16) * 16 + z.toNat % 16 := by
  have e : (((y &&& 0x0f) <<< 4 ||| (z &&& 0x0f) : Byte)).toNat = (y.toNat % 16) * 16 + z.toNat % 16 := by
    have h := u8FromNibbles_toNat (y &&& 0x0f) z
    have hl := lower_toNat y
    unfold toLowerNibble at hl
    rw [hl] at h
    have := h (by omega)
    unfold u8FromNibbles toLowerNibble at this
    rw [this]
  have hl := lower_toNat x
  unfold toLowerNibble at hl
  have v : (u16FromBeBytes (x &&& 0x0f) ((y &&& 0x0f) <<< 4 ||| (z &&& 0x0f))).toNat =
      (x.toNat % 16) * 256 + (y.toNat % 16) * 16 + z.toNat % 16 := by
    unfold u16FromBeBytes
    rw [BitVec.toNat_append, e, hl, Nat.shiftLeft_eq]
    rw [← Nat.shiftLeft_eq, ← Nat.shiftLeft_add_eq_or_of_lt (by omega), Nat.shiftLeft_eq]
    omega
  refine ⟨⟨_⟩, ?_, v⟩
  unfold U12.ofNibbles U12.new
  rw [if_neg]
  · rfl
  · show ¬ _ > 4095
    rw [v]; omega

/-- `decode_bytes_to_opcode` in terms of the fields of the word. -/
theorem decode_fields (b0 b1 : Byte) : ∃ (x y : GpRegisters) (a : U12) (kk n : Byte),
    num x = b0.toNat % 16 ∧ num y = b1.toNat / 16 ∧
    a.val.toNat = (b0.toNat % 16) * 256 + b1.toNat ∧ kk = b1 ∧ n.toNat = b1.toNat % 16 ∧
    decodeBytesToOpcode b0 b1 = .ok (match decodeNibbles (b0.toNat / 16) (b0.toNat % 16)
      (b1.toNat / 16) (b1.toNat % 16) x y a kk n with
      | some op => .ok op
      | none => .error (noMatch b0 b1)) := by
  obtain ⟨x, hx, hxn⟩ := tryFrom_ok (toLowerNibble b0) (by rw [lower_toNat]; omega)
  obtain ⟨y, hy, hyn⟩ := tryFrom_ok (toUpperNibble b1) (by rw [upper_toNat]; omega)
  obtain ⟨a, ha, han⟩ := ofNibbles_ok (toLowerNibble b0) (toUpperNibble b1) (toLowerNibble b1)
  rw [lower_toNat] at hxn
  rw [upper_toNat] at hyn
  rw [lower_toNat, upper_toNat, lower_toNat] at han
  have ha' : a.val.toNat = (b0.toNat % 16) * 256 + b1.toNat := by
    have h1 : b1.toNat / 16 % 16 = b1.toNat / 16 := Nat.mod_eq_of_lt (by have := b1.isLt; omega)
    rw [han, Nat.mod_mod, Nat.mod_mod, h1, Nat.add_assoc, Nat.div_add_mod']
  have hk : u8FromNibbles (toUpperNibble b1) (toLowerNibble b1) = b1 := by
    apply BitVec.eq_of_toNat_eq
    rw [u8FromNibbles_toNat _ _ (by rw [upper_toNat]; omega), upper_toNat, lower_toNat]; omega
  obtain ⟨n, hn⟩ : ∃ n, n = toLowerNibble b1 := ⟨_, rfl⟩
  have hn' : n.toNat = b1.toNat % 16 := by rw [hn]; exact lower_toNat b1
  refine ⟨x, y, a, b1, n, hxn, hyn, ha', Eq.refl b1, hn', ?_⟩
  rw [← hn] at ha hk
  unfold decodeBytesToOpcode
  simp only [hx, hy, unwrapResult, Res.ok_bind, upper_toNat, ← hn, ha, hk, hn', lower_toNat b0]
  split <;> rename_i h <;> simp only [h]

end Verif.Chip8
