import Verif.Proofs.Chip8Decode

/-!
# CHIP-8: decoding (C40)
-/

namespace Verif.Chip8

open Verif Verif.Spec.Chip8
open Verif.Spec.Mos (Mem BusView)

private theorem u12_ext {a a' : U12} (h : a.val.toNat = a'.val.toNat) : a = a' := by
  cases a; cases a'; simp only [U12.mk.injEq]; exact BitVec.eq_of_toNat_eq h

private theorem decodeNibbles_sys (s t f : Nat) (x y : GpRegisters) (a : U12) (kk n : Byte)
    (h₁ : ¬(s = 0 ∧ t = 14 ∧ f = 0)) (h₂ : ¬(s = 0 ∧ t = 14 ∧ f = 14)) :
    decodeNibbles 0 s t f x y a kk n = some (.Sys a) := by
  unfold decodeNibbles
  split <;> simp_all

/-- C40: a word whose number is the documented encoding of an instruction decodes to that
instruction, with its operands. -/
theorem C40_decode_encode (op : Opcode) (hv : Valid op) (b0 b1 : Byte)
    (h : b0.toNat * 256 + b1.toNat = encode op) : decodeBytesToOpcode b0 b1 = .ok (.ok op) := by
  obtain ⟨x, y, a, kk, n, hx, hy, ha, hk, hn, hd⟩ := decode_fields b0 b1
  rw [hd]
  have l0 : b0.toNat < 256 := b0.isLt
  have l1 : b1.toNat < 256 := b1.isLt
  subst hk
  cases op
  case Cls =>
    simp only [encode] at h
    have e0 : b0.toNat / 16 = 0 := by omega
    have e1 : b0.toNat % 16 = 0 := by omega
    have e2 : kk.toNat / 16 = 14 := by omega
    have e3 : kk.toNat % 16 = 0 := by omega
    rw [e0, e1, e2, e3]
    rfl
  case Ret =>
    simp only [encode] at h
    have e0 : b0.toNat / 16 = 0 := by omega
    have e1 : b0.toNat % 16 = 0 := by omega
    have e2 : kk.toNat / 16 = 14 := by omega
    have e3 : kk.toNat % 16 = 14 := by omega
    rw [e0, e1, e2, e3]
    rfl
  case SeImmediate x' v =>
    simp only [encode, xkk] at h
    have hv := v.isLt
    have := num_lt x'
    have e0 : b0.toNat / 16 = 3 := by omega
    have e1 : x = x' := num_inj (by omega)
    have e2 : kk = v := BitVec.eq_of_toNat_eq (by omega)
    rw [e0, e1, e2]
    rfl
  case SneImmediate x' v =>
    simp only [encode, xkk] at h
    have hv := v.isLt
    have := num_lt x'
    have e0 : b0.toNat / 16 = 4 := by omega
    have e1 : x = x' := num_inj (by omega)
    have e2 : kk = v := BitVec.eq_of_toNat_eq (by omega)
    rw [e0, e1, e2]
    rfl
  case LdImmediate x' v =>
    simp only [encode, xkk] at h
    have hv := v.isLt
    have := num_lt x'
    have e0 : b0.toNat / 16 = 6 := by omega
    have e1 : x = x' := num_inj (by omega)
    have e2 : kk = v := BitVec.eq_of_toNat_eq (by omega)
    rw [e0, e1, e2]
    rfl
  case AddImmediate x' v =>
    simp only [encode, xkk] at h
    have hv := v.isLt
    have := num_lt x'
    have e0 : b0.toNat / 16 = 7 := by omega
    have e1 : x = x' := num_inj (by omega)
    have e2 : kk = v := BitVec.eq_of_toNat_eq (by omega)
    rw [e0, e1, e2]
    rfl
  case Rnd x' v =>
    simp only [encode, xkk] at h
    have hv := v.isLt
    have := num_lt x'
    have e0 : b0.toNat / 16 = 12 := by omega
    have e1 : x = x' := num_inj (by omega)
    have e2 : kk = v := BitVec.eq_of_toNat_eq (by omega)
    rw [e0, e1, e2]
    rfl
  case JpNonV0Indexed a' =>
    simp only [encode, nnn] at h
    simp only [Valid] at hv
    have e0 : b0.toNat / 16 = 1 := by omega
    have e1 : a = a' := u12_ext (by omega)
    rw [e0, e1]
    rfl
  case Call a' =>
    simp only [encode, nnn] at h
    simp only [Valid] at hv
    have e0 : b0.toNat / 16 = 2 := by omega
    have e1 : a = a' := u12_ext (by omega)
    rw [e0, e1]
    rfl
  case LdAbsolute a' =>
    simp only [encode, nnn] at h
    simp only [Valid] at hv
    have e0 : b0.toNat / 16 = 10 := by omega
    have e1 : a = a' := u12_ext (by omega)
    rw [e0, e1]
    rfl
  case JpV0Indexed a' =>
    simp only [encode, nnn] at h
    simp only [Valid] at hv
    have e0 : b0.toNat / 16 = 11 := by omega
    have e1 : a = a' := u12_ext (by omega)
    rw [e0, e1]
    rfl
  case SeVxVy x' y' =>
    simp only [encode, xyn] at h
    have := num_lt x'
    have := num_lt y'
    have e0 : b0.toNat / 16 = 5 := by omega
    have e1 : x = x' := num_inj (by omega)
    have e2 : y = y' := num_inj (by omega)
    have e3 : kk.toNat % 16 = 0 := by omega
    rw [e0, e1, e2, e3]
    rfl
  case LdVxVy x' y' =>
    simp only [encode, xyn] at h
    have := num_lt x'
    have := num_lt y'
    have e0 : b0.toNat / 16 = 8 := by omega
    have e1 : x = x' := num_inj (by omega)
    have e2 : y = y' := num_inj (by omega)
    have e3 : kk.toNat % 16 = 0 := by omega
    rw [e0, e1, e2, e3]
    rfl
  case Or x' y' =>
    simp only [encode, xyn] at h
    have := num_lt x'
    have := num_lt y'
    have e0 : b0.toNat / 16 = 8 := by omega
    have e1 : x = x' := num_inj (by omega)
    have e2 : y = y' := num_inj (by omega)
    have e3 : kk.toNat % 16 = 1 := by omega
    rw [e0, e1, e2, e3]
    rfl
  case And x' y' =>
    simp only [encode, xyn] at h
    have := num_lt x'
    have := num_lt y'
    have e0 : b0.toNat / 16 = 8 := by omega
    have e1 : x = x' := num_inj (by omega)
    have e2 : y = y' := num_inj (by omega)
    have e3 : kk.toNat % 16 = 2 := by omega
    rw [e0, e1, e2, e3]
    rfl
  case Xor x' y' =>
    simp only [encode, xyn] at h
    have := num_lt x'
    have := num_lt y'
    have e0 : b0.toNat / 16 = 8 := by omega
    have e1 : x = x' := num_inj (by omega)
    have e2 : y = y' := num_inj (by omega)
    have e3 : kk.toNat % 16 = 3 := by omega
    rw [e0, e1, e2, e3]
    rfl
  case AddVxVy x' y' =>
    simp only [encode, xyn] at h
    have := num_lt x'
    have := num_lt y'
    have e0 : b0.toNat / 16 = 8 := by omega
    have e1 : x = x' := num_inj (by omega)
    have e2 : y = y' := num_inj (by omega)
    have e3 : kk.toNat % 16 = 4 := by omega
    rw [e0, e1, e2, e3]
    rfl
  case Sub x' y' =>
    simp only [encode, xyn] at h
    have := num_lt x'
    have := num_lt y'
    have e0 : b0.toNat / 16 = 8 := by omega
    have e1 : x = x' := num_inj (by omega)
    have e2 : y = y' := num_inj (by omega)
    have e3 : kk.toNat % 16 = 5 := by omega
    rw [e0, e1, e2, e3]
    rfl
  case Shr x' y' =>
    simp only [encode, xyn] at h
    have := num_lt x'
    have := num_lt y'
    have e0 : b0.toNat / 16 = 8 := by omega
    have e1 : x = x' := num_inj (by omega)
    have e2 : y = y' := num_inj (by omega)
    have e3 : kk.toNat % 16 = 6 := by omega
    rw [e0, e1, e2, e3]
    rfl
  case Subn x' y' =>
    simp only [encode, xyn] at h
    have := num_lt x'
    have := num_lt y'
    have e0 : b0.toNat / 16 = 8 := by omega
    have e1 : x = x' := num_inj (by omega)
    have e2 : y = y' := num_inj (by omega)
    have e3 : kk.toNat % 16 = 7 := by omega
    rw [e0, e1, e2, e3]
    rfl
  case Shl x' y' =>
    simp only [encode, xyn] at h
    have := num_lt x'
    have := num_lt y'
    have e0 : b0.toNat / 16 = 8 := by omega
    have e1 : x = x' := num_inj (by omega)
    have e2 : y = y' := num_inj (by omega)
    have e3 : kk.toNat % 16 = 14 := by omega
    rw [e0, e1, e2, e3]
    rfl
  case SneVxVy x' y' =>
    simp only [encode, xyn] at h
    have := num_lt x'
    have := num_lt y'
    have e0 : b0.toNat / 16 = 9 := by omega
    have e1 : x = x' := num_inj (by omega)
    have e2 : y = y' := num_inj (by omega)
    have e3 : kk.toNat % 16 = 0 := by omega
    rw [e0, e1, e2, e3]
    rfl
  case Drw x' y' n' =>
    simp only [encode, xyn] at h
    simp only [Valid] at hv
    have := num_lt x'
    have := num_lt y'
    have e0 : b0.toNat / 16 = 13 := by omega
    have e1 : x = x' := num_inj (by omega)
    have e2 : y = y' := num_inj (by omega)
    have e3 : n = n' := BitVec.eq_of_toNat_eq (by omega)
    rw [e0, e1, e2, e3]
    rfl
  case Skp x' =>
    simp only [encode, xkk, show (0x9e : Byte).toNat = 158 from rfl] at h
    have := num_lt x'
    have e0 : b0.toNat / 16 = 14 := by omega
    have e1 : x = x' := num_inj (by omega)
    have e2 : kk.toNat / 16 = 9 := by omega
    have e3 : kk.toNat % 16 = 14 := by omega
    rw [e0, e1, e2, e3]
    rfl
  case Sknp x' =>
    simp only [encode, xkk, show (0xa1 : Byte).toNat = 161 from rfl] at h
    have := num_lt x'
    have e0 : b0.toNat / 16 = 14 := by omega
    have e1 : x = x' := num_inj (by omega)
    have e2 : kk.toNat / 16 = 10 := by omega
    have e3 : kk.toNat % 16 = 1 := by omega
    rw [e0, e1, e2, e3]
    rfl
  case LdDelayTimerSrcTx x' =>
    simp only [encode, xkk, show (0x7 : Byte).toNat = 7 from rfl] at h
    have := num_lt x'
    have e0 : b0.toNat / 16 = 15 := by omega
    have e1 : x = x' := num_inj (by omega)
    have e2 : kk.toNat / 16 = 0 := by omega
    have e3 : kk.toNat % 16 = 7 := by omega
    rw [e0, e1, e2, e3]
    rfl
  case LdK x' =>
    simp only [encode, xkk, show (0xa : Byte).toNat = 10 from rfl] at h
    have := num_lt x'
    have e0 : b0.toNat / 16 = 15 := by omega
    have e1 : x = x' := num_inj (by omega)
    have e2 : kk.toNat / 16 = 0 := by omega
    have e3 : kk.toNat % 16 = 10 := by omega
    rw [e0, e1, e2, e3]
    rfl
  case LdDelayTimerDestTx x' =>
    simp only [encode, xkk, show (0x15 : Byte).toNat = 21 from rfl] at h
    have := num_lt x'
    have e0 : b0.toNat / 16 = 15 := by omega
    have e1 : x = x' := num_inj (by omega)
    have e2 : kk.toNat / 16 = 1 := by omega
    have e3 : kk.toNat % 16 = 5 := by omega
    rw [e0, e1, e2, e3]
    rfl
  case LdSoundTimerDestTx x' =>
    simp only [encode, xkk, show (0x18 : Byte).toNat = 24 from rfl] at h
    have := num_lt x'
    have e0 : b0.toNat / 16 = 15 := by omega
    have e1 : x = x' := num_inj (by omega)
    have e2 : kk.toNat / 16 = 1 := by omega
    have e3 : kk.toNat % 16 = 8 := by omega
    rw [e0, e1, e2, e3]
    rfl
  case AddIRegisterIndexed x' =>
    simp only [encode, xkk, show (0x1e : Byte).toNat = 30 from rfl] at h
    have := num_lt x'
    have e0 : b0.toNat / 16 = 15 := by omega
    have e1 : x = x' := num_inj (by omega)
    have e2 : kk.toNat / 16 = 1 := by omega
    have e3 : kk.toNat % 16 = 14 := by omega
    rw [e0, e1, e2, e3]
    rfl
  case LdSpriteLocation x' =>
    simp only [encode, xkk, show (0x29 : Byte).toNat = 41 from rfl] at h
    have := num_lt x'
    have e0 : b0.toNat / 16 = 15 := by omega
    have e1 : x = x' := num_inj (by omega)
    have e2 : kk.toNat / 16 = 2 := by omega
    have e3 : kk.toNat % 16 = 9 := by omega
    rw [e0, e1, e2, e3]
    rfl
  case LdBcd x' =>
    simp only [encode, xkk, show (0x33 : Byte).toNat = 51 from rfl] at h
    have := num_lt x'
    have e0 : b0.toNat / 16 = 15 := by omega
    have e1 : x = x' := num_inj (by omega)
    have e2 : kk.toNat / 16 = 3 := by omega
    have e3 : kk.toNat % 16 = 3 := by omega
    rw [e0, e1, e2, e3]
    rfl
  case StoreRegistersToMemory x' =>
    simp only [encode, xkk, show (0x55 : Byte).toNat = 85 from rfl] at h
    have := num_lt x'
    have e0 : b0.toNat / 16 = 15 := by omega
    have e1 : x = x' := num_inj (by omega)
    have e2 : kk.toNat / 16 = 5 := by omega
    have e3 : kk.toNat % 16 = 5 := by omega
    rw [e0, e1, e2, e3]
    rfl
  case ReadRegistersFromMemory x' =>
    simp only [encode, xkk, show (0x65 : Byte).toNat = 101 from rfl] at h
    have := num_lt x'
    have e0 : b0.toNat / 16 = 15 := by omega
    have e1 : x = x' := num_inj (by omega)
    have e2 : kk.toNat / 16 = 6 := by omega
    have e3 : kk.toNat % 16 = 5 := by omega
    rw [e0, e1, e2, e3]
    rfl
  case Sys a' =>
    simp only [encode, nnn] at h
    simp only [Valid] at hv
    have e0 : b0.toNat / 16 = 0 := by omega
    have e1 : a = a' := u12_ext (by omega)
    rw [e0, e1, decodeNibbles_sys _ _ _ _ _ _ _ _ (by omega) (by omega)]

/-- C40: what a word decodes to encodes back to that word, and its operands fit. -/
theorem C40_encode_decode (b0 b1 : Byte) (op : Opcode)
    (h : decodeBytesToOpcode b0 b1 = .ok (.ok op)) :
    Valid op ∧ encode op = b0.toNat * 256 + b1.toNat := by
  obtain ⟨x, y, a, kk, n, hx, hy, ha, hk, hn, hd⟩ := decode_fields b0 b1
  rw [hd] at h
  have l0 : b0.toNat < 256 := b0.isLt
  have l1 : b1.toNat < 256 := b1.isLt
  subst hk
  simp only [Except.ok.injEq] at h
  unfold decodeNibbles at h
  split at h
  · rename_i o ho
    simp only [Except.ok.injEq] at h
    subst h
    split at ho
    all_goals try simp only [Option.some.injEq, reduceCtorEq] at ho
    all_goals try subst ho
    all_goals try simp only [Valid, encode, nnn, xkk, xyn, true_and, hx, hy, ha, hn,
      BitVec.reduceToNat]
    all_goals first
      | (clear hd ha hx hy hn; omega)
      | (rename_i n₁ n₂
         refine ⟨⟨by omega, fun h => n₁ ?_ ?_ ?_, fun h => n₂ ?_ ?_ ?_⟩, by omega⟩ <;> omega)
  · cases h

theorem encode_lt (op : Opcode) (hv : Valid op) : encode op < 65536 := by
  cases op
  all_goals simp only [encode, nnn, xkk, xyn, BitVec.reduceToNat]
  all_goals simp only [Valid] at hv
  all_goals try rename_i r s v; have := num_lt r; have := num_lt s
  all_goals try (rename_i r v; have := num_lt r; have : v.toNat < 256 := v.isLt)
  all_goals try (rename_i r s; have := num_lt r; have := num_lt s)
  all_goals try (rename_i r; have := num_lt r)
  all_goals omega

/-- C40: every word outside the documented patterns is rejected, and only those are; decoding
never panics. -/
theorem C40_rejects (b0 b1 : Byte) :
    (∃ r, decodeBytesToOpcode b0 b1 = .ok r) ∧
    ((∃ msg, decodeBytesToOpcode b0 b1 = .ok (.error msg)) ↔
      ¬∃ op, Valid op ∧ encode op = b0.toNat * 256 + b1.toNat) := by
  obtain ⟨x, y, a, kk, n, -, -, -, -, -, hd⟩ := decode_fields b0 b1
  refine ⟨⟨_, hd⟩, ?_⟩
  constructor
  · rintro ⟨msg, hm⟩ ⟨op, hv, he⟩
    rw [C40_decode_encode op hv b0 b1 he.symm] at hm
    cases hm
  · intro hno
    obtain ⟨r, hr⟩ : ∃ r, decodeBytesToOpcode b0 b1 = .ok r := ⟨_, hd⟩
    cases r with
    | error msg => exact ⟨msg, hr⟩
    | ok op => exact absurd ⟨op, C40_encode_decode b0 b1 op hr⟩ hno

/-- C40: distinct instructions have distinct encodings, all of 16 bits. -/
theorem C40_unambiguous (op op' : Opcode) (hv : Valid op) (hv' : Valid op')
    (h : encode op = encode op') : op = op' := by
  obtain ⟨b0, b1, hb⟩ : ∃ b0 b1 : Byte, b0.toNat * 256 + b1.toNat = encode op := by
    have hlt := encode_lt op hv
    refine ⟨BitVec.ofNat 8 (encode op / 256), BitVec.ofNat 8 (encode op % 256), ?_⟩
    rw [BitVec.toNat_ofNat, BitVec.toNat_ofNat]
    omega
  have h1 := C40_decode_encode op hv b0 b1 hb
  rw [C40_decode_encode op' hv' b0 b1 (hb.trans h)] at h1
  simpa using h1.symm

/-- The hypotheses are met: `8AB4` is `ADD VA, VB`, and `SYS 0x123` is valid. -/
example : Valid (.AddVxVy .Va .Vb) ∧ encode (.AddVxVy .Va .Vb) = 0x8AB4 ∧
    decodeBytesToOpcode 0x8A 0xB4 = .ok (.ok (.AddVxVy .Va .Vb)) :=
  ⟨trivial, rfl, C40_decode_encode (.AddVxVy .Va .Vb) trivial _ _ rfl⟩

example : Valid (.Sys ⟨0x123⟩) ∧ encode (.Sys ⟨0x123⟩) = 0x0123 :=
  ⟨⟨by decide, by decide, by decide⟩, rfl⟩

/-- Rejected words exist: `5121` and `FFFF`. -/
example : decodeBytesToOpcode 0x51 0x21 = .ok (.error "No match found for 0x5121") ∧
    decodeBytesToOpcode 0xFF 0xFF = .ok (.error "No match found for 0xffff") := ⟨rfl, rfl⟩

/-- What the emulator finds at `pc` is a documented instruction. -/
theorem at_valid {B R : Type} [Addressable B] {b : Build} {cpu : Chip8 B R} {op : Opcode}
    (hat : At b cpu op) : Valid op := by
  have h : fetch b cpu = .ok op := hat
  unfold fetch at h
  simp only at h
  cases h0 : Addressable.read b cpu.address_space cpu.pc with
  | error p => rw [h0] at h; cases h
  | ok b0 =>
    rw [h0, Res.ok_bind] at h
    cases h1 : addU16 b cpu.pc 1 with
    | error p => rw [h1] at h; cases h
    | ok pc1 =>
      rw [h1, Res.ok_bind] at h
      cases h2 : Addressable.read b cpu.address_space pc1 with
      | error p => rw [h2] at h; cases h
      | ok b1 =>
        rw [h2, Res.ok_bind] at h
        cases hd : decodeBytesToOpcode b0 b1 with
        | error p => rw [hd] at h; cases h
        | ok r =>
          rw [hd] at h
          cases r with
          | error m => cases h
          | ok op' => cases h; exact (C40_encode_decode _ _ _ hd).1

theorem fetch_iff {B R : Type} [Addressable B] {b : Build} {cpu : Chip8 B R} {mem : Mem}
    (hv : BusView b cpu.address_space mem) (hpc : b.overflowChecks = false ∨ cpu.pc.toNat < 65535)
    (op : Opcode) :
    At b cpu op ↔ Valid op ∧ wordAt mem cpu.pc = encode op := by
  have hf : fetch b cpu =
      (decodeBytesToOpcode (mem cpu.pc) (mem (cpu.pc + 1)) >>= fun r => unwrapResult r) := by
    have ha : addU16 b cpu.pc 1 = .ok (cpu.pc + 1) := by
      unfold addU16
      rw [if_neg]
      rintro ⟨h', h⟩
      have : cpu.pc.toNat + 1 ≥ 65536 := h
      rcases hpc with hpc | hpc
      · rw [hpc] at h'
        cases h'
      · omega
    unfold fetch
    simp only
    rw [hv cpu.pc, Res.ok_bind, ha, Res.ok_bind, hv (cpu.pc + 1), Res.ok_bind]
  unfold At wordAt
  rw [hf]
  constructor
  · intro h
    cases hd : decodeBytesToOpcode (mem cpu.pc) (mem (cpu.pc + 1)) with
    | error p => rw [hd] at h; cases h
    | ok r =>
      rw [hd] at h
      cases r with
      | error m => cases h
      | ok op' =>
        cases h
        exact (C40_encode_decode _ _ _ hd).imp id Eq.symm
  · rintro ⟨hv, h⟩
    rw [C40_decode_encode op hv _ _ h]
    rfl

/-- C40: the instruction the emulator finds at `pc` is the one whose encoding is the big-endian
word there; nothing else is found. -/
theorem C40_fetch {B R : Type} [Addressable B] {b : Build} {cpu : Chip8 B R} {mem : Mem}
    (hv : BusView b cpu.address_space mem) (hpc : cpu.pc.toNat < 65535) (op : Opcode) :
    At b cpu op ↔ Valid op ∧ wordAt mem cpu.pc = encode op := fetch_iff hv (.inr hpc) op

end Verif.Chip8
