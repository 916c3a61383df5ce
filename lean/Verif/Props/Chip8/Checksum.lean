import Verif.Proofs.Checksum
import Verif.Props.Chip8.Loops

/-!
# C131 on the CHIP-8: table-driven checksums
-/

namespace Verif.Props.Chip8

open Verif Verif.Chip8 Verif.Spec Verif.Spec.Chip8
open Verif.Spec.Mos (Mem BusView word byte)

section
variable {B R : Type} [Addressable B] {b : Build} {env : Nat → Env} {c d : Chip8 B R} {mem : Mem}
  {p src t n : Nat}

/-- The state in the loop: V0, V1, V2, I and the program counter. -/
def summing (c : Chip8 B R) (v0 v1 v2 : Byte) (i q : Nat) : Chip8 B R :=
  { setV (setV (setV c .V0 v0) .V1 v1) .V2 v2 with i := BitVec.ofNat 16 i, pc := BitVec.ofNat 16 q }

variable {v0 v1 v2 w : Byte} {i q : Nat}

omit [Addressable B] in
theorem summing_V0 : V (summing c v0 v1 v2 i q) .V0 = v0 := by
  simp [V, summing, setV, num]

omit [Addressable B] in
theorem summing_V1 : V (summing c v0 v1 v2 i q) .V1 = v1 := by
  simp [V, summing, setV, num]

omit [Addressable B] in
theorem summing_V2 : V (summing c v0 v1 v2 i q) .V2 = v2 := by
  simp [V, summing, setV, num]

omit [Addressable B] in
theorem setV0_summing : setV (summing c v0 v1 v2 i q) .V0 w = summing c w v1 v2 i q := by
  unfold setV summing setV
  simp only
  congr 1
  apply Vector.ext
  intro k hk
  simp only [Vector.getElem_setIfInBounds, num]
  rcases k with _ | _ | _ | k <;> simp

omit [Addressable B] in
theorem setV1_summing : setV (summing c v0 v1 v2 i q) .V1 w = summing c v0 w v2 i q := by
  unfold setV summing setV
  simp only
  congr 1
  apply Vector.ext
  intro k hk
  simp only [Vector.getElem_setIfInBounds, num]
  rcases k with _ | _ | _ | k <;> simp

omit [Addressable B] in
theorem setV2_summing : setV (summing c v0 v1 v2 i q) .V2 w = summing c v0 v1 w i q := by
  unfold setV summing setV
  simp only
  congr 1
  apply Vector.ext
  intro k hk
  simp only [Vector.getElem_setIfInBounds, num]
  rcases k with _ | _ | _ | k <;> simp

omit [Addressable B] in
theorem loadRegs_one (d : Chip8 B R) (f : Nat → Byte) :
    ({ d with gp_registers := loadRegs d.gp_registers 1 f } : Chip8 B R) = setV d .V0 (f 0) := by
  unfold setV loadRegs
  congr 1
  apply Vector.ext
  intro k hk
  simp only [Vector.getElem_mapFinIdx, Vector.getElem_setIfInBounds, num]
  cases k with
  | zero => rfl
  | succ k => simp

omit [Addressable B] in
theorem advance_summing {k : Nat} (hq : q < 65536) :
    advance (summing c v0 v1 v2 i q) k = summing c v0 v1 v2 i (q + k) := by
  unfold advance summing
  simp only [toNat_ofNat_lt hq]

/-- `LD I, a`. -/
theorem sum_ldi {ws : List Nat} {j k a : Nat} (hv : BusView b c.address_space mem) (hcode : CodeAt mem p ws)
    (hj : ws[j]? = some (0xa000 + a)) (ha : a < 4096) (m : Nat) :
    runLoop b env (m + 1) k (summing c v0 v1 v2 i (p + 2 * j)) (summing c v0 v1 v2 i (p + 2 * j)) =
      runLoop b env m (k + 1) (summing c v0 v1 v2 a (p + 2 * (j + 1))) (summing c v0 v1 v2 a (p + 2 * (j + 1))) := by
  have hlen : j < ws.length := (List.getElem?_eq_some_iff.1 hj).1
  have h1 := hcode.1
  rw [code_step (op := .LdAbsolute ⟨BitVec.ofNat 16 a⟩) (i := j) (c := summing c v0 v1 v2 i (p + 2 * j)) hv hcode rfl
    (by simp [encode, nnn, hj]; omega) (by show (BitVec.ofNat 16 a).toNat < 4096; rw [toNat_ofNat_lt (by omega)]; exact ha)
    ⟨fun h => h, fun h => h.2⟩ rfl (by rintro (h | ⟨a, h⟩) <;> cases h) (fun _ => rfl)]
  have e : after (env k) mem (summing c v0 v1 v2 i (p + 2 * j)) (.LdAbsolute ⟨BitVec.ofNat 16 a⟩) =
      summing c v0 v1 v2 a (p + 2 * (j + 1)) := by
    show advance (summing c v0 v1 v2 a (p + 2 * j)) 2 = _
    rw [advance_summing (by omega)]; rfl
  rw [e]

/-- `LD V0, [I]` after `ADD I, Vx`. -/
theorem sum_look {ws : List Nat} {j k a : Nat} {x : GpRegisters} (hv : BusView b c.address_space mem)
    (hcode : CodeAt mem p ws) (hj : ws[j]? = some (0xf01e + num x * 0x100)) (hj' : ws[j + 1]? = some 0xf065)
    (hx : x ≠ .Vf) (ha : a < 4096) (m : Nat) :
    runLoop b env (m + 2) k (summing c v0 v1 v2 a (p + 2 * j)) (summing c v0 v1 v2 a (p + 2 * j)) =
      runLoop b env m (k + 2)
        (summing c (mem (word (a + (V (summing c v0 v1 v2 a (p + 2 * j)) x).toNat))) v1 v2
          (a + (V (summing c v0 v1 v2 a (p + 2 * j)) x).toNat) (p + 2 * (j + 2)))
        (summing c (mem (word (a + (V (summing c v0 v1 v2 a (p + 2 * j)) x).toNat))) v1 v2
          (a + (V (summing c v0 v1 v2 a (p + 2 * j)) x).toNat) (p + 2 * (j + 2))) := by
  generalize hi : a + (V (summing c v0 v1 v2 a (p + 2 * j)) x).toNat = i'
  have hlen : j + 1 < ws.length := (List.getElem?_eq_some_iff.1 hj').1
  have h1 := hcode.1
  have hb := (V (summing c v0 v1 v2 a (p + 2 * j)) x).isLt
  rw [code_step (op := .AddIRegisterIndexed x) (i := j) (c := summing c v0 v1 v2 a (p + 2 * j)) hv hcode rfl
    (by simp [encode, xkk, hj]; omega) trivial
    ⟨hx, fun h => h.2⟩ rfl (by rintro (h | ⟨a, h⟩) <;> cases h) (fun _ => rfl)]
  have e : after (env k) mem (summing c v0 v1 v2 a (p + 2 * j)) (.AddIRegisterIndexed x) =
      summing c v0 v1 v2 i' (p + 2 * (j + 1)) := by
    show advance { summing c v0 v1 v2 a (p + 2 * j) with
      i := BitVec.ofNat 16 ((BitVec.ofNat 16 a).toNat + (V (summing c v0 v1 v2 a (p + 2 * j)) x).toNat) } 2 = _
    rw [toNat_ofNat_lt (by omega), hi]
    show advance (summing c v0 v1 v2 i' (p + 2 * j)) 2 = _
    rw [advance_summing (by omega)]; rfl
  have hi' : i' < 4096 + 256 := by omega
  rw [e, code_step (op := .ReadRegistersFromMemory .V0) (i := j + 1) (c := summing c v0 v1 v2 i' (p + 2 * (j + 1))) hv
    hcode rfl (by simp [encode, xkk, hj', num]) trivial
    ⟨by simp [UsesVf], fun h => by
      have : 65536 ≤ (BitVec.ofNat 16 i').toNat + 0 := h.2
      rw [toNat_ofNat_lt (by omega)] at this; omega⟩ rfl (by rintro (h | ⟨a, h⟩) <;> cases h) (fun _ => rfl)]
  have e2 : after (env (k + 1)) mem (summing c v0 v1 v2 i' (p + 2 * (j + 1))) (.ReadRegistersFromMemory .V0) =
      summing c (mem (word i')) v1 v2 i' (p + 2 * (j + 2)) := by
    show advance { summing c v0 v1 v2 i' (p + 2 * (j + 1)) with
      gp_registers := loadRegs (summing c v0 v1 v2 i' (p + 2 * (j + 1))).gp_registers 1
        fun k => mem (BitVec.ofNat 16 i' + BitVec.ofNat 16 k) } 2 = _
    rw [loadRegs_one, setV0_summing, advance_summing (by omega), BitVec.add_zero]; rfl
  rw [e2]

/-- One round up to the comparison. -/
theorem sum_round (hv : BusView b c.address_space mem) (hcode : CodeAt mem p (chip8Checksum p src t n))
    (hs : src < 4096) (ht : t < 4096) {k : Nat} (m : Nat) :
    ∃ v i', runLoop b env (m + 10) k (summing c v0 v1 v2 i p) (summing c v0 v1 v2 i p) =
      runLoop b env m (k + 10)
        (summing c v (v1 + 1) (tableAt mem t (v2 ^^^ mem (word (src + v1.toNat)))) i'
          (if v1 + 1 = byte n then p + 22 else p + 20))
        (summing c v (v1 + 1) (tableAt mem t (v2 ^^^ mem (word (src + v1.toNat)))) i'
          (if v1 + 1 = byte n then p + 22 else p + 20)) := by
  have h1 : p + 2 * 11 ≤ 4096 := hcode.1
  have s1 := sum_ldi (env := env) (c := c) (v0 := v0) (v1 := v1) (v2 := v2) (i := i) (k := k) (j := 0) (a := src) hv
    hcode rfl hs (m + 9)
  have s2 := sum_look (env := env) (c := c) (v0 := v0) (v1 := v1) (v2 := v2) (k := k + 1) (j := 1) (a := src)
    (x := .V1) hv hcode rfl rfl (by decide) hs (m + 7)
  simp only [summing_V1] at s2
  generalize hx : mem (word (src + v1.toNat)) = x at s2 ⊢
  have s3 := code_step (env := env) (k := k + 1 + 2) (op := .Xor .V0 .V2) (i := 3)
    (c := summing c x v1 v2 (src + v1.toNat) (p + 2 * (1 + 2))) hv hcode rfl rfl trivial
    ⟨by simp [UsesVf], fun h => h.2⟩ rfl (by rintro (h | ⟨a, h⟩) <;> cases h) (fun _ => rfl) (m + 6)
  have e3 : after (env (k + 1 + 2)) mem (summing c x v1 v2 (src + v1.toNat) (p + 2 * (1 + 2))) (.Xor .V0 .V2) =
      summing c (x ^^^ v2) v1 v2 (src + v1.toNat) (p + 2 * 4) := by
    show advance (setV _ .V0 (V _ .V0 ^^^ V _ .V2)) 2 = _
    rw [summing_V0, summing_V2, setV0_summing, advance_summing (by omega)]
  rw [e3] at s3
  have s4 := sum_ldi (env := env) (c := c) (v0 := x ^^^ v2) (v1 := v1) (v2 := v2) (i := src + v1.toNat)
    (k := k + 1 + 2 + 1) (j := 4) (a := t) hv hcode rfl ht (m + 5)
  have s5 := sum_look (env := env) (c := c) (v0 := x ^^^ v2) (v1 := v1) (v2 := v2) (k := k + 1 + 2 + 1 + 1) (j := 5)
    (a := t) (x := .V0) hv hcode rfl rfl (by decide) ht (m + 3)
  simp only [summing_V0] at s5
  have ey : mem (word (t + (x ^^^ v2).toNat)) = tableAt mem t (v2 ^^^ x) := by
    rw [BitVec.xor_comm]; rfl
  rw [ey] at s5
  generalize tableAt mem t (v2 ^^^ x) = y at s5 ⊢
  generalize t + (x ^^^ v2).toNat = i' at s5
  have s6 := code_step (env := env) (k := k + 1 + 2 + 1 + 1 + 2) (op := .LdVxVy .V2 .V0) (i := 7)
    (c := summing c y v1 v2 i' (p + 2 * (5 + 2))) hv hcode rfl rfl trivial
    ⟨by simp [UsesVf], fun h => h.2⟩ rfl (by rintro (h | ⟨a, h⟩) <;> cases h) (fun _ => rfl) (m + 2)
  have e6 : after (env (k + 1 + 2 + 1 + 1 + 2)) mem (summing c y v1 v2 i' (p + 2 * (5 + 2))) (.LdVxVy .V2 .V0) =
      summing c y v1 y i' (p + 2 * 8) := by
    show advance (setV _ .V2 (V _ .V0)) 2 = _
    rw [summing_V0, setV2_summing, advance_summing (by omega)]
  rw [e6] at s6
  have s7 := code_step (env := env) (k := k + 1 + 2 + 1 + 1 + 2 + 1) (op := .AddImmediate .V1 1) (i := 8)
    (c := summing c y v1 y i' (p + 2 * 8)) hv hcode rfl rfl trivial
    ⟨by simp [UsesVf], fun h => h.2⟩ rfl (by rintro (h | ⟨a, h⟩) <;> cases h) (fun _ => rfl) (m + 1)
  have e7 : after (env (k + 1 + 2 + 1 + 1 + 2 + 1)) mem (summing c y v1 y i' (p + 2 * 8)) (.AddImmediate .V1 1) =
      summing c y (v1 + 1) y i' (p + 2 * 9) := by
    show advance (setV _ .V1 (V _ .V1 + 1)) 2 = _
    rw [summing_V1, setV1_summing, advance_summing (by omega)]
  rw [e7] at s7
  have s8 := code_step (env := env) (k := k + 1 + 2 + 1 + 1 + 2 + 1 + 1) (op := .SeImmediate .V1 (byte n)) (i := 9)
    (c := summing c y (v1 + 1) y i' (p + 2 * 9)) hv hcode rfl
    (by simp [chip8Checksum, encode, xkk, num, byte]) trivial
    ⟨by simp [UsesVf], fun h => h.2⟩ rfl (by rintro (h | ⟨a, h⟩) <;> cases h) (fun _ => rfl) m
  have e8 : after (env (k + 1 + 2 + 1 + 1 + 2 + 1 + 1)) mem (summing c y (v1 + 1) y i' (p + 2 * 9))
        (.SeImmediate .V1 (byte n)) =
      summing c y (v1 + 1) y i' (if v1 + 1 = byte n then p + 22 else p + 20) := by
    show advance _ (if V _ .V1 = byte n then 4 else 2) = _
    rw [summing_V1, advance_summing (by omega)]
    congr 1
    split <;> omega
  rw [e8] at s8
  refine ⟨y, i', ?_⟩
  exact s1.trans (s2.trans (s3.trans (s4.trans (s5.trans (s6.trans (s7.trans s8))))))

/-- The jump back. -/
theorem sum_back (hv : BusView b c.address_space mem) (hcode : CodeAt mem p (chip8Checksum p src t n)) {k : Nat}
    (m : Nat) :
    runLoop b env (m + 1) k (summing c v0 v1 v2 i (p + 20)) (summing c v0 v1 v2 i (p + 20)) =
      runLoop b env m (k + 1) (summing c v0 v1 v2 i p) (summing c v0 v1 v2 i p) := by
  have h1 : p + 2 * 11 ≤ 4096 := hcode.1
  rw [code_step (op := .JpNonV0Indexed ⟨BitVec.ofNat 16 p⟩) (i := 10)
    (c := summing c v0 v1 v2 i (p + 20)) hv hcode rfl (by simp [chip8Checksum, encode, nnn]; omega)
    (by show (BitVec.ofNat 16 p).toNat < 4096; rw [toNat_ofNat_lt (by omega)]; omega)
    ⟨fun h => h, fun h => h.2⟩ rfl (by rintro (h | ⟨a, h⟩) <;> cases h) (fun _ => rfl)]
  rfl

/-- C131 on the CHIP-8: the loop leaves in V2 the checksum of the `n` bytes from `src` on, for every table, every
number of bytes from 1 to 256 and every starting value, after `11 n - 1` instructions. It uses V0, V1 and I and
changes nothing else; the clock and the random numbers play no part. -/
theorem C131_chip8 (hv : BusView b c.address_space mem) (hcode : CodeAt mem p (chip8Checksum p src t n))
    (hs : src < 4096) (ht : t < 4096) (hn : 1 ≤ n ∧ n ≤ 256) (hpc : c.pc = BitVec.ofNat 16 p)
    (h1 : V c .V1 = 0) :
    ∃ d, run b env c (11 * n - 1) = .ok (.ready d) ∧
      V d .V2 = checksum (tableAt mem t) (V c .V2) (bytesFrom mem src n) ∧ V d .V1 = byte n ∧
      d.pc = BitVec.ofNat 16 (p + 22) ∧ (∀ r, r ∉ [GpRegisters.V0, .V1, .V2] → V d r = V c r) ∧
      d = { c with gp_registers := d.gp_registers, i := d.i, pc := d.pc } := by
  have hself : c = summing c (V c .V0) 0 (V c .V2) c.i.toNat p := by
    have hi : BitVec.ofNat 16 c.i.toNat = c.i := by simp
    unfold summing
    rw [← hpc, hi, ← h1]
    have : ∀ (k : Nat) (hk : k < 15), c.gp_registers[k]?.getD 0 = c.gp_registers[k] := by
      intro k hk; simp [hk]
    have e : ((c.gp_registers.setIfInBounds 0 (V c .V0)).setIfInBounds 1 (V c .V1)).setIfInBounds 2 (V c .V2) =
        c.gp_registers := by
      apply Vector.ext
      intro k hk
      simp only [Vector.getElem_setIfInBounds, V, num]
      split
      · subst_vars; exact this _ hk
      · split
        · subst_vars; exact this _ hk
        · split
          · subst_vars; exact this _ hk
          · rfl
    show c = { c with gp_registers := _, i := c.i, pc := c.pc }
    simp only [setV, num, e]
  have key : ∀ j, j < n → ∀ m, ∃ v i, runLoop b env (m + 11 * j) 0 c c =
      runLoop b env m (11 * j)
        (summing c v (byte j) (checksum (tableAt mem t) (V c .V2) (bytesFrom mem src j)) i p)
        (summing c v (byte j) (checksum (tableAt mem t) (V c .V2) (bytesFrom mem src j)) i p) := by
    intro j
    induction j with
    | zero =>
      intro _ m
      refine ⟨V c .V0, c.i.toNat, ?_⟩
      show runLoop b env m 0 c c = runLoop b env m 0 (summing c (V c .V0) 0 (V c .V2) c.i.toNat p)
        (summing c (V c .V0) 0 (V c .V2) c.i.toNat p)
      rw [← hself]
    | succ j ih =>
      intro hj m
      obtain ⟨v, i, h⟩ := ih (by omega) (m + 11)
      obtain ⟨v', i', h'⟩ := sum_round (env := env) (c := c) (v0 := v) (v1 := byte j)
        (v2 := checksum (tableAt mem t) (V c .V2) (bytesFrom mem src j)) (i := i) hv hcode hs ht (k := 11 * j) (m + 1)
      have ej : byte j + 1 = byte (j + 1) := by
        apply BitVec.eq_of_toNat_eq
        simp [byte]
      have hb : (byte j).toNat = j := by simp [byte]; omega
      have hne : byte (j + 1) ≠ byte n := fun h => by
        have := congrArg BitVec.toNat h
        simp [byte] at this
        omega
      rw [ej, if_neg hne, hb] at h'
      refine ⟨v', i', ?_⟩
      rw [show m + 11 * (j + 1) = m + 11 + 11 * j by omega, h, show m + 11 = m + 1 + 10 by omega, h',
        sum_back hv hcode, bytesFrom_succ, checksum_append]
      rfl
  obtain ⟨l, rfl⟩ : ∃ l, n = l + 1 := ⟨n - 1, by omega⟩
  obtain ⟨v, i, h⟩ := key l (by omega) 10
  obtain ⟨v', i', h'⟩ := sum_round (env := env) (c := c) (v0 := v) (v1 := byte l)
    (v2 := checksum (tableAt mem t) (V c .V2) (bytesFrom mem src l)) (i := i) hv hcode hs ht (k := 11 * l) 0
  have ej : byte l + 1 = byte (l + 1) := by
    apply BitVec.eq_of_toNat_eq
    simp [byte]
  have hb : (byte l).toNat = l := by simp [byte]; omega
  rw [ej, if_pos rfl, hb] at h'
  refine ⟨summing c v' (byte (l + 1))
    (tableAt mem t (checksum (tableAt mem t) (V c .V2) (bytesFrom mem src l) ^^^ mem (word (src + l)))) i' (p + 22),
    ?_, ?_, summing_V1, rfl, ?_, ?_⟩
  · unfold run
    rw [show 11 * (l + 1) - 1 = 10 + 11 * l by omega, h]
    have : (10 : Nat) = 0 + 10 := rfl
    rw [this, h']
    rfl
  · rw [summing_V2, bytesFrom_succ, checksum_append]
  · intro r hr
    simp only [List.mem_cons, List.not_mem_nil, or_false, not_or] at hr
    show V (setV (setV (setV c .V0 _) .V1 _) .V2 _) r = V c r
    rw [V_setV _ (by decide), if_neg hr.2.2, V_setV _ (by decide), if_neg hr.2.1, V_setV _ (by decide), if_neg hr.1]
  · rfl

/-- C131 on the CHIP-8: with the table of a CRC of eight bits it computes the CRC of the message, bit by bit from the
most significant bit of its first byte on. -/
theorem C131_chip8_crc (hv : BusView b c.address_space mem) (hcode : CodeAt mem p (chip8Checksum p src t n))
    (hs : src < 4096) (ht : t < 4096) (hn : 1 ≤ n ∧ n ≤ 256) (hpc : c.pc = BitVec.ofNat 16 p)
    (h1 : V c .V1 = 0) {poly : Byte} (hp : ∀ v, tableAt mem t v = crcTable poly v) :
    ∃ d, run b env c (11 * n - 1) = .ok (.ready d) ∧
      V d .V2 = crcBits poly (V c .V2) ((bytesFrom mem src n).flatMap bitsOf) := by
  obtain ⟨d, h, h2, -⟩ := C131_chip8 hv hcode hs ht hn hpc h1
  refine ⟨d, h, ?_⟩
  rw [h2, crc_checksum, show tableAt mem t = crcTable poly from funext hp]

end

/-! ### Concrete cases -/

/-- The memory of the cases: the loop for nine bytes at 0x300 with a table at 0x400 lies at 0x200; the table is that of
the CRC-8 with the polynomial x^8 + x^2 + x + 1; the message is "123456789". -/
def crcMem : Mem := fun a =>
  if 0x400 ≤ a.toNat ∧ a.toNat < 0x500 then crcTable 7 (byte (a.toNat - 0x400))
  else if 0x300 ≤ a.toNat then byte (0x31 + (a.toNat - 0x300))
  else ([0xa3, 0x00, 0xf1, 0x1e, 0xf0, 0x65, 0x80, 0x23, 0xa4, 0x00, 0xf0, 0x1e, 0xf0, 0x65, 0x82, 0x00, 0x71, 0x01,
    0x31, 0x09, 0x12, 0x00] : List Byte)[a.toNat - 0x200]?.getD 0

/-- The machine in front of the loop. -/
def crcSample : Chip8 Verif.Mos.FlatRam Unit :=
  { setV (setV sample .V1 0) .V2 0 with address_space := ⟨crcMem⟩ }

theorem crcSample_code : CodeAt crcMem 0x200 (chip8Checksum 0x200 0x300 0x400 9) := by
  refine ⟨by decide, fun i w h => ?_⟩
  have hi : i < 11 := by
    have := (List.getElem?_eq_some_iff.1 h).1
    exact this
  have : ∀ i : Fin 11, (chip8Checksum 0x200 0x300 0x400 9)[(i : Nat)]? =
      some (wordAt crcMem (BitVec.ofNat 16 (0x200 + 2 * i))) := by decide +kernel
  have h' := this ⟨i, hi⟩
  rw [h] at h'
  exact (Option.some.inj h').symm

theorem crcMem_table (v : Byte) : tableAt crcMem 0x400 v = crcTable 7 v := by
  revert v
  decide +kernel

/-- The check value of this CRC, that of "123456789", is 0xF4. -/
example : ∃ d, run .debug (fun _ => ⟨0, 0, 0, 0⟩) crcSample 98 = .ok (.ready d) ∧ V d .V2 = 0xf4 := by
  obtain ⟨d, h, h2⟩ := C131_chip8_crc (b := .debug) (env := fun _ => ⟨0, 0, 0, 0⟩) (c := crcSample) (mem := crcMem)
    (view _ _) crcSample_code (by decide) (by decide) (by decide) (by decide +kernel) (by decide +kernel) crcMem_table
  exact ⟨d, h, h2.trans (by decide +kernel)⟩

end Verif.Props.Chip8
