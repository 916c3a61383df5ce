import Verif.Proofs.MosChain
import Verif.Proofs.MosStack

/-!
# C82: multi-byte addition and subtraction

The routine every 6502 textbook gives for adding two numbers of `n` bytes: `CLC`, then for each byte,
low byte first, `LDA` / `ADC` / `STA`. With `SEC` and `SBC` it subtracts. On the emulator the first is
right exactly when no byte but the last overflows (its `ADC` never adds the carry), the second
exactly when no byte of the subtrahend is 0 while nothing is to be borrowed (its `SBC` then loses the
carry).
-/

namespace Verif.Mos

open Verif Verif.Spec.Mos

/-- C82 in full: the routine computes the sum, whatever the numbers and their length. -/
def C82_statement : Prop :=
  ∀ (B : Type) [Addressable B] (b : Build) (I : B → Mem → Prop), Coherent b I →
  ∀ (n p a c r : Nat), AcceptsAt b I (InArea r n) → Layout p n a c r →
  ∀ (s : Regs) (mem : Mem), s.pc = word p → s.p.decimal = false → CodeAt mem p (addProgram n a c r) →
    ∃ s' mem', Reaches b I s mem (3 * n + 1) (12 * n + 2) s' mem' ∧ s'.pc = word (p + (9 * n + 1)) ∧
      number mem' r n = (number mem a n + number mem c n) % 256 ^ n

/-- C82 for subtraction. -/
def C82_sub_statement : Prop :=
  ∀ (B : Type) [Addressable B] (b : Build) (I : B → Mem → Prop), Coherent b I →
  ∀ (n p a c r : Nat), AcceptsAt b I (InArea r n) → Layout p n a c r →
  ∀ (s : Regs) (mem : Mem), s.pc = word p → s.p.decimal = false → CodeAt mem p (subProgram n a c r) →
    ∃ s' mem', Reaches b I s mem (3 * n + 1) (12 * n + 2) s' mem' ∧ s'.pc = word (p + (9 * n + 1)) ∧
      number mem' r n = (number mem a n + 256 ^ n - number mem c n) % 256 ^ n

section
variable {B : Type} [Addressable B] {b : Build} {I : B → Mem → Prop} {n p a c r : Nat} {s : Regs}
  {mem : Mem}

/-- C82: the addition routine runs to its end in `3 n + 1` instructions and `12 n + 2` cycles, touches
nothing but the result, A and the flags, and the result is the sum exactly when no byte but the last
overflows. Missing for the full statement: the sums that need a carry. -/
theorem C82_add_partial (hI : Coherent b I) (hacc : AcceptsAt b I (InArea r n)) (hl : Layout p n a c r)
    (hpc : s.pc = word p) (hcode : CodeAt mem p (addProgram n a c r)) :
    ∃ s' mem', Reaches b I s mem (3 * n + 1) (12 * n + 2) s' mem' ∧ s'.pc = word (p + (9 * n + 1)) ∧
      Kept s s' ∧ (∀ x, ¬ InArea r n x → mem' x = mem x) ∧
      (number mem' r n = (number mem a n + number mem c n) % 256 ^ n ↔
        ∀ j, j + 1 < n → (mem (word (a + j))).toNat + (mem (word (c + j))).toNat < 256) := by
  obtain ⟨s', mem', h1, h2, h3, h4, h5⟩ := program_reaches (first := 0x18) (k := false) hI hacc does_adc
    ⟨.ClcImplied, .Clc, fun _ _ => rfl, rfl, rfl, fun _ _ => rfl, fun _ _ => rfl⟩ hpc hcode hl (fun _ h => h)
  refine ⟨s', mem', h1, h2, h3, h4, ?_⟩
  rw [number_eq, number_eq, number_eq,
    val_congr (C := fun j => (digits mem a j + digits mem c j) % 256) n (fun j hj => by
      show (mem' (word (r + j))).toNat = _
      rw [h5 j hj]
      show (byte _).toNat = _
      rw [toNat_byte]; rfl)]
  exact Multibyte.no_carry_iff (digits_lt mem a) (digits_lt mem c) n

/-- C82: the subtraction routine runs to its end, and the result is the difference exactly when no
byte of the subtrahend but the last is 0 while the bytes below it need no borrow. -/
theorem C82_sub_partial (hI : Coherent b I) (hacc : AcceptsAt b I (InArea r n)) (hl : Layout p n a c r)
    (hpc : s.pc = word p) (hcode : CodeAt mem p (subProgram n a c r)) :
    ∃ s' mem', Reaches b I s mem (3 * n + 1) (12 * n + 2) s' mem' ∧ s'.pc = word (p + (9 * n + 1)) ∧
      Kept s s' ∧ (∀ x, ¬ InArea r n x → mem' x = mem x) ∧
      (number mem' r n = (number mem a n + 256 ^ n - number mem c n) % 256 ^ n ↔
        ∀ j, j + 1 < n → ¬(mem (word (c + j)) = 0 ∧ number mem c j ≤ number mem a j)) := by
  obtain ⟨s', mem', h1, h2, h3, h4, h5⟩ := program_reaches (first := 0x38) (k := true) hI hacc does_sbc
    ⟨.SecImplied, .Sec, fun _ _ => rfl, rfl, rfl, fun _ _ => rfl, fun _ _ => rfl⟩ hpc hcode hl (fun _ h => h)
  refine ⟨s', mem', h1, h2, h3, h4, ?_⟩
  rw [number_eq, number_eq, number_eq,
    val_congr (C := fun j => (digits mem a j + 255 - digits mem c j + bit (carryAt sbcByte mem j a c true)) % 256)
      n (fun j hj => by
      have := digits_lt mem c j
      show (mem' (word (r + j))).toNat = _
      rw [h5 j hj]
      have hk : bit (carryAt sbcByte mem j a c true) ≤ 1 := by
        cases carryAt sbcByte mem j a c true <;> decide
      simp only [sbcByte, subWithBorrow, toNat_byte, digits] at *
      omega),
    Multibyte.lost_carry_iff (K := fun j => bit (carryAt sbcByte mem j a c true)) (digits_lt mem a)
      (digits_lt mem c) rfl (fun j => by
        have h1 := digits_lt mem a j
        have h2 := digits_lt mem c j
        simp only [carryAt_succ, sbcByte, subWithBorrow, digits] at *
        cases carryAt sbcByte mem j a c true <;>
          simp only [bit, Bool.and_true, Bool.and_false, Bool.not_false, Bool.and_eq_true, decide_eq_true_eq,
            Bool.not_eq_true', decide_eq_false_iff_not, Bool.false_eq_true, and_true, if_true, if_false] <;>
          (repeat' split) <;> omega) n]
  refine forall_congr' fun j => forall_congr' fun _ => not_congr ?_
  rw [number_eq, number_eq]
  refine and_congr ?_ Iff.rfl
  show (mem (word (c + j))).toNat = 0 ↔ _
  constructor
  · exact fun h => BitVec.eq_of_toNat_eq (by rw [h]; rfl)
  · exact fun h => by rw [h]; rfl

/-- C82: so the shortest sums, and every sum whose carries stay inside the bytes, come out right. -/
theorem C82_add_one_byte (hI : Coherent b I) (hacc : AcceptsAt b I (InArea r 1)) (hl : Layout p 1 a c r)
    (hpc : s.pc = word p) (hcode : CodeAt mem p (addProgram 1 a c r)) :
    ∃ s' mem', Reaches b I s mem 4 14 s' mem' ∧
      number mem' r 1 = (number mem a 1 + number mem c 1) % 256 := by
  obtain ⟨s', mem', h1, _, _, _, h5⟩ := C82_add_partial hI hacc hl hpc hcode
  exact ⟨s', mem', h1, by simpa using h5.2 (fun j hj => by omega)⟩

end

/-! ### Witnesses -/

/-- A memory with `code` at `p` and `data` elsewhere. -/
def loaded (p : Nat) (code : List Byte) (data : Mem) : Mem :=
  fun w => if p ≤ w.toNat ∧ w.toNat < p + code.length then code.getD (w.toNat - p) 0 else data w

theorem loaded_code {p : Nat} {code : List Byte} {data : Mem} (h : p + code.length ≤ 65536) :
    CodeAt (loaded p code data) p code := by
  intro k hk
  show (if _ then _ else _) = _
  rw [toNat_word_lt _ (by omega), if_pos ⟨by omega, by omega⟩, Nat.add_sub_cancel_left,
    List.getD_eq_getElem?_getD, List.getElem?_eq_getElem hk]
  rfl

theorem flat_acceptsAt (b : Build) (W : Word → Prop) :
    AcceptsAt b (fun (d : FlatRam) mem => d.mem = mem) W :=
  fun _ _ _ _ _ _ => ⟨_, _, rfl⟩

/-- Two 2-byte numbers at 0x10 and 0x12. -/
def twoNumbers (x0 x1 y0 y1 : Byte) : Mem :=
  fun w => if w = 0x10 then x0 else if w = 0x11 then x1 else if w = 0x12 then y0
    else if w = 0x13 then y1 else 0

theorem twoLayout : Layout 0x200 2 0x10 0x12 0x14 :=
  ⟨by omega, by omega, by omega, by omega, .inl (by omega), .inr (by omega), .inr (by omega)⟩

theorem instructions_unique {B : Type} [Addressable B] {b : Build} {c d d' : Mos6502 B}
    {l l' : List Operations} (h : Instructions b c l d) (h' : Instructions b c l' d')
    (hl : l.length = l'.length) : d = d' := by
  induction h generalizing l' with
  | nil => cases h' with
    | nil => rfl
    | cons => simp at hl
  | cons h1 _ ih => cases h' with
    | nil => simp at hl
    | cons h2 h3 =>
      rw [h1] at h2
      cases h2
      exact ih h3 (by simpa using hl)

/-- On 64K of RAM the memory reached after `k` instructions is determined. -/
theorem flat_reaches_unique {b : Build} {s t t' : Regs} {mem m m' : Mem} {k n n' : Nat}
    (h : Reaches b (fun (d : FlatRam) mem => d.mem = mem) s mem k n t m)
    (h' : Reaches b (fun (d : FlatRam) mem => d.mem = mem) s mem k n' t' m') : m = m' := by
  let cpu : Mos6502 FlatRam :=
    { (machine s 0 0 0) with address_map := ⟨mem⟩ }
  obtain ⟨l, e, q1, q2, q3, q4, q5⟩ := h cpu rfl rfl
  obtain ⟨l', e', q1', q2', q3', q4', q5'⟩ := h' cpu rfl rfl
  have := instructions_unique q1 q1' (by rw [q2, q2'])
  rw [← q5, ← q5', this]

/-- Registers with `pc` at the program and D clear. -/
def atProgram : Regs := { sampleRegs with pc := word 0x200, p := { sampleRegs.p with decimal := false } }

/-- C82: the statement is false: 0x00ff + 0x0001. -/
theorem C82_no_carry : ¬ C82_statement := by
  intro h
  let mem := loaded 0x200 (addProgram 2 0x10 0x12 0x14) (twoNumbers 0xff 0 1 0)
  have hc : CodeAt mem 0x200 (addProgram 2 0x10 0x12 0x14) := loaded_code (by decide)
  obtain ⟨s1, m1, r1, _, e1⟩ := h FlatRam .release _ (flatRam_coherent _) 2 0x200 0x10 0x12 0x14
    (flat_acceptsAt _ _) twoLayout atProgram mem rfl rfl hc
  obtain ⟨s2, m2, r2, _, _, _, e2⟩ := C82_add_partial (flatRam_coherent .release) (flat_acceptsAt _ _)
    twoLayout (s := atProgram) (mem := mem) rfl hc
  rw [flat_reaches_unique r1 r2] at e1
  exact absurd (e2.1 e1 0 (by omega)) (by decide +kernel)

/-- C82: the statement for subtraction is false: 0x0100 - 0x0000. -/
theorem C82_lost_carry : ¬ C82_sub_statement := by
  intro h
  let mem := loaded 0x200 (subProgram 2 0x10 0x12 0x14) (twoNumbers 0 1 0 0)
  have hc : CodeAt mem 0x200 (subProgram 2 0x10 0x12 0x14) := loaded_code (by decide)
  obtain ⟨s1, m1, r1, _, e1⟩ := h FlatRam .release _ (flatRam_coherent _) 2 0x200 0x10 0x12 0x14
    (flat_acceptsAt _ _) twoLayout atProgram mem rfl rfl hc
  obtain ⟨s2, m2, r2, _, _, _, e2⟩ := C82_sub_partial (flatRam_coherent .release) (flat_acceptsAt _ _)
    twoLayout (s := atProgram) (mem := mem) rfl hc
  rw [flat_reaches_unique r1 r2] at e1
  exact absurd ⟨by decide +kernel, by decide +kernel⟩ (e2.1 e1 0 (by omega))

/-- Non-vacuity of `C82_add_partial`: 0x12f0 + 0x340f = 0x46ff comes out right, in both builds. -/
example (b : Build) :
    ∃ s' mem', Reaches b (fun (d : FlatRam) mem => d.mem = mem) atProgram
      (loaded 0x200 (addProgram 2 0x10 0x12 0x14) (twoNumbers 0xf0 0x12 0x0f 0x34)) 7 26 s' mem' ∧
      number mem' 0x14 2 = 0x46ff := by
  obtain ⟨s2, m2, r2, _, _, _, e2⟩ := C82_add_partial (flatRam_coherent b) (flat_acceptsAt _ _) twoLayout
    (s := atProgram) (mem := loaded 0x200 (addProgram 2 0x10 0x12 0x14) (twoNumbers 0xf0 0x12 0x0f 0x34))
    rfl (loaded_code (by decide))
  refine ⟨s2, m2, r2, (e2.2 ?_).trans (by decide +kernel)⟩
  intro j hj
  obtain rfl : j = 0 := by omega
  decide +kernel

/-- Non-vacuity of `C82_sub_partial`: 0x1200 - 0x0001 = 0x11ff, with a borrow. -/
example (b : Build) :
    ∃ s' mem', Reaches b (fun (d : FlatRam) mem => d.mem = mem) atProgram
      (loaded 0x200 (subProgram 2 0x10 0x12 0x14) (twoNumbers 0 0x12 1 0)) 7 26 s' mem' ∧
      number mem' 0x14 2 = 0x11ff := by
  obtain ⟨s2, m2, r2, _, _, _, e2⟩ := C82_sub_partial (flatRam_coherent b) (flat_acceptsAt _ _) twoLayout
    (s := atProgram) (mem := loaded 0x200 (subProgram 2 0x10 0x12 0x14) (twoNumbers 0 0x12 1 0))
    rfl (loaded_code (by decide))
  refine ⟨s2, m2, r2, (e2.2 ?_).trans (by decide +kernel)⟩
  intro j hj
  obtain rfl : j = 0 := by omega
  exact fun h => absurd h.1 (by decide +kernel)

/-- Non-vacuity of `C82_add_one_byte`: 0xc8 + 0x64 wraps to 0x2c. -/
example (b : Build) :
    ∃ s' mem', Reaches b (fun (d : FlatRam) mem => d.mem = mem) atProgram
      (loaded 0x200 (addProgram 1 0x10 0x12 0x14) (twoNumbers 0xc8 0 0x64 0)) 4 14 s' mem' ∧
      number mem' 0x14 1 = 0x2c := by
  obtain ⟨s2, m2, r2, e2⟩ := C82_add_one_byte (flatRam_coherent b) (flat_acceptsAt _ _)
    (p := 0x200) (a := 0x10) (c := 0x12) (r := 0x14)
    ⟨by omega, by omega, by omega, by omega, .inl (by omega), .inr (by omega), .inr (by omega)⟩
    (s := atProgram) (mem := loaded 0x200 (addProgram 1 0x10 0x12 0x14) (twoNumbers 0xc8 0 0x64 0))
    rfl (loaded_code (by decide))
  exact ⟨s2, m2, r2, e2.trans (by decide +kernel)⟩

end Verif.Mos
