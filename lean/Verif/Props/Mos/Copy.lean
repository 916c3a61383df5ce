import Verif.Proofs.MosLoop
import Verif.Props.Mos.Multibyte

/-!
# C83: the copy loop

`LDX #n`, then `LDA src-1,X / STA dst-1,X / DEX / BNE` back to the `LDA`: the loop of every 6502 block
copy. The emulator adds the displacement of a taken branch to the address of the branch, not to that
of the next instruction, so the displacement an assembler emits leads back to the `LDX` and the loop
never ends. With a displacement two higher the loop is right for every length.
-/

namespace Verif.Mos

open Verif Verif.Spec.Mos

/-- C83 in full: the loop as assembled ends behind the `BNE` with the bytes copied. -/
def C83_statement : Prop :=
  ∀ (B : Type) [Addressable B] (b : Build) (I : B → Mem → Prop), Coherent b I →
  ∀ (p n src dst : Nat), AcceptsAt b I (InArea dst n) → CopyLayout p n src dst →
  ∀ (s : Regs) (mem : Mem), s.pc = word p → CodeAt mem p (copyProgram back9 n src dst) →
    ∃ k c s' mem', Reaches b I s mem k c s' mem' ∧ s'.pc = word (p + 11) ∧
      ∀ j, j < n → mem' (word (dst + j)) = mem (word (src + j))

section
variable {B : Type} [Addressable B] {b : Build} {I : B → Mem → Prop} {p n src dst : Nat} {s : Regs}
  {mem : Mem}

/-- C83: with the displacement two higher than the documented one the loop copies `n` bytes, for every
`n`, in exactly `4 n + 1` instructions and the cycles of `copyLoopCycles`, and touches nothing but the
destination, A, X and the flags. It also copies upwards onto itself (`src ≤ dst`). -/
theorem C83_copies_partial (hI : Coherent b I) (hacc : AcceptsAt b I (InArea dst n))
    (hl : CopyLayout p n src dst) (hpc : s.pc = word p)
    (hcode : CodeAt mem p (copyProgram back7 n src dst)) :
    ∃ s' mem', Reaches b I s mem (4 * n + 1) (copyLoopCycles p n src) s' mem' ∧
      s'.pc = word (p + 11) ∧ s'.x = 0 ∧ s'.y = s.y ∧ s'.sp = s.sp ∧
      (∀ j, j < n → mem' (word (dst + j)) = mem (word (src + j))) ∧
      ∀ x, ¬ InArea dst n x → mem' x = mem x := by
  have hn := hl.count
  have r1 := copy_ldx hI hacc (copyCode hcode) hl.code hpc
  obtain ⟨m, rfl⟩ : ∃ m, n = m + 1 := ⟨n - 1, by omega⟩
  obtain ⟨c, s', h1, r2, q1, q2, q3, q4⟩ := copy_loop hI hl hacc m
    { s with x := byte (m + 1), p := setNZ s.p (byte (m + 1)), pc := word (p + 2) } mem (copyCode hcode)
    (by omega) rfl (by show (byte (m + 1)).toNat = _; rw [toNat_byte]; omega)
  refine ⟨s', _, ?_, q1, q2, q3, q4,
    fun j hj => copyMem_copied (m + 1) mem j hl.target.2 hl.source.2 hl.order hj,
    fun x hx => copyMem_outside (m + 1) mem x hl.target.2 hx⟩
  have := r1.trans r2
  have e : 4 * (m + 1) + 1 = 1 + (4 * m + 4) := by omega
  rw [e, ← h1, Nat.add_comm c 2]; exact this

theorem sum_le_length (l : List Nat) (h : ∀ x ∈ l, x ≤ 1) : l.sum ≤ l.length := by
  induction l with
  | nil => exact Nat.le_refl _
  | cons x l ih =>
    have h1 := h x (by simp)
    have h2 := ih fun x hx => h x (by simp [hx])
    simp only [List.sum_cons, List.length_cons]
    omega

/-- C83: these are between `14 n + 1` and `16 n` cycles. -/
theorem C83_cycles {n : Nat} (hn : 1 ≤ n) (p src : Nat) :
    14 * n + 1 ≤ copyLoopCycles p n src ∧ copyLoopCycles p n src ≤ 16 * n := by
  have h1 : ∀ x y, crosses x y ≤ 1 := fun x y => by unfold crosses; split <;> omega
  have h2 := sum_le_length ((List.range n).map fun i => crosses (src - 1) (src + i))
    (by intro x hx; obtain ⟨i, -, rfl⟩ := List.mem_map.1 hx; exact h1 _ _)
  have h3 : (n - 1) * crosses (p + 2) (p + 9) ≤ (n - 1) * 1 := Nat.mul_le_mul_left _ (h1 _ _)
  rw [List.length_map, List.length_range] at h2
  unfold copyLoopCycles
  omega

/-- C83: the assembled loop does copy a single byte. -/
theorem C83_one (hI : Coherent b I) (hacc : AcceptsAt b I (InArea dst 1))
    (hl : CopyLayout p 1 src dst) (hpc : s.pc = word p)
    (hcode : CodeAt mem p (copyProgram back9 1 src dst)) :
    ∃ c s', Reaches b I s mem 5 c s' (upd mem (word dst) (mem (word src))) ∧ s'.pc = word (p + 11) := by
  have r1 := copy_ldx hI hacc (copyCode hcode) hl.code hpc
  obtain ⟨s1, r2, q1, q2, q3, q4, q5, hc'⟩ := copy_body (s := { s with
    x := byte 1, p := setNZ s.p (byte 1), pc := word (p + 2) }) hI hl hacc (copyCode hcode) (i := 0)
    (by omega) rfl rfl
  have r3 := (copy_bne hI hacc hc' hl.code q1).1 (by rw [q3]; rfl)
  exact ⟨_, _, (r1.trans r2).trans r3, rfl⟩

/-- Where the assembled loop is caught. -/
def Caught (p n src dst : Nat) (s : Regs) (mem₀ mem : Mem) : Prop :=
  CopyCode mem back9 p n src dst ∧ (∀ x, x ≠ word (dst + (n - 1)) → mem x = mem₀ x) ∧
  (s.pc = word p ∨ s.pc = word (p + 2) ∧ s.x = byte n ∨ s.pc = word (p + 5) ∧ s.x = byte n ∨
    s.pc = word (p + 8) ∧ s.x = byte n ∨ s.pc = word (p + 9) ∧ s.p.zero = false)

theorem caught_step (hI : Coherent b I) (hacc : AcceptsAt b I (InArea dst n))
    (hl : CopyLayout p n src dst) (hn : 2 ≤ n) {mem₀ : Mem} (h : Caught p n src dst s mem₀ mem) :
    ∃ c s' mem', Reaches b I s mem 1 c s' mem' ∧ Caught p n src dst s' mem₀ mem' := by
  obtain ⟨hc, hm, h⟩ := h
  have hn2 := hl.count
  have h1 := hl.source
  have h2 := hl.target
  have hb : (byte n).toNat = n := by rw [toNat_byte]; omega
  rcases h with h | ⟨h, hx⟩ | ⟨h, hx⟩ | ⟨h, hx⟩ | ⟨h, hz⟩
  · exact ⟨_, _, _, copy_ldx hI hacc hc hl.code h, hc, hm, .inr (.inl ⟨rfl, rfl⟩)⟩
  · have r := copy_lda hI hacc hc hl.code ⟨h1.1, by omega⟩ h (by rw [hx, hb]; omega)
    exact ⟨_, _, _, r, hc, hm, .inr (.inr (.inl ⟨rfl, hx⟩))⟩
  · have hi : s.x.toNat - 1 = n - 1 := by rw [hx, hb]
    have r := copy_sta hI hacc hc hl.code ⟨h2.1, by omega⟩ h (by rw [hx, hb]; omega)
      (by rw [hi]; constructor <;> rw [toNat_word_lt _ (by omega)] <;> omega)
    rw [hi] at r
    exact ⟨_, _, _, r, copyCode_upd hc hl.code h2.2 (by omega) hl.safe _,
      fun x hx => by rw [upd_other _ _ hx]; exact hm x hx, .inr (.inr (.inr (.inl ⟨rfl, hx⟩)))⟩
  · refine ⟨_, _, _, copy_dex hI hacc hc hl.code h, hc, hm, .inr (.inr (.inr (.inr ⟨rfl, ?_⟩)))⟩
    show decide ((s.x - 1).toNat = 0) = false
    rw [hx, BitVec.toNat_sub, hb]
    have : (1 : Byte).toNat = 1 := rfl
    rw [this, decide_eq_false_iff_not]; omega
  · have r := (copy_bne hI hacc hc hl.code h).2 hz
    rw [codeTarget_back9] at r
    exact ⟨_, _, _, r, hc, hm, .inl rfl⟩

/-- C83: the loop as assembled, with two bytes or more to copy, runs for ever: after any number of
instructions `pc` is at one of the five instructions and no byte but the last of the destination has
changed. -/
theorem C83_endless (hI : Coherent b I) (hacc : AcceptsAt b I (InArea dst n))
    (hl : CopyLayout p n src dst) (hn : 2 ≤ n) (hpc : s.pc = word p)
    (hcode : CodeAt mem p (copyProgram back9 n src dst)) (k : Nat) :
    ∃ c s' mem', Reaches b I s mem k c s' mem' ∧
      s'.pc ∈ [word p, word (p + 2), word (p + 5), word (p + 8), word (p + 9)] ∧
      ∀ x, x ≠ word (dst + (n - 1)) → mem' x = mem x := by
  have key : ∀ k, ∃ c s' mem', Reaches b I s mem k c s' mem' ∧ Caught p n src dst s' mem mem' := by
    intro k
    induction k with
    | zero => exact ⟨0, s, mem, .refl, copyCode hcode, fun _ _ => rfl, .inl hpc⟩
    | succ k ih =>
      obtain ⟨c, s1, m1, r1, h1⟩ := ih
      obtain ⟨c2, s2, m2, r2, h2⟩ := caught_step hI hacc hl hn h1
      exact ⟨_, _, _, r1.trans r2, h2⟩
  obtain ⟨c, s', mem', r, _, hm, h⟩ := key k
  refine ⟨c, s', mem', r, ?_, hm⟩
  rcases h with h | ⟨h, _⟩ | ⟨h, _⟩ | ⟨h, _⟩ | ⟨h, _⟩ <;> rw [h] <;> simp

end

/-! ### Witnesses -/

theorem twoCopy : CopyLayout 0x200 2 0x10 0x12 :=
  ⟨by omega, by omega, by omega, by omega, .inl (by omega), .inl (by omega)⟩

theorem flat_reaches_same {b : Build} {s t t' : Regs} {mem m m' : Mem} {k n n' : Nat}
    (h : Reaches b (fun (d : FlatRam) mem => d.mem = mem) s mem k n t m)
    (h' : Reaches b (fun (d : FlatRam) mem => d.mem = mem) s mem k n' t' m') : t = t' := by
  let cpu : Mos6502 FlatRam :=
    { (machine s 0 0 0) with address_map := ⟨mem⟩ }
  obtain ⟨l, e, q1, q2, q3, q4, q5⟩ := h cpu rfl rfl
  obtain ⟨l', e', q1', q2', q3', q4', q5'⟩ := h' cpu rfl rfl
  have := instructions_unique q1 q1' (by rw [q2, q2'])
  rw [← q4, ← q4', this]

/-- C83: the statement is false: two bytes. -/
theorem C83_textbook_loop : ¬ C83_statement := by
  intro h
  let mem := loaded 0x200 (copyProgram back9 2 0x10 0x12) (twoNumbers 0xaa 0xbb 1 0)
  have hc : CodeAt mem 0x200 (copyProgram back9 2 0x10 0x12) := loaded_code (by decide)
  obtain ⟨k, c, s1, m1, r1, q1, _⟩ := h FlatRam .release _ (flatRam_coherent _) 0x200 2 0x10 0x12
    (flat_acceptsAt _ _) twoCopy atProgram mem rfl hc
  obtain ⟨c', s2, m2, r2, q2, _⟩ := C83_endless (flatRam_coherent .release) (flat_acceptsAt _ _) twoCopy
    (by omega) (s := atProgram) (mem := mem) rfl hc k
  rw [← flat_reaches_same r1 r2, q1] at q2
  exact absurd q2 (by decide +kernel)

/-- Non-vacuity of `C83_copies_partial`: two bytes from 0x10 to 0x12, in both builds. -/
example (b : Build) : ∃ s' mem', Reaches b (fun (d : FlatRam) mem => d.mem = mem) atProgram
      (loaded 0x200 (copyProgram back7 2 0x10 0x12) (twoNumbers 0xaa 0xbb 1 0)) 9 29 s' mem' ∧
      mem' 0x12 = 0xaa ∧ mem' 0x13 = 0xbb ∧ mem' 0x10 = 0xaa := by
  obtain ⟨s', mem', r, _, _, _, _, q, q'⟩ := C83_copies_partial (flatRam_coherent b)
    (flat_acceptsAt _ _) twoCopy (s := atProgram)
    (mem := loaded 0x200 (copyProgram back7 2 0x10 0x12) (twoNumbers 0xaa 0xbb 1 0)) rfl
    (loaded_code (by decide))
  refine ⟨s', mem', r, ?_, ?_, ?_⟩
  · exact (q 0 (by omega)).trans (by decide +kernel)
  · exact (q 1 (by omega)).trans (by decide +kernel)
  · exact (q' 0x10 (fun h => by have := h.1; have t : (0x10 : Word).toNat = 16 := rfl; omega)).trans
      (by decide +kernel)

/-- Non-vacuity of `C83_copies_partial`: overlapping areas, 200 bytes moved up by one. -/
example : CopyLayout 0x200 200 0x10 0x11 :=
  ⟨by omega, by omega, by omega, by omega, .inl (by omega), .inl (by omega)⟩

/-- Three bytes, two of them in another page than the base address, with a branch to another page: the 43 cycles of
`14 n + 1`, two for the bytes and two for the branches. -/
example : copyLoopCycles 0x2f8 3 0xff = 47 := by decide

/-- Non-vacuity of `C83_one`. -/
example (b : Build) : ∃ c s', Reaches b (fun (d : FlatRam) mem => d.mem = mem) atProgram
      (loaded 0x200 (copyProgram back9 1 0x10 0x12) (twoNumbers 0xaa 0xbb 1 0)) 5 c s'
      (upd (loaded 0x200 (copyProgram back9 1 0x10 0x12) (twoNumbers 0xaa 0xbb 1 0)) (word 0x12)
        (loaded 0x200 (copyProgram back9 1 0x10 0x12) (twoNumbers 0xaa 0xbb 1 0) (word 0x10))) ∧
      s'.pc = word 0x20b :=
  C83_one (flatRam_coherent b) (flat_acceptsAt _ _) (p := 0x200)
    ⟨by omega, by omega, by omega, by omega, .inl (by omega), .inl (by omega)⟩ rfl (loaded_code (by decide))

end Verif.Mos
