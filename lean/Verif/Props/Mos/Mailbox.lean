import Verif.Spec.Mailbox
import Verif.Props.Mos.Copy
import Verif.Props.Mos.Periodic
import Verif.Props.Mos.Throughput

/-!
# C156: a program that waits for a byte from outside, run frame by frame

The loop `p: LDA a; BEQ p` runs under a front end that puts a byte into the mailbox at `a` before each frame and
then runs any number of cycles.
-/

namespace Verif.Props.Mos

open Verif Verif.Mos Verif.Spec.Mos

section
variable {B : Type} [Addressable B] {b : Build} {I : B → Mem → Prop} {W : Word → Prop} {mem : Mem}
  {p a : Nat} {r s t : Regs} {c : Mos6502 B} {fs gs : List (Byte × Nat)} {v : Byte} {n : Nat}

theorem poll_lda (hI : Coherent b I) (hacc : AcceptsAt b I W) (hc : CodeAt mem p (pollLoop a))
    (hp : p + 5 ≤ 65532) (hpc : s.pc = word p) :
    Reaches b I s mem 1 4 (fetched s (mem (word a)) (p + 3)) mem := by
  have h1 := code3 (codeAt_append (c := op16 0xad a) hc).1
  have := reaches_one (b := b) (I := I) (r := s) (mem := mem) hI hacc (mn := .Lda)
    (am := .absolute (word a)) (i := .LdaAbsolute (word a))
    (pcOk_of hpc (by omega))
    (by rw [hpc, h1.1, h1.2.1, h1.2.2]
        show some (InstructionVariant.LdaAbsolute _) = _
        rw [word_lohi]) rfl trivial (fun w hw => by cases hw)
  have e : (codeEffect s mem .Lda (.absolute (word a))).regs = fetched s (mem (word a)) (p + 3) := by
    show ({ s with a := mem (word a), p := setNZ s.p (mem (word a))
                   pc := nextPc s (.absolute (word a)) } : Regs) = _
    rw [nextPc_of hpc (by omega)]; rfl
  rw [e] at this
  exact this

theorem poll_target (p : Nat) : codeTarget (word (p + 3)) 0xfd = word p := by
  have e : (0xfd : Byte).signExtend 16 = BitVec.ofNat 16 65533 := by decide
  unfold codeTarget
  rw [e, word_add]
  exact word_congr (by omega)

theorem poll_beq (hI : Coherent b I) (hacc : AcceptsAt b I W) (hc : CodeAt mem p (pollLoop a))
    (hp : p + 5 ≤ 65532) (hpc : s.pc = word (p + 3)) :
    (s.p.zero = false → Reaches b I s mem 1 2 { s with pc := word (p + 5) } mem) ∧
    (s.p.zero = true → Reaches b I s mem 1 (3 + crosses p (p + 3)) { s with pc := word p } mem) := by
  have h2 := (codeAt_append (c := op16 0xad a) hc).2
  have b0 : mem (word (p + 3)) = 0xf0 := h2 0 (by simp)
  have b1 : mem (word (p + 3) + 1) = 0xfd := by
    have := h2 1 (by simp)
    rw [show (1 : Word) = BitVec.ofNat 16 1 from rfl, word_add]
    exact this
  have := reaches_one (b := b) (I := I) (r := s) (mem := mem) hI hacc (mn := .Beq)
    (am := .relative 0xfd) (i := .BeqRelative 0xfd) (pcOk_of hpc (by omega))
    (by rw [hpc, b0, b1]; rfl) rfl trivial (fun w hw => by cases hw)
  constructor
  · intro hz
    have e : (codeEffect s mem .Beq (.relative 0xfd)).regs = { s with pc := word (p + 5) } := by
      show ({ s with pc := if s.p.zero then codeTarget s.pc 0xfd else nextPc s (.relative 0xfd) } : Regs) = _
      rw [hz, nextPc_of hpc (by omega)]; rfl
    have c : codePenalty s mem .Beq (.relative 0xfd) = 0 := by
      show (if some s.p.zero = some true then _ else 0) = 0
      rw [hz]; rfl
    rw [e, c] at this
    exact this
  · intro hz
    have e : (codeEffect s mem .Beq (.relative 0xfd)).regs = { s with pc := word p } := by
      show ({ s with pc := if s.p.zero then codeTarget s.pc 0xfd else nextPc s (.relative 0xfd) } : Regs) = _
      rw [hz, hpc, poll_target]; rfl
    have c : codePenalty s mem .Beq (.relative 0xfd) = 1 + crosses p (p + 3) := by
      show (if some s.p.zero = some true then 1 + crosses (codeTarget s.pc 0xfd).toNat s.pc.toNat else 0) = _
      rw [hz, hpc, poll_target, toNat_word_lt p (by omega), toNat_word_lt (p + 3) (by omega)]; rfl
    rw [e, c] at this
    rw [show 3 + crosses p (p + 3) = baseCycles .Beq (.relative 0xfd) + (1 + crosses p (p + 3)) by
      show _ = 2 + _; omega]
    exact this

/-- While the mailbox holds zero, every instruction stays in the loop. -/
theorem waiting_step (hI : Coherent b I) (hacc : AcceptsAt b I W) (hc : CodeAt mem p (pollLoop a))
    (hp : p + 5 ≤ 65532) (hr : r.pc = word p) (h0 : mem (word a) = 0) (hw : Waiting p r (regs c))
    (hm : I c.address_map mem) :
    ∃ ops c', next b c = .ok (ops, c') ∧ Waiting p r (regs c') ∧ I c'.address_map mem := by
  have one : ∀ {m : Nat} {t : Regs}, Reaches b I (regs c) mem 1 m t mem → Waiting p r t →
      ∃ ops c', next b c = .ok (ops, c') ∧ Waiting p r (regs c') ∧ I c'.address_map mem := by
    intro m t h ht
    obtain ⟨l, d, g1, g2, _, g4, g5⟩ := h c rfl hm
    cases g1 with
    | nil => cases g2
    | cons h1 h2 =>
      cases h2 with
      | nil => exact ⟨_, _, h1, g4 ▸ ht, g5⟩
      | cons _ _ => simp at g2
  rcases hw with hw | hw | hw
  · refine one (poll_lda hI hacc hc hp (by rw [hw]; exact hr)) (.inr (.inl ?_))
    rw [hw, h0]
  · exact one ((poll_beq hI hacc hc hp (by rw [hw]; rfl)).2 (by rw [hw]; rfl)) (.inr (.inr (by rw [hw]; rfl)))
  · refine one (poll_lda hI hacc hc hp (by rw [hw]; rfl)) (.inr (.inl ?_))
    rw [hw, h0]; rfl

theorem waiting_instructions (hI : Coherent b I) (hacc : AcceptsAt b I W) (hc : CodeAt mem p (pollLoop a))
    (hp : p + 5 ≤ 65532) (hr : r.pc = word p) (h0 : mem (word a) = 0) {l : List Operations} {d : Mos6502 B}
    (h : Instructions b c l d) (hw : Waiting p r (regs c)) (hm : I c.address_map mem) :
    Waiting p r (regs d) ∧ I d.address_map mem := by
  induction h with
  | nil c => exact ⟨hw, hm⟩
  | cons h1 _ ih =>
    obtain ⟨ops, c', g1, g2, g3⟩ := waiting_step hI hacc hc hp hr h0 hw hm
    rw [h1] at g1
    cases g1
    exact ih g2 g3

theorem waiting_run (hI : Coherent b I) (hacc : AcceptsAt b I W) (hc : CodeAt mem p (pollLoop a))
    (hp : p + 5 ≤ 65532) (hr : r.pc = word p) (h0 : mem (word a) = 0) (hw : Waiting p r (regs c))
    (hm : I c.address_map mem) (n : Nat) :
    ∃ d, run b c n = .ok (.ready d) ∧ Waiting p r (regs d) ∧ I d.address_map mem := by
  cases h : run b c n with
  | error q =>
    obtain ⟨l, d, h1, -, h3⟩ := C12_panic.1 h
    obtain ⟨g1, g2⟩ := waiting_instructions hI hacc hc hp hr h0 h1 hw hm
    obtain ⟨ops, c', k1, -⟩ := waiting_step hI hacc hc hp hr h0 g1 g2
    rw [k1] at h3; cases h3
  | ok s =>
    obtain ⟨l, d, h1, -, rfl, -⟩ := C12_run_ok h
    exact ⟨d, rfl, waiting_instructions hI hacc hc hp hr h0 h1 hw hm⟩

theorem code_upd (hc : CodeAt mem p (pollLoop a)) (hp : p + 5 ≤ 65532) (ha : a < 65536) (hap : Apart a 1 p 5)
    (v : Byte) : CodeAt (upd mem (word a) v) p (pollLoop a) := by
  intro k hk
  rw [← hc k hk]
  refine if_neg (fun h => ?_)
  have := congrArg BitVec.toNat h
  change k < 5 at hk
  rw [toNat_word_lt _ (by omega), toNat_word_lt _ ha] at this
  rcases hap with h | h <;> omega

theorem mail_write (hI : Coherent b I) (hacc : AcceptsAt b I (· = word a)) (hm : I c.address_map mem) (v : Byte) :
    ∃ d q, withAddressMapMut c (fun m => Addressable.write b m (word a) v) = .ok (q, d) ∧ regs d = regs c ∧
      I d.address_map (upd mem (word a) v) := by
  obtain ⟨q, bus, h⟩ := hacc _ _ hm (word a) rfl v
  refine ⟨{ c with address_map := bus }, .ok q, ?_, rfl, (hI _ _ hm).2 _ _ _ _ h⟩
  show (Addressable.write b c.address_map (word a) v >>= _) = _
  rw [h]; rfl

/-- C156: while every byte put into the mailbox is zero, the program waits: after any number of frames of any
lengths it is still in its loop, with X, Y, the stack pointer and the other flags as they were, and memory is as it
was but for the mailbox. -/
theorem C156_waits (hI : Coherent b I) (hacc : AcceptsAt b I (· = word a)) (hc : CodeAt mem p (pollLoop a))
    (hp : p + 5 ≤ 65532) (ha : a < 65536) (hap : Apart a 1 p 5) (hr : r.pc = word p)
    (hw : Waiting p r (regs c)) (hm : I c.address_map mem) (h0 : ∀ f ∈ fs, f.1 = 0) :
    ∃ d mem', mailFrames b a c fs = .ok d ∧ Waiting p r (regs d) ∧ I d.address_map mem' ∧
      ∀ x, x ≠ word a → mem' x = mem x := by
  induction fs generalizing c mem with
  | nil => exact ⟨c, mem, rfl, hw, hm, fun _ _ => rfl⟩
  | cons f fs ih =>
    obtain ⟨v, n⟩ := f
    have hv : v = 0 := h0 (v, n) (by simp)
    subst hv
    obtain ⟨d, q, h1, h2, h3⟩ := mail_write hI hacc hm (0 : Byte)
    have hc' := code_upd hc hp ha hap (0 : Byte)
    obtain ⟨e, k1, k2, k3⟩ := waiting_run hI hacc hc' hp hr (if_pos rfl) (by rw [h2]; exact hw) h3 n
    obtain ⟨g, mem', j1, j2, j3, j4⟩ := ih hc' k2 k3 (fun f hf => h0 f (by simp [hf]))
    refine ⟨g, mem', ?_, j2, j3, fun x hx => (j4 x hx).trans (if_neg hx)⟩
    simp only [mailFrames, h1]
    show (run b d n >>= _) = _
    rw [k1]
    exact j1

/-- C156: as soon as another byte is put into the mailbox and the frame has as many cycles as one more round of the
loop takes, the program goes on behind the loop within that frame, with this byte in the accumulator. -/
theorem C156_noticed (hI : Coherent b I) (hacc : AcceptsAt b I (· = word a)) (hc : CodeAt mem p (pollLoop a))
    (hp : p + 5 ≤ 65532) (ha : a < 65536) (hap : Apart a 1 p 5) (hr : r.pc = word p)
    (hw : Waiting p r (regs c)) (hm : I c.address_map mem) (h0 : ∀ f ∈ fs, f.1 = 0) (hv : v ≠ 0)
    (hn : 9 + crosses p (p + 3) ≤ n) :
    ∃ d mem' k, k ≤ 9 + crosses p (p + 3) ∧ regs d = fetched r v (p + 5) ∧ I d.address_map mem' ∧
      mem' (word a) = v ∧ (∀ x, x ≠ word a → mem' x = mem x) ∧
      ∀ gs, mailFrames b a c (fs ++ (v, n) :: gs) =
        run b d (n - k) >>= fun s => mailFrames b a s.unwrap gs := by
  induction fs generalizing c mem with
  | nil =>
    obtain ⟨d, q, h1, h2, h3⟩ := mail_write hI hacc hm v
    have hc' := code_upd hc hp ha hap v
    have hv' : upd mem (word a) v (word a) = v := if_pos rfl
    have hz : ∀ t : Regs, (fetched t v (p + 3)).p.zero = false := fun t =>
      decide_eq_false (fun h => hv (BitVec.eq_of_toNat_eq h))
    have two : ∀ {s : Regs}, s.pc = word p → Reaches b I s (upd mem (word a) v) 2 6 (fetched s v (p + 5))
        (upd mem (word a) v) := by
      intro s hs
      have g1 := poll_lda hI hacc hc' hp hs
      rw [hv'] at g1
      exact g1.trans ((poll_beq hI hacc hc' hp (s := fetched s v (p + 3)) rfl).1 (hz s))
    have key : ∃ j k, k ≤ 9 + crosses p (p + 3) ∧
        Reaches b I (regs d) (upd mem (word a) v) j k (fetched r v (p + 5)) (upd mem (word a) v) := by
      rw [h2]
      rcases hw with hw | hw | hw
      · rw [hw]
        exact ⟨2, 6, by omega, two hr⟩
      · rw [hw]
        have g := ((poll_beq hI hacc hc' hp (s := fetched r 0 (p + 3)) rfl).2 rfl).trans (two (s := fetched r 0 p) rfl)
        exact ⟨1 + 2, 3 + crosses p (p + 3) + 6, by omega, g⟩
      · rw [hw]
        exact ⟨2, 6, by omega, two (s := fetched r 0 p) rfl⟩
    obtain ⟨j, k, hk, g⟩ := key
    obtain ⟨l, e, k1, -, k3, k4, k5⟩ := g d rfl h3
    refine ⟨e, _, k, hk, k4, k5, hv', fun x hx => if_neg hx, fun gs => ?_⟩
    simp only [List.nil_append, mailFrames, h1]
    show (run b d n >>= _) = _
    have := run_add k1 (n - k)
    rw [k3, show k + (n - k) = n by omega] at this
    rw [this]
  | cons f fs ih =>
    obtain ⟨w, m⟩ := f
    have hw0 : w = 0 := h0 (w, m) (by simp)
    subst hw0
    obtain ⟨d, q, h1, h2, h3⟩ := mail_write hI hacc hm (0 : Byte)
    have hc' := code_upd hc hp ha hap (0 : Byte)
    obtain ⟨e, k1, k2, k3⟩ := waiting_run hI hacc hc' hp hr (if_pos rfl) (by rw [h2]; exact hw) h3 m
    obtain ⟨g, mem', k, j1, j2, j3, j4, j5, j6⟩ := ih hc' k2 k3 (fun f hf => h0 f (by simp [hf]))
    refine ⟨g, mem', k, j1, j2, j3, j4, fun x hx => (j5 x hx).trans (if_neg hx), fun gs => ?_⟩
    rw [← j6 gs]
    simp only [List.cons_append, mailFrames, h1]
    show (run b d m >>= _) = _
    rw [k1]; rfl

/-- C156: frames shorter than the load of the mailbox never get anywhere, however many there are and whatever is put
into the mailbox: no cycles are carried over. -/
theorem C156_missed (hI : Coherent b I) (hacc : AcceptsAt b I (· = word a)) (hc : CodeAt mem p (pollLoop a))
    (hp : p + 5 ≤ 65532) (ha : a < 65536) (hap : Apart a 1 p 5) (hr : c.pc = word p)
    (hm : I c.address_map mem) (hn : ∀ f ∈ fs, f.2 < 4) :
    ∃ d, mailFrames b a c fs = .ok d ∧ regs d = regs c := by
  induction fs generalizing c mem with
  | nil => exact ⟨c, rfl, rfl⟩
  | cons f fs ih =>
    obtain ⟨v, n⟩ := f
    obtain ⟨d, q, h1, h2, h3⟩ := mail_write hI hacc hm v
    have hc' := code_upd hc hp ha hap v
    have hpc : (regs d).pc = word p := by rw [h2]; exact hr
    obtain ⟨l, e, k1, k2, k3, -, -⟩ := poll_lda hI hacc hc' hp hpc d rfl h3
    have hrun : run b d n = .ok (.ready d) := by
      cases k1 with
      | nil => cases k2
      | cons g1 g2 =>
        cases g2 with
        | nil =>
          refine C12_run_eq (.nil d) (Nat.zero_le n) (.inr ⟨_, _, g1, ?_⟩)
          have := hn (v, n) (by simp)
          simp [totalCycles] at k3 ⊢
          omega
        | cons _ _ => simp at k2
    obtain ⟨g, j1, j2⟩ := ih hc' hpc h3 (fun f hf => hn f (by simp [hf]))
    refine ⟨g, ?_, j2.trans h2⟩
    simp only [mailFrames, h1]
    show (run b d n >>= _) = _
    rw [hrun]
    exact j1

theorem reaches_next {m : Nat} {mem' : Mem} (h : Reaches b I s mem 1 m t mem') (hs : regs c = s)
    (hm : I c.address_map mem) :
    ∃ ops d, next b c = .ok (ops, d) ∧ ops.cycles = m ∧ regs d = t ∧ I d.address_map mem' := by
  obtain ⟨l, d, g1, g2, g3, g4, g5⟩ := h c hs hm
  cases g1 with
  | nil => cases g2
  | cons h1 h2 =>
    cases h2 with
    | nil => exact ⟨_, _, h1, by simpa [totalCycles] using g3, g4, g5⟩
    | cons _ _ => simp at g2

/-- C156: the number of cycles is sharp: a program that has just read zero is not yet behind its loop after a
frame that is one cycle shorter. -/
theorem C156_sharp (hI : Coherent b I) (hacc : AcceptsAt b I (· = word a)) (hc : CodeAt mem p (pollLoop a))
    (hp : p + 5 ≤ 65532) (ha : a < 65536) (hap : Apart a 1 p 5) (hw : regs c = fetched r 0 (p + 3))
    (hm : I c.address_map mem) (hn : n < 9 + crosses p (p + 3)) :
    ∃ d, mailFrames b a c [(v, n)] = .ok d ∧ (d.pc = word p ∨ d.pc = word (p + 3)) := by
  obtain ⟨d, q, h1, h2, h3⟩ := mail_write hI hacc hm v
  have hc' := code_upd hc hp ha hap v
  have hv' : upd mem (word a) v (word a) = v := if_pos rfl
  suffices h : ∃ e, run b d n = .ok (.ready e) ∧ (e.pc = word p ∨ e.pc = word (p + 3)) by
    obtain ⟨e, k1, k2⟩ := h
    refine ⟨e, ?_, k2⟩
    simp only [mailFrames, h1]
    show (run b d n >>= _) = _
    rw [k1]; rfl
  obtain ⟨o1, e1, x1, y1, z1, w1⟩ := reaches_next
    ((poll_beq hI hacc hc' hp (s := fetched r 0 (p + 3)) rfl).2 rfl) (h2.trans hw) h3
  obtain ⟨o2, e2, x2, y2, z2, w2⟩ := reaches_next (poll_lda hI hacc hc' hp rfl) z1 w1
  have z2' : e2.pc = word (p + 3) := congrArg Regs.pc z2
  have hx3 : ∃ o3 e3, next b e2 = .ok (o3, e3) ∧ 2 ≤ o3.cycles := by
    obtain ⟨g1, g2⟩ := poll_beq hI hacc hc' hp (s := regs e2) z2'
    cases hz : (regs e2).p.zero with
    | false =>
      obtain ⟨o3, e3, x3, y3, -, -⟩ := reaches_next (g1 hz) rfl w2
      exact ⟨o3, e3, x3, by omega⟩
    | true =>
      obtain ⟨o3, e3, x3, y3, -, -⟩ := reaches_next (g2 hz) rfl w2
      exact ⟨o3, e3, x3, by omega⟩
  obtain ⟨o3, e3, x3, y3⟩ := hx3
  by_cases c1 : n < o1.cycles
  · refine ⟨d, C12_run_eq (.nil d) (Nat.zero_le n) (.inr ⟨_, _, x1, ?_⟩), .inr ?_⟩
    · simpa [totalCycles] using c1
    · exact congrArg Regs.pc (h2.trans hw)
  by_cases c2 : n < o1.cycles + o2.cycles
  · refine ⟨e1, C12_run_eq (.cons x1 (.nil _)) ?_ (.inr ⟨_, _, x2, ?_⟩), .inl (congrArg Regs.pc z1)⟩
    · simp [totalCycles]; omega
    · simpa [totalCycles] using c2
  · refine ⟨e2, C12_run_eq (.cons x1 (.cons x2 (.nil _))) ?_ (.inr ⟨_, _, x3, ?_⟩), .inr z2'⟩
    · simp [totalCycles]; omega
    · simp [totalCycles]; omega

end

/-- A machine about to wait for the byte at 0x10, in a loop at 0x200. -/
def mailMachine : Mos6502 FlatRam :=
  withRegs atProgram ⟨loaded 0x200 (pollLoop 0x10) (twoNumbers 0 0 0 0)⟩

/-- Non-vacuity of `C156_waits` and `C156_noticed`: two idle frames, then 0x41 in a frame of 20 cycles. -/
example (b : Build) : ∃ d k, k ≤ 9 ∧ regs d = fetched atProgram 0x41 0x205 ∧
    mailFrames b 0x10 mailMachine [(0, 100), (0, 3), (0x41, 20)] = (run b d (20 - k)).map StepState.unwrap := by
  obtain ⟨d, mem', k, h1, h2, -, -, -, h6⟩ := C156_noticed (b := b) (c := mailMachine) (p := 0x200) (a := 0x10)
    (r := atProgram) (fs := [(0, 100), (0, 3)]) (v := 0x41) (n := 20) (flatRam_coherent b) (flat_acceptsAt _ _)
    (mem := loaded 0x200 (pollLoop 0x10) (twoNumbers 0 0 0 0)) (loaded_code (by decide)) (by omega) (by omega)
    (.inl (by omega)) rfl (.inl rfl) rfl (by decide) (by decide) (by decide)
  refine ⟨d, k, h1, h2, (h6 []).trans ?_⟩
  cases run b d (20 - k) <;> rfl

/-- Non-vacuity of `C156_missed`: ten frames of three cycles each, with a byte in the mailbox. -/
example (b : Build) : ∃ d, mailFrames b 0x10 mailMachine (List.replicate 10 (0x41, 3)) = .ok d ∧
    regs d = atProgram :=
  C156_missed (flatRam_coherent b) (flat_acceptsAt _ _)
    (mem := loaded 0x200 (pollLoop 0x10) (twoNumbers 0 0 0 0)) (loaded_code (by decide)) (by omega) (by omega)
    (.inl (by omega)) rfl rfl (by decide)

/-- Non-vacuity of `C156_sharp`: 0x41 in a frame of 8 cycles. -/
example (b : Build) : ∃ d, mailFrames b 0x10 { mailMachine with acc := 0, ps := setNZ atProgram.p 0, pc := 0x203 }
      [(0x41, 8)] = .ok d ∧ (d.pc = word 0x200 ∨ d.pc = word 0x203) :=
  C156_sharp (r := atProgram) (flatRam_coherent b) (flat_acceptsAt _ _)
    (mem := loaded 0x200 (pollLoop 0x10) (twoNumbers 0 0 0 0)) (loaded_code (by decide)) (by omega) (by omega)
    (.inl (by omega)) rfl rfl (by decide)

end Verif.Props.Mos
