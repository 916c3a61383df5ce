import Verif.Proofs.Structured
import Verif.Proofs.MosLoop
import Verif.Props.Mos.Run

/-!
# C92: structured programs on the 6502

The code is what any 6502 compiler would emit, with one parameter: the displacement of the branch
that skips a jump. Documented is 3, the length of the jump; the branches of the emulator, which count
from the branch itself and not from the instruction behind it (C26), need 5.
-/

namespace Verif.Mos

open Verif Verif.Spec.Mos Verif.Spec.Structured Verif.Structured

/-- The 6502 as a target: the variables are the cells of the zero page, assignments work in the
accumulator, a test is a comparison and a branch with the displacement `d`, a jump is `JMP`. -/
def mosTarget (d : Byte) : Target Byte Byte where
  width := 1
  jumpSize := 3
  act
    | .set x k => [0xa9, k] ++ [0x85, x]
    | .add x k => [0xa5, x] ++ ([0x18] ++ ([0x69, k] ++ [0x85, x]))
    | .copy x y => [0xa5, y] ++ [0x85, x]
    | .or x y => [0xa5, x] ++ ([0x05, y] ++ [0x85, x])
    | .and x y => [0xa5, x] ++ ([0x25, y] ++ [0x85, x])
    | .xor x y => [0xa5, x] ++ ([0x45, y] ++ [0x85, x])
  test
    | .eqK x k => [0xa5, x] ++ ([0xc9, k] ++ [0xf0, d])
    | .neK x k => [0xa5, x] ++ ([0xc9, k] ++ [0xd0, d])
    | .eq x y => [0xa5, x] ++ ([0xc5, y] ++ [0xf0, d])
    | .ne x y => [0xa5, x] ++ ([0xc5, y] ++ [0xd0, d])
  jump l := op16 0x4c l

/-- The instructions of the assignments and tests. -/
def mosCosts : Costs Byte where
  act
    | .set _ _ | .copy _ _ => 2
    | .add _ _ => 4
    | .or _ _ | .and _ _ | .xor _ _ => 3
  test _ := 3

/-- The address of a variable. -/
def zp (x : Byte) : Word := word x.toNat

/-- The values of the variables. -/
def zeroPage (mem : Mem) : Store Byte := fun x => mem (zp x)

section
variable {B : Type} [Addressable B]

/-- One instruction. -/
def OneStep (b : Build) (c d : Mos6502 B) : Prop := ∃ ops, next b c = .ok (ops, d)

/-- One instruction of `k` cycles. -/
def StepIn (b : Build) (k : Nat) (c d : Mos6502 B) : Prop := ∃ ops, next b c = .ok (ops, d) ∧ ops.cycles = k

/-- `k` instructions of `n` cycles in all. -/
def Lasts (b : Build) (n k : Nat) (c d : Mos6502 B) : Prop :=
  ∃ l, Instructions b c l d ∧ totalCycles l = n ∧ l.length = k

theorem StepIn.one {b : Build} {k : Nat} {c d : Mos6502 B} (h : StepIn b k c d) : OneStep b c d := by
  obtain ⟨ops, h, -⟩ := h
  exact ⟨ops, h⟩

theorem StepIn.lasts {b : Build} {k : Nat} {c d : Mos6502 B} (h : StepIn b k c d) : Lasts b k 1 c d := by
  obtain ⟨ops, h, rfl⟩ := h
  exact ⟨[ops], .cons h (.nil _), by simp [totalCycles], rfl⟩

theorem Lasts.nil {b : Build} {c : Mos6502 B} : Lasts b 0 0 c c := ⟨[], .nil _, rfl, rfl⟩

theorem Lasts.trans {b : Build} {n m k j : Nat} {c d e : Mos6502 B} (h : Lasts b n k c d) (h' : Lasts b m j d e) :
    Lasts b (n + m) (k + j) c e := by
  obtain ⟨l, h1, rfl, rfl⟩ := h
  obtain ⟨l', h2, rfl, rfl⟩ := h'
  refine ⟨l ++ l', ?_, by simp [totalCycles], by simp⟩
  induction h1 with
  | nil => exact h2
  | cons hn _ ih => exact .cons hn (ih h2)

/-- The CPU is at `q`, the zero page holds `σ`; memory outside the zero page and the registers other
than A, pc and the arithmetic flags are as in `mem₀` and `r₀`. -/
structure IsAt (I : B → Mem → Prop) (r₀ : Regs) (mem₀ : Mem) (σ : Store Byte) (q : Nat)
    (c : Mos6502 B) : Prop where
  pc : c.pc = word q
  kept : Kept r₀ (regs c)
  memory : ∃ mem, I c.address_map mem ∧ zeroPage mem = σ ∧ ∀ a : Word, 256 ≤ a.toNat → mem a = mem₀ a

variable {b : Build} {I : B → Mem → Prop} {r₀ : Regs} {mem₀ : Mem} {σ : Store Byte} {q : Nat}
  {c : Mos6502 B}

/-- One instruction of the program, from the bytes of the program. -/
theorem next_at (hI : Coherent b I) (hacc : AcceptsAt b I fun a => a.toNat < 256)
    (h : IsAt I r₀ mem₀ σ q c) {i : InstructionVariant} {mn : Mnemonic} {am : AddrMode}
    (hq : 256 ≤ q) (hq' : q ≤ 65532)
    (hp : Isa.parseInstruction (mem₀ (word q)) (mem₀ (word q + 1)) (mem₀ (word q + 2)) = some i)
    (hi : view i = (mn, am)) (hok : ∀ mem, AddrOk b (regs c) mem am)
    (hW : ∀ mem, ∀ w ∈ (codeEffect (regs c) mem mn am).writes, w.1.toNat < 256) :
    ∃ mem d, zeroPage mem = σ ∧ (∀ a : Word, 256 ≤ a.toNat → mem a = mem₀ a) ∧
      StepIn b (baseCycles mn am + codePenalty (regs c) mem mn am) c d ∧
      regs d = (codeEffect (regs c) mem mn am).regs ∧
      I d.address_map (store mem (codeEffect (regs c) mem mn am).writes) := by
  obtain ⟨mem, h1, h2, h3⟩ := h.memory
  have hpc : (regs c).pc = word q := h.pc
  have e : ∀ k, k ≤ 2 → mem (word q + BitVec.ofNat 16 k) = mem₀ (word q + BitVec.ofNat 16 k) := by
    intro k hk
    rw [word_add]
    exact h3 _ (by rw [toNat_word_lt _ (by omega)]; omega)
  have := reaches_one (b := b) (I := I) (r := regs c) (mem := mem) hI hacc (i := i) (mn := mn) (am := am)
    (pcOk_of hpc (by omega))
    (by rw [hpc, h3 (word q) (by rw [toNat_word_lt _ (by omega)]; exact hq), show (1 : Word) = BitVec.ofNat 16 1 from rfl,
          show (2 : Word) = BitVec.ofNat 16 2 from rfl, e 1 (by omega), e 2 (by omega)]
        exact hp) hi (hok mem) (hW mem)
  obtain ⟨l, d, k1, k2, k3, k4, k5⟩ := this c rfl h1
  cases k1 with
  | nil => cases k2
  | cons hn hr =>
    cases hr with
    | nil => exact ⟨mem, d, h2, h3, ⟨_, hn, by simpa [totalCycles] using k3⟩, k4, k5⟩
    | cons => simp at k2

/-- An instruction that writes nothing and keeps what the program keeps. -/
theorem plain (hI : Coherent b I) (hacc : AcceptsAt b I fun a => a.toNat < 256)
    (h : IsAt I r₀ mem₀ σ q c) {i : InstructionVariant} {mn : Mnemonic} {am : AddrMode} {q' k : Nat}
    {P : Regs → Prop} (hq : 256 ≤ q) (hq' : q ≤ 65532)
    (hp : Isa.parseInstruction (mem₀ (word q)) (mem₀ (word q + 1)) (mem₀ (word q + 2)) = some i)
    (hi : view i = (mn, am)) (hok : ∀ mem, AddrOk b (regs c) mem am)
    (hk : ∀ mem, baseCycles mn am + codePenalty (regs c) mem mn am = k)
    (hW : ∀ mem, (codeEffect (regs c) mem mn am).writes = [])
    (hP : ∀ mem, zeroPage mem = σ → (codeEffect (regs c) mem mn am).regs.pc = word q' ∧
      Kept (regs c) (codeEffect (regs c) mem mn am).regs ∧ P (codeEffect (regs c) mem mn am).regs) :
    ∃ d, StepIn b k c d ∧ IsAt I r₀ mem₀ σ q' d ∧ P (regs d) := by
  obtain ⟨mem, d, h1, h2, h3, h4, h5⟩ := next_at hI hacc h hq hq' hp hi hok
    (fun mem w hw => by rw [hW mem] at hw; cases hw)
  obtain ⟨p1, p2, p3⟩ := hP mem h1
  rw [← h4] at p1 p2 p3
  rw [hW mem] at h5
  rw [hk mem] at h3
  exact ⟨d, h3, ⟨p1, kept_trans h.kept p2, mem, h5, h1, h2⟩, p3⟩

theorem code2 {mem : Mem} {p : Nat} {o1 o2 : Byte} (h : CodeAt mem p [o1, o2]) :
    mem (word p) = o1 ∧ mem (word p + 1) = o2 := by
  refine ⟨h 0 (by simp), ?_⟩
  have := h 1 (by simp)
  rwa [← word_add] at this

theorem keeps_nz (r : Regs) (v a : Byte) (pc : Word) : Kept r { r with a := a, p := setNZ r.p v, pc := pc } :=
  ⟨rfl, rfl, rfl, rfl, rfl, rfl, rfl⟩

theorem ldaImm (hI : Coherent b I) (hacc : AcceptsAt b I fun a => a.toNat < 256)
    (h : IsAt I r₀ mem₀ σ q c) (hq : 256 ≤ q) (hq' : q ≤ 65532) {k : Byte}
    (hc : CodeAt mem₀ q [0xa9, k]) : ∃ d, StepIn b 2 c d ∧ IsAt I r₀ mem₀ σ (q + 2) d ∧ d.acc = k := by
  obtain ⟨e1, e2⟩ := code2 hc
  refine plain (P := fun r => r.a = k) (i := .LdaImmediate k) (mn := .Lda) (am := .immediate k) hI hacc h hq
    hq' (by rw [e1, e2]; rfl) rfl (fun _ => trivial) (fun _ => rfl) (fun _ => rfl) (fun mem _ => ⟨?_, keeps_nz _ _ _ _, rfl⟩)
  exact nextPc_of h.pc (by omega) (.immediate k)

theorem ldaZp (hI : Coherent b I) (hacc : AcceptsAt b I fun a => a.toNat < 256)
    (h : IsAt I r₀ mem₀ σ q c) (hq : 256 ≤ q) (hq' : q ≤ 65532) {x : Byte}
    (hc : CodeAt mem₀ q [0xa5, x]) : ∃ d, StepIn b 3 c d ∧ IsAt I r₀ mem₀ σ (q + 2) d ∧ d.acc = σ x := by
  obtain ⟨e1, e2⟩ := code2 hc
  refine plain (P := fun r => r.a = σ x) (i := .LdaZeroPage x) (mn := .Lda) (am := .zeroPage x) hI hacc h hq
    hq' (by rw [e1, e2]; rfl) rfl (fun _ => trivial) (fun _ => rfl) (fun _ => rfl)
    (fun mem hm => ⟨?_, keeps_nz _ _ _ _, by rw [← hm]; rfl⟩)
  exact nextPc_of h.pc (by omega) (.zeroPage x)

theorem clcStep (hI : Coherent b I) (hacc : AcceptsAt b I fun a => a.toNat < 256)
    (h : IsAt I r₀ mem₀ σ q c) (hq : 256 ≤ q) (hq' : q ≤ 65532)
    (hc : CodeAt mem₀ q [0x18]) : ∃ d, StepIn b 2 c d ∧ IsAt I r₀ mem₀ σ (q + 1) d ∧
      d.acc = c.acc ∧ d.ps.carry = false := by
  have e1 : mem₀ (word q) = 0x18 := hc 0 (by simp)
  refine plain (P := fun r => r.a = c.acc ∧ r.p.carry = false) (i := .ClcImplied) (mn := .Clc)
    (am := .implied) hI hacc h hq hq' (by rw [e1]; rfl) rfl (fun _ => trivial) (fun _ => rfl) (fun _ => rfl)
    (fun mem hm => ⟨?_, ⟨rfl, rfl, rfl, rfl, rfl, rfl, rfl⟩, rfl, rfl⟩)
  exact nextPc_of h.pc (by omega) .implied

theorem adcImm (hI : Coherent b I) (hacc : AcceptsAt b I fun a => a.toNat < 256)
    (h : IsAt I r₀ mem₀ σ q c) (hq : 256 ≤ q) (hq' : q ≤ 65532) {k : Byte}
    (hc : CodeAt mem₀ q [0x69, k]) : ∃ d, StepIn b 2 c d ∧ IsAt I r₀ mem₀ σ (q + 2) d ∧
      d.acc = BitVec.ofNat 8 (c.acc.toNat + k.toNat) := by
  obtain ⟨e1, e2⟩ := code2 hc
  refine plain (P := fun r => r.a = BitVec.ofNat 8 (c.acc.toNat + k.toNat)) (i := .AdcImmediate k) (mn := .Adc)
    (am := .immediate k) hI hacc h hq hq' (by rw [e1, e2]; rfl) rfl (fun _ => trivial) (fun _ => rfl) (fun _ => rfl)
    (fun mem _ => ?_)
  have e := adc_regs (regs c) (.immediate k) k
  change (codeEffect (regs c) mem .Adc (.immediate k)).regs = _ at e
  rw [e]
  exact ⟨nextPc_of h.pc (by omega) (.immediate k), ⟨rfl, rfl, rfl, rfl, rfl, rfl, rfl⟩, rfl⟩

theorem oraZp (hI : Coherent b I) (hacc : AcceptsAt b I fun a => a.toNat < 256)
    (h : IsAt I r₀ mem₀ σ q c) (hq : 256 ≤ q) (hq' : q ≤ 65532) {x : Byte}
    (hc : CodeAt mem₀ q [0x05, x]) :
    ∃ d, StepIn b 3 c d ∧ IsAt I r₀ mem₀ σ (q + 2) d ∧ d.acc = c.acc ||| σ x := by
  obtain ⟨e1, e2⟩ := code2 hc
  refine plain (P := fun r => r.a = c.acc ||| σ x) (i := .OraZeroPage x) (mn := .Ora) (am := .zeroPage x) hI hacc
    h hq hq' (by rw [e1, e2]; rfl) rfl (fun _ => trivial) (fun _ => rfl) (fun _ => rfl)
    (fun mem hm => ⟨?_, keeps_nz _ _ _ _, by rw [← hm]; rfl⟩)
  exact nextPc_of h.pc (by omega) (.zeroPage x)

theorem andZp (hI : Coherent b I) (hacc : AcceptsAt b I fun a => a.toNat < 256)
    (h : IsAt I r₀ mem₀ σ q c) (hq : 256 ≤ q) (hq' : q ≤ 65532) {x : Byte}
    (hc : CodeAt mem₀ q [0x25, x]) :
    ∃ d, StepIn b 3 c d ∧ IsAt I r₀ mem₀ σ (q + 2) d ∧ d.acc = c.acc &&& σ x := by
  obtain ⟨e1, e2⟩ := code2 hc
  refine plain (P := fun r => r.a = c.acc &&& σ x) (i := .AndZeroPage x) (mn := .And) (am := .zeroPage x) hI hacc
    h hq hq' (by rw [e1, e2]; rfl) rfl (fun _ => trivial) (fun _ => rfl) (fun _ => rfl)
    (fun mem hm => ⟨?_, keeps_nz _ _ _ _, by rw [← hm]; rfl⟩)
  exact nextPc_of h.pc (by omega) (.zeroPage x)

theorem eorZp (hI : Coherent b I) (hacc : AcceptsAt b I fun a => a.toNat < 256)
    (h : IsAt I r₀ mem₀ σ q c) (hq : 256 ≤ q) (hq' : q ≤ 65532) {x : Byte}
    (hc : CodeAt mem₀ q [0x45, x]) :
    ∃ d, StepIn b 3 c d ∧ IsAt I r₀ mem₀ σ (q + 2) d ∧ d.acc = c.acc ^^^ σ x := by
  obtain ⟨e1, e2⟩ := code2 hc
  refine plain (P := fun r => r.a = c.acc ^^^ σ x) (i := .EorZeroPage x) (mn := .Eor) (am := .zeroPage x) hI hacc
    h hq hq' (by rw [e1, e2]; rfl) rfl (fun _ => trivial) (fun _ => rfl) (fun _ => rfl)
    (fun mem hm => ⟨?_, keeps_nz _ _ _ _, by rw [← hm]; rfl⟩)
  exact nextPc_of h.pc (by omega) (.zeroPage x)

theorem sub_zero_iff (x v : Byte) : (x - v).toNat = 0 ↔ x = v := by
  constructor
  · intro h
    have : x - v = 0 := BitVec.eq_of_toNat_eq h
    have e : x = x - v + v := by rw [BitVec.sub_add_cancel]
    rw [e, this]; exact BitVec.zero_add v
  · rintro rfl
    rw [BitVec.sub_self]; rfl

theorem cmpImm (hI : Coherent b I) (hacc : AcceptsAt b I fun a => a.toNat < 256)
    (h : IsAt I r₀ mem₀ σ q c) (hq : 256 ≤ q) (hq' : q ≤ 65532) {k : Byte}
    (hc : CodeAt mem₀ q [0xc9, k]) : ∃ d, StepIn b 2 c d ∧ IsAt I r₀ mem₀ σ (q + 2) d ∧
      d.ps.zero = decide (c.acc = k) := by
  obtain ⟨e1, e2⟩ := code2 hc
  refine plain (P := fun r => r.p.zero = decide (c.acc = k)) (i := .CmpImmediate k) (mn := .Cmp)
    (am := .immediate k) hI hacc h hq hq' (by rw [e1, e2]; rfl) rfl (fun _ => trivial) (fun _ => rfl) (fun _ => rfl)
    (fun mem _ => ⟨?_, ⟨rfl, rfl, rfl, rfl, rfl, rfl, rfl⟩, ?_⟩)
  · exact nextPc_of h.pc (by omega) (.immediate k)
  · show decide ((c.acc - k).toNat = 0) = _
    exact decide_eq_decide.2 (sub_zero_iff _ _)

theorem cmpZp (hI : Coherent b I) (hacc : AcceptsAt b I fun a => a.toNat < 256)
    (h : IsAt I r₀ mem₀ σ q c) (hq : 256 ≤ q) (hq' : q ≤ 65532) {x : Byte}
    (hc : CodeAt mem₀ q [0xc5, x]) : ∃ d, StepIn b 3 c d ∧ IsAt I r₀ mem₀ σ (q + 2) d ∧
      d.ps.zero = decide (c.acc = σ x) := by
  obtain ⟨e1, e2⟩ := code2 hc
  refine plain (P := fun r => r.p.zero = decide (c.acc = σ x)) (i := .CmpZeroPage x) (mn := .Cmp)
    (am := .zeroPage x) hI hacc h hq hq' (by rw [e1, e2]; rfl) rfl (fun _ => trivial) (fun _ => rfl) (fun _ => rfl)
    (fun mem hm => ⟨?_, ⟨rfl, rfl, rfl, rfl, rfl, rfl, rfl⟩, ?_⟩)
  · exact nextPc_of h.pc (by omega) (.zeroPage x)
  · rw [← hm]
    show decide ((c.acc - mem (zp x)).toNat = 0) = _
    exact decide_eq_decide.2 (sub_zero_iff _ _)

/-- The branch target of the emulator for a displacement below 128. -/
theorem codeTarget_of {d : Byte} (hd : d.toNat < 128) (q : Nat) :
    codeTarget (word q) d = word (q + d.toNat) := by
  unfold codeTarget
  have e : d.signExtend 16 = BitVec.ofNat 16 d.toNat := by
    apply BitVec.eq_of_toNat_eq
    rw [BitVec.toNat_signExtend, BitVec.toNat_ofNat]
    have : d.msb = false := by rw [BitVec.msb_eq_false_iff_two_mul_lt]; omega
    rw [this]
    simp
  rw [e, word_add]

theorem beqStep (hI : Coherent b I) (hacc : AcceptsAt b I fun a => a.toNat < 256)
    (h : IsAt I r₀ mem₀ σ q c) (hq : 256 ≤ q) (hq' : q ≤ 65532) {d : Byte} (hd : d.toNat < 128)
    (hc : CodeAt mem₀ q [0xf0, d]) : ∃ e, StepIn b (if c.ps.zero = true then 3 + crosses ((q + d.toNat) % 65536) q else 2) c e ∧
      IsAt I r₀ mem₀ σ (if c.ps.zero = true then q + d.toNat else q + 2) e := by
  obtain ⟨e1, e2⟩ := code2 hc
  obtain ⟨e, h1, h2, -⟩ := plain (P := fun _ => True) (i := .BeqRelative d) (mn := .Beq) (am := .relative d)
    (q' := if c.ps.zero = true then q + d.toNat else q + 2) hI hacc h hq hq' (by rw [e1, e2]; rfl) rfl
    (fun _ => trivial) (k := if c.ps.zero = true then 3 + crosses ((q + d.toNat) % 65536) q else 2)
    (fun mem => by
      show 2 + 0 + 0 + (if some c.ps.zero = some true then 1 + crosses (codeTarget c.pc d).toNat c.pc.toNat else 0) = _
      rw [h.pc, codeTarget_of hd, toNat_word, toNat_word_lt q (by omega)]
      cases c.ps.zero
      · rfl
      · rw [if_pos rfl, if_pos rfl]; omega) (fun _ => rfl)
    (fun mem _ => ⟨by
      show (if c.ps.zero = true then codeTarget c.pc d else nextPc (regs c) (.relative d)) = _
      split
      · rw [h.pc, codeTarget_of hd]
      · exact nextPc_of h.pc (by omega) (.relative d), ⟨rfl, rfl, rfl, rfl, rfl, rfl, rfl⟩, trivial⟩)
  exact ⟨e, h1, h2⟩

theorem bneStep (hI : Coherent b I) (hacc : AcceptsAt b I fun a => a.toNat < 256)
    (h : IsAt I r₀ mem₀ σ q c) (hq : 256 ≤ q) (hq' : q ≤ 65532) {d : Byte} (hd : d.toNat < 128)
    (hc : CodeAt mem₀ q [0xd0, d]) : ∃ e, StepIn b (if c.ps.zero = false then 3 + crosses ((q + d.toNat) % 65536) q else 2) c e ∧
      IsAt I r₀ mem₀ σ (if c.ps.zero = false then q + d.toNat else q + 2) e := by
  obtain ⟨e1, e2⟩ := code2 hc
  obtain ⟨e, h1, h2, -⟩ := plain (P := fun _ => True) (i := .BneRelative d) (mn := .Bne) (am := .relative d)
    (q' := if c.ps.zero = false then q + d.toNat else q + 2) hI hacc h hq hq' (by rw [e1, e2]; rfl) rfl
    (fun _ => trivial) (k := if c.ps.zero = false then 3 + crosses ((q + d.toNat) % 65536) q else 2)
    (fun mem => by
      show 2 + 0 + 0 + (if some (!c.ps.zero) = some true then 1 + crosses (codeTarget c.pc d).toNat c.pc.toNat else 0) = _
      rw [h.pc, codeTarget_of hd, toNat_word, toNat_word_lt q (by omega)]
      cases c.ps.zero
      · rw [Bool.not_false, if_pos rfl, if_pos rfl]; omega
      · rfl) (fun _ => rfl)
    (fun mem _ => ⟨by
      show (if (!c.ps.zero) = true then codeTarget c.pc d else nextPc (regs c) (.relative d)) = _
      cases c.ps.zero
      · show codeTarget c.pc d = _
        rw [h.pc, codeTarget_of hd]; rfl
      · exact nextPc_of h.pc (by omega) (.relative d), ⟨rfl, rfl, rfl, rfl, rfl, rfl, rfl⟩, trivial⟩)
  exact ⟨e, h1, h2⟩

theorem jmpStep (hI : Coherent b I) (hacc : AcceptsAt b I fun a => a.toNat < 256)
    (h : IsAt I r₀ mem₀ σ q c) (hq : 256 ≤ q) (hq' : q ≤ 65532) {l : Nat}
    (hc : CodeAt mem₀ q (op16 0x4c l)) : ∃ d, StepIn b 3 c d ∧ IsAt I r₀ mem₀ σ l d := by
  obtain ⟨e1, e2, e3⟩ := code3 hc
  obtain ⟨e, h1, h2, -⟩ := plain (P := fun _ => True) (i := .JmpAbsolute (word l)) (mn := .Jmp)
    (am := .absolute (word l)) (q' := l) hI hacc h hq hq'
    (by rw [e1, e2, e3]
        show some (InstructionVariant.JmpAbsolute _) = _
        rw [word_lohi]) rfl (fun _ => trivial) (fun _ => rfl) (fun _ => rfl)
    (fun mem _ => ⟨rfl, ⟨rfl, rfl, rfl, rfl, rfl, rfl, rfl⟩, trivial⟩)
  exact ⟨e, h1, h2⟩

theorem zp_inj {x y : Byte} (h : zp x = zp y) : x = y := by
  have := congrArg BitVec.toNat h
  unfold zp at this
  have hx := x.isLt
  have hy := y.isLt
  rw [toNat_word_lt _ (by omega), toNat_word_lt _ (by omega)] at this
  exact BitVec.eq_of_toNat_eq this

theorem zp_lt (x : Byte) : (zp x).toNat < 256 := by
  have hx := x.isLt
  unfold zp
  rw [toNat_word_lt _ (by omega)]
  exact hx

theorem staZp (hI : Coherent b I) (hacc : AcceptsAt b I fun a => a.toNat < 256)
    (h : IsAt I r₀ mem₀ σ q c) (hq : 256 ≤ q) (hq' : q ≤ 65532) {x : Byte}
    (hc : CodeAt mem₀ q [0x85, x]) :
    ∃ d, StepIn b 3 c d ∧ IsAt I r₀ mem₀ (put σ x c.acc) (q + 2) d := by
  obtain ⟨e1, e2⟩ := code2 hc
  obtain ⟨mem, d, h1, h2, h3, h4, h5⟩ := next_at (i := .StaZeroPage x) (mn := .Sta) (am := .zeroPage x) hI hacc
    h hq hq' (by rw [e1, e2]; rfl) rfl (fun _ => trivial) (fun mem w hw => by
      change w ∈ [(zp x, c.acc)] at hw
      rw [List.mem_singleton] at hw
      subst hw
      exact zp_lt x)
  change I d.address_map (upd mem (zp x) c.acc) at h5
  change regs d = { regs c with pc := nextPc (regs c) (.zeroPage x) } at h4
  refine ⟨d, h3, ⟨?_, ?_, _, h5, ?_, ?_⟩⟩
  · show (regs d).pc = _
    rw [h4]
    exact nextPc_of h.pc (by omega) (.zeroPage x)
  · refine kept_trans h.kept ?_
    rw [h4]
    exact ⟨rfl, rfl, rfl, rfl, rfl, rfl, rfl⟩
  · funext y
    show (if zp y = zp x then c.acc else mem (zp y)) = if y = x then c.acc else σ y
    by_cases hy : y = x
    · rw [if_pos hy, if_pos (by rw [hy])]
    · rw [if_neg hy, if_neg (fun e => hy (zp_inj e)), ← h1]; rfl
  · intro a ha
    show (if a = zp x then c.acc else mem a) = _
    rw [if_neg, h2 a ha]
    rintro rfl
    have := zp_lt x
    omega

/-! ### The parts of the code -/

theorem Path.one {lo hi : Nat} {e : Mos6502 B} (h : IsAt I r₀ mem₀ σ q c) (h1 : lo ≤ q) (h2 : q < hi)
    {k : Nat} (hs : StepIn b k c e) : Path (OneStep b) (IsAt I r₀ mem₀) lo hi 1 c e :=
  .cons h h1 h2 hs.one .nil

/-- The program bytes `ws` lie at `p`, above the zero page. -/
def ProgramAt (mem : Mem) (p : Nat) (ws : List Byte) : Prop := 256 ≤ p ∧ CodeAt mem p ws

theorem ProgramAt.split {p : Nat} {u v : List Byte} (h : ProgramAt mem₀ p (u ++ v)) :
    CodeAt mem₀ p u ∧ ProgramAt mem₀ (p + u.length) v :=
  ⟨(codeAt_append h.2).1, ⟨by have := h.1; omega, (codeAt_append h.2).2⟩⟩

/-- Three instructions of two bytes: a load, a combination, a store. -/
theorem three {p k : Nat} {x y v : Byte} {o : Byte} (hI : Coherent b I)
    (hacc : AcceptsAt b I fun a => a.toNat < 256) (hc : ProgramAt mem₀ p ([0xa5, x] ++ ([o, y] ++ [0x85, x])))
    (hp : p + 6 ≤ 65532) (hs : IsAt I r₀ mem₀ σ p c)
    (hop : ∀ {d : Mos6502 B}, IsAt I r₀ mem₀ σ (p + 2) d → CodeAt mem₀ (p + 2) [o, y] → d.acc = σ x →
      ∃ e, StepIn b k d e ∧ IsAt I r₀ mem₀ σ (p + 2 + 2) e ∧ e.acc = v) :
    ∃ t, Path (OneStep b) (IsAt I r₀ mem₀) p (p + 6) 3 c t ∧ Lasts b (3 + k + 3) 3 c t ∧
      IsAt I r₀ mem₀ (put σ x v) (p + 6) t := by
  have h0 := hc.1
  obtain ⟨c1, hc⟩ := hc.split
  obtain ⟨c2, hc⟩ := hc.split
  obtain ⟨d, s1, i1, a1⟩ := ldaZp hI hacc hs h0 (by omega) c1
  obtain ⟨e, s2, i2, a2⟩ := hop i1 c2 a1
  obtain ⟨f, s3, i3⟩ := staZp hI hacc i2 (by omega) (by omega) hc.2
  rw [a2] at i3
  exact ⟨f, ((Path.one hs (by omega) (by omega) s1).trans (Path.one i1 (by omega) (by omega) s2)).trans
    (Path.one i2 (by omega) (by omega) s3), (s1.lasts.trans s2.lasts).trans s3.lasts, i3⟩

/-- A load, a comparison and a branch. -/
theorem testing {p k t : Nat} {x o y br d : Byte} {P Q : Prop} [Decidable P] [Decidable Q] (hI : Coherent b I)
    (hacc : AcceptsAt b I fun a => a.toNat < 256) (hc : ProgramAt mem₀ p ([0xa5, x] ++ ([o, y] ++ [br, d])))
    (hp : p + 6 ≤ 65532) (hs : IsAt I r₀ mem₀ σ p c)
    (hop : ∀ {e : Mos6502 B}, IsAt I r₀ mem₀ σ (p + 2) e → CodeAt mem₀ (p + 2) [o, y] → e.acc = σ x →
      ∃ f, StepIn b k e f ∧ IsAt I r₀ mem₀ σ (p + 2 + 2) f ∧ f.ps.zero = decide P)
    (hbr : ∀ {e : Mos6502 B}, IsAt I r₀ mem₀ σ (p + 2 + 2) e → CodeAt mem₀ (p + 2 + 2) [br, d] →
      e.ps.zero = decide P →
      ∃ f, StepIn b (if Q then t else 2) e f ∧
        IsAt I r₀ mem₀ σ (if Q then p + 2 + 2 + d.toNat else p + 2 + 2 + 2) f) :
    ∃ e, Path (OneStep b) (IsAt I r₀ mem₀) p (p + 6) 3 c e ∧ Lasts b (3 + k + if Q then t else 2) 3 c e ∧
      IsAt I r₀ mem₀ σ (if Q then p + 4 + d.toNat else p + 6) e := by
  have h0 := hc.1
  obtain ⟨c1, hc⟩ := hc.split
  obtain ⟨c2, hc⟩ := hc.split
  obtain ⟨c', s1, i1, a1⟩ := ldaZp hI hacc hs h0 (by omega) c1
  obtain ⟨e, s2, i2, a2⟩ := hop i1 c2 a1
  obtain ⟨f, s3, i3⟩ := hbr i2 hc.2 a2
  exact ⟨f, ((Path.one hs (by omega) (by omega) s1).trans (Path.one i1 (by omega) (by omega) s2)).trans
    (Path.one i2 (by omega) (by omega) s3), (s1.lasts.trans s2.lasts).trans s3.lasts, i3⟩

/-- The cycles of the comparison of a test. -/
def compareTime : Guard Byte → Nat
  | .eqK _ _ | .neK _ _ => 2
  | .eq _ _ | .ne _ _ => 3

/-- Where the three instructions of a test lead, for every displacement below 128. -/
theorem test_lands {p : Nat} {g : Guard Byte} {d : Byte} (hd : d.toNat < 128) (hI : Coherent b I)
    (hacc : AcceptsAt b I fun a => a.toNat < 256) (hc : ProgramAt mem₀ p ((mosTarget d).test g))
    (hp : p + 6 ≤ 65532) (hs : IsAt I r₀ mem₀ σ p c) :
    ∃ t, Path (OneStep b) (IsAt I r₀ mem₀) p (p + 6) 3 c t ∧
      Lasts b (3 + compareTime g + if g.Holds σ then 3 + crosses ((p + 4 + d.toNat) % 65536) (p + 4) else 2) 3 c t ∧
      IsAt I r₀ mem₀ σ (if g.Holds σ then p + 4 + d.toNat else p + 6) t := by
  have h0 := hc.1
  cases g with
  | eqK x k =>
    refine testing (P := σ x = k) hI hacc hc hp hs (fun {e} i c a => ?_) fun {e} i c z => ?_
    · rw [← a]; exact cmpImm hI hacc i (by omega) (by omega) c
    · obtain ⟨f, s, i'⟩ := beqStep hI hacc i (by omega) (by omega) hd c
      refine ⟨f, ?_⟩
      rw [z] at i' s
      by_cases h : σ x = k
      · rw [if_pos (decide_eq_true h)] at i' s
        rw [if_pos (show Guard.Holds σ (.eqK x k) from h), if_pos (show Guard.Holds σ (.eqK x k) from h)]; exact ⟨s, i'⟩
      · rw [if_neg (by simp [h])] at i' s
        rw [if_neg (show ¬ Guard.Holds σ (.eqK x k) from h), if_neg (show ¬ Guard.Holds σ (.eqK x k) from h)]; exact ⟨s, i'⟩
  | neK x k =>
    refine testing (P := σ x = k) hI hacc hc hp hs (fun {e} i c a => ?_) fun {e} i c z => ?_
    · rw [← a]; exact cmpImm hI hacc i (by omega) (by omega) c
    · obtain ⟨f, s, i'⟩ := bneStep hI hacc i (by omega) (by omega) hd c
      refine ⟨f, ?_⟩
      rw [z] at i' s
      by_cases h : σ x = k
      · rw [if_neg (by simp [h])] at i' s
        rw [if_neg (show ¬ Guard.Holds σ (.neK x k) from fun n => n h), if_neg (show ¬ Guard.Holds σ (.neK x k) from fun n => n h)]; exact ⟨s, i'⟩
      · rw [if_pos (decide_eq_false h)] at i' s
        rw [if_pos (show Guard.Holds σ (.neK x k) from h), if_pos (show Guard.Holds σ (.neK x k) from h)]; exact ⟨s, i'⟩
  | eq x y =>
    refine testing (P := σ x = σ y) hI hacc hc hp hs (fun {e} i c a => ?_) fun {e} i c z => ?_
    · rw [← a]; exact cmpZp hI hacc i (by omega) (by omega) c
    · obtain ⟨f, s, i'⟩ := beqStep hI hacc i (by omega) (by omega) hd c
      refine ⟨f, ?_⟩
      rw [z] at i' s
      by_cases h : σ x = σ y
      · rw [if_pos (decide_eq_true h)] at i' s
        rw [if_pos (show Guard.Holds σ (.eq x y) from h), if_pos (show Guard.Holds σ (.eq x y) from h)]; exact ⟨s, i'⟩
      · rw [if_neg (by simp [h])] at i' s
        rw [if_neg (show ¬ Guard.Holds σ (.eq x y) from h), if_neg (show ¬ Guard.Holds σ (.eq x y) from h)]; exact ⟨s, i'⟩
  | ne x y =>
    refine testing (P := σ x = σ y) hI hacc hc hp hs (fun {e} i c a => ?_) fun {e} i c z => ?_
    · rw [← a]; exact cmpZp hI hacc i (by omega) (by omega) c
    · obtain ⟨f, s, i'⟩ := bneStep hI hacc i (by omega) (by omega) hd c
      refine ⟨f, ?_⟩
      rw [z] at i' s
      by_cases h : σ x = σ y
      · rw [if_neg (by simp [h])] at i' s
        rw [if_neg (show ¬ Guard.Holds σ (.ne x y) from fun n => n h), if_neg (show ¬ Guard.Holds σ (.ne x y) from fun n => n h)]; exact ⟨s, i'⟩
      · rw [if_pos (decide_eq_false h)] at i' s
        rw [if_pos (show Guard.Holds σ (.ne x y) from h), if_pos (show Guard.Holds σ (.ne x y) from h)]; exact ⟨s, i'⟩

/-- The cycles of the assignments. -/
def actTime : Act Byte → Nat
  | .set _ _ => 5
  | .copy _ _ => 6
  | .add _ _ => 10
  | .or _ _ | .and _ _ | .xor _ _ => 9

/-- The instructions of an assignment. -/
theorem act_part (hI : Coherent b I) (hacc : AcceptsAt b I fun a => a.toNat < 256) {p : Nat} {a : Act Byte}
    (hc : ProgramAt mem₀ p ((mosTarget 5).act a)) (hp : p + (mosTarget 5).bytes ((mosTarget 5).act a) ≤ 65532)
    (hs : IsAt I r₀ mem₀ σ p c) :
    ∃ t, Path (OneStep b) (IsAt I r₀ mem₀) p (p + (mosTarget 5).bytes ((mosTarget 5).act a)) (mosCosts.act a) c t ∧
      Lasts b (actTime a) (mosCosts.act a) c t ∧ IsAt I r₀ mem₀ (a.eval σ) (p + (mosTarget 5).bytes ((mosTarget 5).act a)) t := by
  have h0 := hc.1
  cases a with
  | set x k =>
    change p + 4 ≤ 65532 at hp
    obtain ⟨c1, c2⟩ := ProgramAt.split (u := [0xa9, k]) (v := [0x85, x]) hc
    obtain ⟨d, s1, i1, a1⟩ := ldaImm hI hacc hs h0 (by omega) c1
    obtain ⟨e, s2, i2⟩ := staZp hI hacc i1 (by omega) (by omega) c2.2
    rw [a1] at i2
    exact ⟨e, (Path.one hs (Nat.le_refl _) (by show p < p + 4; omega) s1).trans
      (Path.one i1 (by omega) (by show p + 2 < p + 4; omega) s2), s1.lasts.trans s2.lasts, i2⟩
  | add x k =>
    change p + 7 ≤ 65532 at hp
    obtain ⟨c1, hc⟩ := ProgramAt.split (u := [0xa5, x]) (v := [0x18] ++ ([0x69, k] ++ [0x85, x])) hc
    obtain ⟨c2, hc⟩ := hc.split
    obtain ⟨c3, hc⟩ := hc.split
    obtain ⟨d, s1, i1, a1⟩ := ldaZp hI hacc hs h0 (by omega) c1
    obtain ⟨e, s2, i2, a2, -⟩ := clcStep hI hacc i1 (by omega) (by omega) c2
    obtain ⟨f, s3, i3, a3⟩ := adcImm hI hacc i2 (by omega) (by omega) c3
    obtain ⟨g, s4, i4⟩ := staZp hI hacc i3 (by omega) (by omega) hc.2
    rw [a3, a2, a1] at i4
    exact ⟨g, (((Path.one hs (Nat.le_refl _) (by show p < p + 7; omega) s1).trans
      (Path.one i1 (by omega) (by show p + 2 < p + 7; omega) s2)).trans
      (Path.one i2 (by omega) (by show p + 2 + 1 < p + 7; omega) s3)).trans
      (Path.one i3 (by omega) (by show p + 2 + 1 + 2 < p + 7; omega) s4), ((s1.lasts.trans s2.lasts).trans s3.lasts).trans s4.lasts, i4⟩
  | copy x y =>
    change p + 4 ≤ 65532 at hp
    obtain ⟨c1, c2⟩ := ProgramAt.split (u := [0xa5, y]) (v := [0x85, x]) hc
    obtain ⟨d, s1, i1, a1⟩ := ldaZp hI hacc hs h0 (by omega) c1
    obtain ⟨e, s2, i2⟩ := staZp hI hacc i1 (by omega) (by omega) c2.2
    rw [a1] at i2
    exact ⟨e, (Path.one hs (Nat.le_refl _) (by show p < p + 4; omega) s1).trans
      (Path.one i1 (by omega) (by show p + 2 < p + 4; omega) s2), s1.lasts.trans s2.lasts, i2⟩
  | or x y =>
    change p + 6 ≤ 65532 at hp
    refine three (k := 3) hI hacc hc hp hs fun {d} i1 c2 a1 => ?_
    obtain ⟨e, s2, i2, a2⟩ := oraZp hI hacc i1 (by omega) (by omega) c2
    exact ⟨e, s2, i2, by rw [a2, a1]⟩
  | and x y =>
    change p + 6 ≤ 65532 at hp
    refine three (k := 3) hI hacc hc hp hs fun {d} i1 c2 a1 => ?_
    obtain ⟨e, s2, i2, a2⟩ := andZp hI hacc i1 (by omega) (by omega) c2
    exact ⟨e, s2, i2, by rw [a2, a1]⟩
  | xor x y =>
    change p + 6 ≤ 65532 at hp
    refine three (k := 3) hI hacc hc hp hs fun {d} i1 c2 a1 => ?_
    obtain ⟨e, s2, i2, a2⟩ := eorZp hI hacc i1 (by omega) (by omega) c2
    exact ⟨e, s2, i2, by rw [a2, a1]⟩

/-- The parts of the code work on the emulator, with the displacement 5. -/
theorem mos_works (hI : Coherent b I) (hacc : AcceptsAt b I fun a => a.toNat < 256) :
    Works (mosTarget 5) mosCosts (OneStep b) (IsAt I r₀ mem₀) (ProgramAt mem₀) 65532 where
  jumpSize l := rfl
  append := by
    rintro p u v h
    have := h.split
    rw [show p + (mosTarget 5).bytes u = p + u.length by show p + 1 * u.length = _; omega]
    exact ⟨⟨h.1, this.1⟩, this.2⟩
  act := by
    rintro p a σ s hc hp hs
    obtain ⟨t, h1, -, h3⟩ := act_part hI hacc hc hp hs
    exact ⟨t, h1, h3⟩
  test := by
    rintro p g σ s hc hp hs
    have : p + 6 ≤ 65532 := by
      cases g <;> (change p + 9 ≤ 65532 at hp; omega)
    obtain ⟨t, h1, -, h3⟩ := test_lands (d := 5) (by decide) hI hacc hc this hs
    refine ⟨t, ?_⟩
    cases g <;> exact ⟨h1, h3⟩
  jump := by
    rintro p l σ s hc hp hl hs
    change p + 3 ≤ 65532 at hp
    obtain ⟨d, s1, i1⟩ := jmpStep hI hacc hs hc.1 (by omega) hc.2
    exact ⟨d, Path.one hs (Nat.le_refl _) (by show p < p + 3; omega) s1, i1⟩

/-! ### Runs -/

theorem path_instructions {lo hi n : Nat} {e : Mos6502 B}
    (h : Path (OneStep b) (IsAt I r₀ mem₀) lo hi n c e) : ∃ l, Instructions b c l e ∧ l.length = n := by
  induction h with
  | nil => exact ⟨[], .nil _, rfl⟩
  | cons _ _ _ hs _ ih =>
    obtain ⟨ops, hn⟩ := hs
    obtain ⟨l, hl, rfl⟩ := ih
    exact ⟨ops :: l, .cons hn hl, rfl⟩

/-- Instructions are determined by their number. -/
theorem instructions_same {l l' : List Operations} {d e : Mos6502 B} (h : Instructions b c l d)
    (h' : Instructions b c l' e) (hlen : l.length = l'.length) : l = l' ∧ d = e := by
  induction h generalizing l' with
  | nil =>
    cases h' with
    | nil => exact ⟨rfl, rfl⟩
    | cons => simp at hlen
  | cons hn _ ih =>
    cases h' with
    | nil => simp at hlen
    | cons hn' hr' =>
      rw [hn] at hn'
      injection hn' with hn'
      injection hn' with h1 h2
      subst h1
      subst h2
      obtain ⟨rfl, rfl⟩ := ih hr' (by simpa using hlen)
      exact ⟨rfl, rfl⟩

theorem instructions_go_on {l l' : List Operations} {d e : Mos6502 B} (h : Instructions b c l d)
    (h' : Instructions b c l' e) (hlen : l'.length = l.length + 1) : ∃ ops f, next b d = .ok (ops, f) := by
  induction h generalizing l' with
  | nil =>
    cases h' with
    | nil => cases hlen
    | cons hn _ => exact ⟨_, _, hn⟩
  | cons hn _ ih =>
    cases h' with
    | nil => cases hlen
    | cons hn' hr' =>
      rw [hn] at hn'
      injection hn' with hn'
      injection hn' with h1 h2
      subst h2
      exact ih hr' (by simpa using hlen)

/-- Where the CPU can be if the last state of a path panics. -/
theorem path_stuck {lo hi n : Nat} {e d : Mos6502 B} {l : List Operations} {x : Panic}
    (h : Path (OneStep b) (IsAt I r₀ mem₀) lo hi n c e) (he : next b e = .error x)
    (hl : Instructions b c l d) : d = e ∨ ∃ q, d.pc = word q ∧ lo ≤ q ∧ q < hi := by
  induction h generalizing l with
  | nil =>
    cases hl with
    | nil => exact .inl rfl
    | cons hn _ => rw [he] at hn; cases hn
  | cons hr h1 h2 hs _ ih =>
    cases hl with
    | nil => exact .inr ⟨_, hr.pc, h1, h2⟩
    | cons hn hl =>
      obtain ⟨ops, hs⟩ := hs
      rw [hs] at hn
      injection hn with hn
      injection hn with e1 e2
      subst e2
      exact ih he hl

end

end Verif.Mos

namespace Verif.Props

open Verif Verif.Mos Verif.Spec.Mos Verif.Spec.Structured Verif.Structured

/-- What C92 claims: the code a compiler writes after the 6502 manual, with branches of displacement 3
over the jumps, leaves in the zero page what the program means. -/
def C92_statement : Prop :=
  ∀ (B : Type) [Addressable B] (b : Build) (I : B → Mem → Prop), Coherent b I →
    AcceptsAt b I (fun a => a.toNat < 256) →
    ∀ (c : Mos6502 B) (mem : Mem) (p : Nat) (prog : Cmd Byte) (n : Nat) (σ : Store Byte),
    I c.address_map mem → c.pc = word p → ProgramAt mem p ((mosTarget 3).compile p prog) →
    p + (mosTarget 3).size prog ≤ 65532 → Exec mosCosts prog (zeroPage mem) n σ →
    ∃ cycles d, run b c cycles = .ok (.ready d) ∧ d.pc = word (p + (mosTarget 3).size prog) ∧
      ∃ mem', I d.address_map mem' ∧ zeroPage mem' = σ

section
variable {B : Type} [Addressable B] {b : Build} {I : B → Mem → Prop} {c : Mos6502 B} {mem : Mem} {p : Nat}
  {prog : Cmd Byte}

omit [Addressable B] in
theorem isAt_self (hm : I c.address_map mem) (hpc : c.pc = word p) :
    IsAt I (regs c) mem (zeroPage mem) p c :=
  ⟨hpc, ⟨rfl, rfl, rfl, rfl, rfl, rfl, rfl⟩, mem, hm, rfl, fun _ _ => rfl⟩

/-- C92, what holds: with the displacement 5 every program that ends, ends on the emulator behind its
code with the values it means in the zero page, after as many instructions as counted; memory above
the zero page, X, Y, the stack pointer and the other flags are unchanged. -/
theorem C92_result_partial (hI : Coherent b I) (hacc : AcceptsAt b I fun a => a.toNat < 256)
    (hm : I c.address_map mem) (hpc : c.pc = word p)
    (hcode : ProgramAt mem p ((mosTarget 5).compile p prog)) (hp : p + (mosTarget 5).size prog ≤ 65532)
    {n : Nat} {σ : Store Byte} (h : Exec mosCosts prog (zeroPage mem) n σ) :
    ∃ l d, Instructions b c l d ∧ l.length = n ∧ run b c (totalCycles l) = .ok (.ready d) ∧
      d.pc = word (p + (mosTarget 5).size prog) ∧ Kept (regs c) (regs d) ∧
      ∃ mem', I d.address_map mem' ∧ zeroPage mem' = σ ∧ ∀ a : Word, 256 ≤ a.toNat → mem' a = mem a := by
  obtain ⟨d, hd, h1, h2, h3⟩ := compile_exec (mos_works hI hacc) h hcode hp (isAt_self hm hpc)
  obtain ⟨l, hl, hn⟩ := path_instructions hd
  exact ⟨l, d, hl, hn, C12_run_eq hl (Nat.le_refl _) (.inl rfl), h1, h2, h3⟩

/-- C92, what holds: a program that does not end keeps the emulator inside its code for any number of
cycles, without a panic; memory above the zero page, X, Y, the stack pointer and the other flags are
unchanged. -/
theorem C92_endless_partial (hI : Coherent b I) (hacc : AcceptsAt b I fun a => a.toNat < 256)
    (hm : I c.address_map mem) (hpc : c.pc = word p)
    (hcode : ProgramAt mem p ((mosTarget 5).compile p prog)) (hp : p + (mosTarget 5).size prog ≤ 65532)
    (h : ¬ Ends mosCosts prog (zeroPage mem)) (cycles : Nat) :
    ∃ d q, run b c cycles = .ok (.ready d) ∧ d.pc = word q ∧ p ≤ q ∧ q < p + (mosTarget 5).size prog ∧
      Kept (regs c) (regs d) ∧
      ∃ mem', I d.address_map mem' ∧ ∀ a : Word, 256 ≤ a.toNat → mem' a = mem a := by
  have key := compile_endless (mos_works hI hacc) h hcode hp (isAt_self hm hpc)
  cases hr : run b c cycles with
  | error e =>
    obtain ⟨l, d, h1, -, h3⟩ := C12_panic.1 hr
    obtain ⟨t, σ, q, ht, -⟩ := key (l.length + 1)
    obtain ⟨l', hl', hlen⟩ := path_instructions ht
    obtain ⟨ops, f, hf⟩ := instructions_go_on h1 hl' hlen
    rw [hf] at h3
    cases h3
  | ok s =>
    obtain ⟨l, d, h1, -, rfl, -⟩ := C12_run_ok hr
    obtain ⟨t, σ, q, ht, hat, hq⟩ := key l.length
    obtain ⟨l', hl', hlen⟩ := path_instructions ht
    obtain ⟨-, rfl⟩ := instructions_same h1 hl' hlen.symm
    obtain ⟨mem', e1, -, e3⟩ := hat.memory
    exact ⟨d, q, rfl, hat.pc, hq.1, hq.2, hat.kept, mem', e1, e3⟩

/-- C92, what holds: the emulator gets behind the code exactly if the program ends. -/
theorem C92_ends_iff_partial (hI : Coherent b I) (hacc : AcceptsAt b I fun a => a.toNat < 256)
    (hm : I c.address_map mem) (hpc : c.pc = word p)
    (hcode : ProgramAt mem p ((mosTarget 5).compile p prog)) (hp : p + (mosTarget 5).size prog ≤ 65532) :
    (∃ cycles d, run b c cycles = .ok (.ready d) ∧ d.pc = word (p + (mosTarget 5).size prog)) ↔
      Ends mosCosts prog (zeroPage mem) := by
  constructor
  · rintro ⟨n, d, hd, hq⟩
    refine Classical.byContradiction fun hno => ?_
    obtain ⟨d', q, hr, h1, h2, h3, -⟩ := C92_endless_partial hI hacc hm hpc hcode hp hno n
    rw [hd] at hr
    injection hr with hr
    injection hr with hr
    subst hr
    rw [hq] at h1
    have := congrArg BitVec.toNat h1
    rw [toNat_word_lt _ (by omega), toNat_word_lt _ (by omega)] at this
    omega
  · rintro ⟨n, σ, h⟩
    obtain ⟨l, d, -, -, h3, h4, -⟩ := C92_result_partial hI hacc hm hpc hcode hp h
    exact ⟨_, d, h3, h4⟩

/-- C92, where the tests lead: a test whose condition holds continues `d` bytes behind its branch
instruction, 2 less than documented; so only the displacement 5 skips the jump behind the test, and
the documented 3 leads into the middle of that jump. -/
theorem C92_test_partial {d : Byte} (hd : d.toNat < 128) {g : Guard Byte} (hI : Coherent b I)
    (hacc : AcceptsAt b I fun a => a.toNat < 256) (hm : I c.address_map mem) (hpc : c.pc = word p)
    (hcode : ProgramAt mem p ((mosTarget d).test g)) (hp : p + 6 ≤ 65532) :
    ∃ l e, Instructions b c l e ∧ l.length = 3 ∧ run b c (totalCycles l) = .ok (.ready e) ∧
      e.pc = word (if g.Holds (zeroPage mem) then p + 4 + d.toNat else p + 6) := by
  obtain ⟨e, he, -, hat⟩ := test_lands hd hI hacc hcode hp (isAt_self hm hpc)
  obtain ⟨l, hl, hn⟩ := path_instructions he
  exact ⟨l, e, hl, hn, C12_run_eq hl (Nat.le_refl _) (.inl rfl), hat.pc⟩

/-- A program without conditionals and loops. -/
def Straight : Cmd Byte → Prop
  | .skip | .act _ => True
  | .seq c d => Straight c ∧ Straight d
  | .ite _ _ _ | .loop _ _ => False

theorem straight_size (d : Byte) : ∀ {prog : Cmd Byte}, Straight prog →
    (mosTarget d).size prog = (mosTarget 5).size prog
  | .skip, _ => rfl
  | .act a, _ => by cases a <;> rfl
  | .seq c e, h => by
    show (mosTarget d).size c + (mosTarget d).size e = _
    rw [straight_size d h.1, straight_size d h.2]; rfl

theorem straight_code (d : Byte) : ∀ {prog : Cmd Byte} (p : Nat), Straight prog →
    (mosTarget d).compile p prog = (mosTarget 5).compile p prog
  | .skip, _, _ => rfl
  | .act a, _, _ => by cases a <;> rfl
  | .seq c e, p, h => by
    show (mosTarget d).compile p c ++ (mosTarget d).compile (p + (mosTarget d).size c) e = _
    rw [straight_code d _ h.1, straight_code d _ h.2, straight_size d h.1]; rfl

/-- C92, what holds of code after the manual: programs without conditionals and loops. -/
theorem C92_straight_partial (hI : Coherent b I) (hacc : AcceptsAt b I fun a => a.toNat < 256)
    (hm : I c.address_map mem) (hpc : c.pc = word p) (hs : Straight prog)
    (hcode : ProgramAt mem p ((mosTarget 3).compile p prog)) (hp : p + (mosTarget 3).size prog ≤ 65532)
    {n : Nat} {σ : Store Byte} (h : Exec mosCosts prog (zeroPage mem) n σ) :
    ∃ l d, Instructions b c l d ∧ l.length = n ∧ run b c (totalCycles l) = .ok (.ready d) ∧
      d.pc = word (p + (mosTarget 3).size prog) ∧ Kept (regs c) (regs d) ∧
      ∃ mem', I d.address_map mem' ∧ zeroPage mem' = σ ∧ ∀ a : Word, 256 ≤ a.toNat → mem' a = mem a := by
  rw [straight_code 3 p hs] at hcode
  rw [straight_size 3 hs] at hp ⊢
  exact C92_result_partial hI hacc hm hpc hcode hp h

end

/-! ### Concrete cases -/

/-- A CPU at `p` with the bytes `ws` there, 12 at address 0, 21 at address 1 and 0 elsewhere. -/
def bytesSample (p : Nat) (ws : List Byte) : Mos6502 FlatRam :=
  withRegs { sampleRegs with pc := word p } ⟨fun a =>
    if a.toNat < p then (if a = 0 then 12 else if a = 1 then 21 else 0) else ws.getD (a.toNat - p) 0⟩

/-- `if z = 0 then x := 1`, with z at address 2 and x at address 3. -/
def condSample : Cmd Byte := .ite (.eqK 2 0) (.act (.set 3 1)) .skip

theorem condSample_exec (σ : Store Byte) (h : σ 2 = 0) : Exec mosCosts condSample σ 6 (put σ 3 1) :=
  .iteTrue (g := .eqK 2 0) h .act

/-- The code after the manual. The jump over the conditional's body has the low byte 0x02 in its
target, which is no instruction. -/
example : (mosTarget 3).compile 0x2f2 condSample =
    [0xa5, 2, 0xc9, 0, 0xf0, 3, 0x4c, 0x02, 0x03, 0xa9, 1, 0x85, 3, 0x4c, 0x02, 0x03] := by decide +kernel

theorem bytesSample_code {p : Nat} {ws : List Byte} (h1 : 256 ≤ p) (h2 : p + ws.length ≤ 65536) :
    ProgramAt (bytesSample p ws).address_map.mem p ws := by
  refine ⟨h1, fun i hi => ?_⟩
  have e : (word (p + i)).toNat = p + i := toNat_word_lt _ (by omega)
  show (if (word (p + i)).toNat < p then _ else ws.getD ((word (p + i)).toNat - p) 0) = _
  rw [e, if_neg (by omega), Nat.add_sub_cancel_left, List.getD_eq_getElem?_getD, List.getElem?_eq_getElem hi]
  rfl

theorem flatRam_acceptsAt (b : Build) (W : Word → Prop) :
    AcceptsAt b (fun (d : FlatRam) mem => d.mem = mem) W :=
  fun _ _ _ _ _ _ => ⟨_, _, rfl⟩

/-- The branch over the jump lands on the second byte of the jump, 0x02, and the emulator panics. -/
theorem C92_after_the_manual_wrong : ¬ C92_statement := by
  intro h
  have hlen : ((mosTarget 3).compile 0x2f2 condSample).length = 16 := by decide +kernel
  have hcode := bytesSample_code (p := 0x2f2) (ws := (mosTarget 3).compile 0x2f2 condSample) (by omega)
    (by rw [hlen]; omega)
  obtain ⟨n, d, h1, h2, -⟩ := h FlatRam .debug _ (flatRam_coherent _) (flatRam_acceptsAt _ _)
    (bytesSample 0x2f2 ((mosTarget 3).compile 0x2f2 condSample)) _ 0x2f2 condSample 6 _ rfl rfl hcode
    (by decide) (condSample_exec _ (by decide +kernel))
  obtain ⟨e, he, -, hat⟩ := test_lands (b := .debug) (g := .eqK 2 0) (d := 3) (by decide) (flatRam_coherent _)
    (flatRam_acceptsAt _ _) ⟨hcode.1, (hcode.split (u := (mosTarget 3).test (.eqK 2 0))).1⟩ (by decide)
    (isAt_self rfl rfl)
  rw [if_pos (by show _ = _; decide +kernel)] at hat
  -- the panic
  have hx : ∃ q, next .debug e = .error q := by
    obtain ⟨mem', rfl, -, m3⟩ := hat.memory
    refine ⟨_, (next_error_iff (mem := e.address_map.mem) (fun _ => rfl)).2 (.inr ⟨?_, .inl ⟨?_, rfl⟩⟩)⟩
    · rw [hat.pc]; decide
    · rw [hat.pc, m3 _ (by decide), m3 _ (by decide), m3 _ (by decide)]
      decide +kernel
  obtain ⟨q, hx⟩ := hx
  obtain ⟨l, d', k1, -, k3, -⟩ := C12_run_ok h1
  injection k3 with k3
  subst k3
  rcases path_stuck he hx k1 with rfl | ⟨r, hr, r1, r2⟩
  · rw [hat.pc] at h2
    revert h2
    decide
  · rw [h2] at hr
    have := congrArg BitVec.toNat hr
    rw [toNat_word_lt r (by omega)] at this
    have e : (word (0x2f2 + (mosTarget 3).size condSample)).toNat = 0x302 := by decide
    omega

/-- `y := y + x` in unary: `while x ≠ 0 do (x := x - 1; y := y + 1)`, x at address 0, y at address 1. -/
def addUp : Cmd Byte := .loop (.neK 0 0) (.seq (.act (.add 0 0xff)) (.act (.add 1 1)))

theorem addUp_exec (m : Nat) : ∀ σ : Store Byte, (σ 0).toNat = m →
    Exec mosCosts addUp σ (12 * m + 4) (put (put σ 0 0) 1 (BitVec.ofNat 8 ((σ 1).toNat + m))) := by
  induction m with
  | zero =>
    intro σ h
    have h0 : σ 0 = 0 := BitVec.eq_of_toNat_eq h
    have : put (put σ 0 0) 1 (BitVec.ofNat 8 ((σ 1).toNat + 0)) = σ := by
      funext y
      unfold put
      split
      · rename_i hy; rw [hy]; simp
      · split
        · rename_i hy; rw [hy, h0]
        · rfl
    rw [this]
    exact .loopFalse fun hn => hn h0
  | succ m ih =>
    intro σ h
    have hg : Guard.Holds σ (.neK 0 0) := by
      intro h0
      change σ 0 = 0 at h0
      rw [h0] at h
      cases h
    have hm : m < 256 := by have := (σ 0).isLt; omega
    obtain ⟨σ₁, hσ⟩ : ∃ σ₁, σ₁ = Act.eval (Act.eval σ (.add 0 0xff)) (.add 1 1) := ⟨_, rfl⟩
    have body : Exec mosCosts (.seq (.act (.add 0 0xff)) (.act (.add 1 1))) σ (4 + 4) σ₁ := hσ ▸ .seq .act .act
    have e0 : (σ₁ 0).toNat = m := by
      rw [hσ]
      show (BitVec.ofNat 8 ((σ 0).toNat + (0xff : Byte).toNat)).toNat = m
      rw [BitVec.toNat_ofNat, show (0xff : Byte).toNat = 255 from rfl]
      omega
    have e1 : (σ₁ 1).toNat = ((σ 1).toNat + 1) % 256 := by
      rw [hσ]
      show (BitVec.ofNat 8 ((σ 1).toNat + (1 : Byte).toNat)).toNat = _
      rw [BitVec.toNat_ofNat]; rfl
    have := Exec.loopTrue hg body (ih σ₁ e0)
    have ec : 12 * (m + 1) + 4 = mosCosts.test (.neK 0 0) + (4 + 4) + 1 + (12 * m + 4) := by
      show _ = 3 + (4 + 4) + 1 + (12 * m + 4)
      omega
    have ev : put (put σ₁ 0 0) 1 (BitVec.ofNat 8 ((σ₁ 1).toNat + m)) =
        put (put σ 0 0) 1 (BitVec.ofNat 8 ((σ 1).toNat + (m + 1))) := by
      have : BitVec.ofNat 8 ((σ₁ 1).toNat + m) = BitVec.ofNat 8 ((σ 1).toNat + (m + 1)) := by
        apply BitVec.eq_of_toNat_eq
        simp only [BitVec.toNat_ofNat, e1]
        omega
      rw [this, hσ]
      funext y
      simp only [put, Act.eval]
      split
      · rfl
      · split <;> rfl
    rw [ec, ← ev]
    exact this

/-- The code for the emulator. -/
example : (mosTarget 5).compile 0x300 addUp =
    [0xa5, 0, 0xc9, 0, 0xd0, 5, 0x4c, 0x1a, 0x03, 0xa5, 0, 0x18, 0x69, 0xff, 0x85, 0,
     0xa5, 1, 0x18, 0x69, 1, 0x85, 1, 0x4c, 0x00, 0x03] := by decide +kernel

/-- 12 and 21 are added in 12 · 12 + 4 instructions. -/
example : ∃ l d, Instructions .debug (bytesSample 0x300 ((mosTarget 5).compile 0x300 addUp)) l d ∧
    l.length = 148 ∧ d.pc = 0x31a ∧ d.address_map.mem 1 = 33 := by
  have hlen : ((mosTarget 5).compile 0x300 addUp).length = 26 := by decide +kernel
  obtain ⟨l, d, h1, h2, -, h4, -, mem, rfl, h6, -⟩ := C92_result_partial (b := .debug) (p := 0x300) (prog := addUp)
    (c := bytesSample 0x300 ((mosTarget 5).compile 0x300 addUp)) (flatRam_coherent _) (flatRam_acceptsAt _ _)
    rfl rfl (bytesSample_code (by omega) (by rw [hlen]; omega)) (by decide) (addUp_exec 12 _ (by decide +kernel))
  refine ⟨l, d, h1, h2, by rw [h4]; decide, ?_⟩
  have := congrFun h6 1
  change d.address_map.mem 1 = _ at this
  rw [this]
  decide +kernel

/-- `while x = x do y := y + 1`. -/
def mosForever : Cmd Byte := .loop (.eq 0 0) (.act (.add 1 1))

theorem mosForever_endless (σ : Store Byte) : ¬ Ends mosCosts mosForever σ := by
  rintro ⟨n, σ', h⟩
  have : ∀ {c : Cmd Byte} {σ σ' : Store Byte} {n : Nat}, Exec mosCosts c σ n σ' → c = mosForever → False := by
    intro c σ σ' n h
    induction h with
    | loopTrue _ _ _ _ ih => intro e; exact ih e
    | loopFalse hg => intro e; cases e; exact hg rfl
    | _ => intro e; cases e
  exact this h rfl

example (n : Nat) : ∃ d, run .release (bytesSample 0x300 ((mosTarget 5).compile 0x300 mosForever)) n =
    .ok (.ready d) ∧ 0x300 ≤ d.pc.toNat ∧ d.pc.toNat < 0x313 := by
  have hlen : ((mosTarget 5).compile 0x300 mosForever).length = 19 := by decide +kernel
  obtain ⟨d, q, h1, h2, h3, h4, -⟩ := C92_endless_partial (b := .release) (p := 0x300) (prog := mosForever)
    (c := bytesSample 0x300 ((mosTarget 5).compile 0x300 mosForever)) (flatRam_coherent _)
    (flatRam_acceptsAt _ _) rfl rfl (bytesSample_code (by omega) (by rw [hlen]; omega)) (by decide)
    (mosForever_endless _) n
  have h4' : q < 0x313 := h4
  refine ⟨d, h1, ?_⟩
  rw [h2, toNat_word_lt _ (by omega)]
  exact ⟨h3, h4'⟩

/-- A program that runs after the manual too. -/
example : ∃ d, (∃ n, run .debug (bytesSample 0x300 ((mosTarget 3).compile 0x300
    (.seq (.act (.xor 0 1)) (.act (.set 1 7))))) n = .ok (.ready d)) ∧ d.address_map.mem 0 = 0x19 := by
  obtain ⟨l, d, -, -, h3, -, -, mem, rfl, h6, -⟩ := C92_straight_partial (b := .debug) (p := 0x300)
    (prog := .seq (.act (.xor 0 1)) (.act (.set 1 7)))
    (c := bytesSample 0x300 ((mosTarget 3).compile 0x300 (.seq (.act (.xor 0 1)) (.act (.set 1 7)))))
    (flatRam_coherent _) (flatRam_acceptsAt _ _) rfl rfl ⟨trivial, trivial⟩
    (bytesSample_code (by omega) (by decide +kernel)) (by decide) (.seq .act .act)
  refine ⟨d, ⟨_, h3⟩, ?_⟩
  have := congrFun h6 0
  change d.address_map.mem 0 = _ at this
  rw [this]
  decide +kernel

end Verif.Props
