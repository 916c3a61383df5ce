import Verif.Proofs.MosCounter
import Verif.Props.Mos.Bound
import Verif.Props.Mos.Timed
import Verif.Props.Mos.Demo

/-!
# C137: some programs do have to run for long
-/

namespace Verif.Props

open Verif Verif.Mos Verif.Spec Verif.Spec.Mos

/-- `r` bytes of RAM at the bottom, all 0, and a program in ROM right above them. -/
def counterMap (r : Nat) (code : List Byte) : AddressMap Memory :=
  ⟨[(⟨word r, word (r + code.length - 1)⟩, ⟨.readOnly, word r, word (r + code.length - 1), code⟩),
    (⟨0, word (r - 1)⟩, ⟨.readWrite, 0, word (r - 1), List.replicate r 0⟩)]⟩

/-- A bus of memory segments with RAM below `r`. -/
def CounterBus (b : Build) (r : Nat) (m : AddressMap Memory) (mem : Mem) : Prop :=
  ∃ h, Spec.MemTrace b h m ∧ mem = (Spec.Bus.after h).val ∧
    ∀ a : Word, a.toNat < r → (Spec.Bus.after h).owner a = some .readWrite

theorem counterBus_coherent (b : Build) (r : Nat) : Coherent b (CounterBus b r) := by
  rintro m mem ⟨h, ht, rfl, ho⟩
  obtain ⟨hv, hw⟩ := trace_coherent b m _ ⟨h, ht, rfl⟩
  refine ⟨hv, ?_⟩
  intro a v res m' hwr
  obtain ⟨h', ht', e'⟩ := hw a v res m' hwr
  refine ⟨h ++ [.write a v], .write ht hwr, ?_, ?_⟩
  · funext x
    have q1 := (ht.write hwr).inv.read b x
    have q2 := ht'.inv.read b x
    rw [e']
    rw [q1] at q2
    simpa using q2.symm
  · intro x hx
    rw [Spec.Bus.after_append, owner_step_write]
    exact ho x hx

theorem counterBus_accepts (b : Build) (r : Nat) : AcceptsAt b (CounterBus b r) fun a => a.toNat < r := by
  rintro m mem ⟨h, ht, rfl, ho⟩ a ha v
  obtain ⟨res, m', h1, -, h3⟩ := ht.inv.write b a v
  rw [ho a ha] at h3
  subst h3
  exact ⟨v, m', h1⟩

theorem counterBus_start (b : Build) {r : Nat} {code : List Byte} (hr : 0 < r) (hl : 0 < code.length)
    (hr' : r + code.length ≤ 65536) :
    ∃ mem, CounterBus b r (counterMap r code) mem ∧ CodeAt mem r code ∧ number mem 0 r = 0 := by
  have e0 : (0 : Word).toNat = 0 := rfl
  have e1 : (word (r - 1)).toNat = r - 1 := toNat_word_lt _ (by omega)
  have e2 : (word r).toNat = r := toNat_word_lt _ (by omega)
  have e3 : (word (r + code.length - 1)).toNat = r + code.length - 1 := toNat_word_lt _ (by omega)
  have n1 : Memory.new b .readWrite 0 (word (r - 1)) =
      .ok ⟨.readWrite, 0, word (r - 1), List.replicate r 0⟩ := by
    unfold Memory.new
    rw [if_pos (by omega), e0, e1, show r - 1 - 0 + 1 = r by omega]
  have n2 : Memory.new b .readOnly (word r) (word (r + code.length - 1)) =
      .ok ⟨.readOnly, word r, word (r + code.length - 1), List.replicate code.length 0⟩ := by
    unfold Memory.new
    rw [if_pos (by omega), e2, e3, show r + code.length - 1 - r + 1 = code.length by omega]
  have t1 : Spec.MemTrace b [.register .readWrite ⟨0, word (r - 1)⟩ (List.replicate r 0)]
      ⟨(counterMap r code).inner.drop 1⟩ :=
    .register (h := []) (r := ⟨0, word (r - 1)⟩) .new n1 rfl (by intro e he; cases he)
      ⟨_, rfl, List.Perm.refl _⟩
  have t2 : Spec.MemTrace b [.register .readWrite ⟨0, word (r - 1)⟩ (List.replicate r 0),
      .register .readOnly ⟨word r, word (r + code.length - 1)⟩ code] (counterMap r code) :=
    .register (h := [_]) (r := ⟨word r, word (r + code.length - 1)⟩) t1 n2
      (List.length_replicate ..).symm
      (by intro e he; apply not_overlap
          simp only [counterMap, List.drop, List.mem_cons, List.not_mem_nil, or_false] at he
          subst he
          right; show (word (r - 1)).toNat < (word r).toNat; omega)
      (by
        have h1 : (⟨0, word (r - 1)⟩ : AddrRange).contains (word r) = false := by
          simp only [AddrRange.contains, e1, e2]
          exact Bool.and_eq_false_iff.2 (.inr (decide_eq_false (by omega)))
        have h2 : (⟨0, word (r - 1)⟩ : AddrRange).contains (word (r + code.length - 1)) = false := by
          simp only [AddrRange.contains, e1, e3]
          exact Bool.and_eq_false_iff.2 (.inr (decide_eq_false (by omega)))
        have h3 : (⟨word r, word (r + code.length - 1)⟩ : AddrRange) ≠ ⟨0, word (r - 1)⟩ := by
          intro e
          have := congrArg (fun x : AddrRange => x.start.toNat) e
          simp only [e2] at this
          change r = 0 at this
          omega
        refine ⟨counterMap r code, ?_, List.Perm.refl _⟩
        unfold AddressMap.register AddressMap.insert
        rw [if_neg, if_neg]
        · rfl
        · show ¬ _ ∈ [(⟨0, word (r - 1)⟩ : AddrRange)]
          rw [List.mem_singleton]
          exact h3
        · show ¬ ((((⟨0, word (r - 1)⟩ : AddrRange).contains (word r) ||
            (⟨0, word (r - 1)⟩ : AddrRange).contains (word (r + code.length - 1))) || false) = true)
          rw [h1, h2]
          decide)
  refine ⟨_, ⟨_, t2, rfl, ?_⟩, ?_, ?_⟩
  · intro a ha
    simp only [Spec.Bus.after, List.foldl, Spec.Bus.step, Spec.Bus.empty, Spec.InRange, e0, e1, e2, e3]
    rw [if_neg (by omega), if_pos (by omega)]
  · intro k hk
    have ek : (word (r + k)).toNat = r + k := toNat_word_lt _ (by omega)
    simp only [Spec.Bus.after, List.foldl, Spec.Bus.step, Spec.Bus.empty, Spec.InRange, e2, e3, ek]
    rw [if_pos (by omega), show r + k - r = k by omega, List.getD_eq_getElem?_getD,
      List.getElem?_eq_getElem hk]
    rfl
  · have : ∀ n, n ≤ r → number (Spec.Bus.after [.register .readWrite ⟨0, word (r - 1)⟩ (List.replicate r 0),
        .register .readOnly ⟨word r, word (r + code.length - 1)⟩ code]).val 0 n = 0 := by
      intro n
      induction n with
      | zero => intro _; rfl
      | succ n ih =>
        intro hn
        have en : (word (0 + n)).toNat = n := by rw [Nat.zero_add]; exact toNat_word_lt _ (by omega)
        rw [number, ih (by omega)]
        simp only [Spec.Bus.after, List.foldl, Spec.Bus.step, Spec.Bus.empty, Spec.InRange, e0, e1, e2, e3, en]
        rw [if_neg (by omega), if_pos (by omega), List.getD_eq_getElem?_getD, List.getElem?_replicate]
        split <;> rfl
    exact this r (Nat.le_refl _)

theorem instructions_before {B : Type} [Addressable B] {b : Build} {c d e : Mos6502 B}
    {l l' : List Operations} (h : Instructions b c l d) (h' : Instructions b c l' e)
    (hlen : l.length < l'.length) : ∃ ops f, next b d = .ok (ops, f) := by
  induction h generalizing l' with
  | nil =>
    cases h' with
    | nil => simp at hlen
    | cons hn _ => exact ⟨_, _, hn⟩
  | cons hn _ ih =>
    cases h' with
    | nil => simp at hlen
    | cons hn' hr' =>
      rw [hn] at hn'
      injection hn' with hn'
      injection hn' with h1 h2
      subst h2
      exact ih hr' (by simpa using hlen)

/-- C137, from below: the bound cannot be much smaller. For every number `r` of bytes of RAM up to 7281
there is a program, in ROM, that panics, whatever the registers are, but not within `9 * 256^r` cycles. -/
theorem C137_needed (b : Build) {r : Nat} (hr : 0 < r) (hr' : r ≤ 7281) (s : Regs) (hs : s.pc = word r) :
    ramBytes (counterMap r (counterCode r 0 r)) = r ∧
    (∃ n p, run b (withRegs s (counterMap r (counterCode r 0 r))) n = .error p) ∧
    ∀ n, n ≤ 9 * 256 ^ r → ∃ d, run b (withRegs s (counterMap r (counterCode r 0 r))) n = .ok d := by
  refine ⟨?_, ?_⟩
  · simp [ramBytes, counterMap]
  obtain ⟨mem, hm, hc, hz⟩ := counterBus_start b (code := counterCode r 0 r) hr
    (by rw [counterCode_length]; omega) (by rw [counterCode_length]; omega)
  obtain ⟨k, cyc, s', mem', h1, h2, h3, h4⟩ := counter_all (counterBus_coherent b r)
    (counterBus_accepts b r) hr (Nat.le_refl r) (by omega)
    (fun k hk => by show (word k).toNat < r; rw [toNat_word_lt _ (by omega)]; exact hk) (256 ^ r) s mem
    hc hs (by omega)
  obtain ⟨l, d, hl, -, hcyc, hd, hdm⟩ := h1 (withRegs s (counterMap r (counterCode r 0 r))) rfl hm
  have hcode : CodeAt mem' r (counterCode r 0 r) :=
    codeAt_only h2 hc (by omega) (by rw [counterCode_length]; omega)
  have hlast : mem' (word (r + 8 * r)) = 0x02 := by
    have : ∀ n i q, CodeAt mem' q (counterCode r i n) → mem' (word (q + 8 * n)) = 0x02 := by
      intro n
      induction n with
      | zero => intro i q h; exact h 0 (by simp [counterCode])
      | succ n ih =>
        intro i q h
        obtain ⟨-, h⟩ := codeAt_append h
        obtain ⟨-, h⟩ := codeAt_append h
        obtain ⟨-, h⟩ := codeAt_append h
        have := ih (i + 1) (q + 8) h
        rwa [show q + 8 * (n + 1) = q + 8 + 8 * n by omega]
    exact this r 0 r hcode
  have hpc : d.pc = word (r + 8 * r) := by
    have := congrArg Regs.pc hd
    exact this.trans h4
  have hpanic := (C36_panics (cpu := d) ((counterBus_coherent b r _ _ hdm).1)).2.1
    (fun h => by rw [hpc, toNat_word_lt _ (by omega)] at h; omega)
    (by rw [hpc, hlast]; rfl)
  refine ⟨⟨cyc + 1, _, C12_panic.2 ⟨l, d, hl, by omega, hpanic⟩⟩, ?_⟩
  intro n hn
  cases hx : run b (withRegs s (counterMap r (counterCode r 0 r))) n with
  | ok e => exact ⟨e, rfl⟩
  | error q =>
    exfalso
    obtain ⟨l', d', g1, g2, g3⟩ := C12_panic.1 hx
    rcases Nat.lt_trichotomy l'.length l.length with h | h | h
    · obtain ⟨ops, f, hf⟩ := instructions_before g1 hl h
      rw [g3] at hf
      cases hf
    · obtain ⟨rfl, rfl⟩ := instructions_same g1 hl h
      omega
    · have := prefix_cycles hl g1 (by omega)
      omega

/-! ### A concrete case -/

/-- With one byte of RAM the program takes at least 2304 cycles and panics; so it does within the bound of
`C137_map`. -/
example : ∃ p, run .debug (withRegs { sampleRegs with pc := 1 } (counterMap 1 (counterCode 1 0 1))) (7 * mosStates 256) = .error p ∧
    ∃ d, run .debug (withRegs { sampleRegs with pc := 1 } (counterMap 1 (counterCode 1 0 1))) 2304 = .ok d := by
  obtain ⟨h1, ⟨n, p, h2⟩, h3⟩ := C137_needed .debug (r := 1) (by decide) (by decide)
    { sampleRegs with pc := 1 } rfl
  refine ⟨p, ?_, h3 2304 (by decide)⟩
  have := C137_map h2
  exact this

end Verif.Props
